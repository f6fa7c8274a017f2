import Verif.Props.IoLog

/-!
# What the log says about the frames sent (C172)

When a frame is put into the write buffer, a line about it is written: the settings and their acknowledgement, the header of an
answer, each piece of its body, and the last frame. C172 asks whether there is one for each frame, and whether it is true.
-/

namespace Ion

namespace Spec

/-- A text about a frame that is sent, or about the body of an answer. -/
def AboutSent (text : Bytes) : Bool :=
  b!"SETTINGS frame sent".isPrefixOf text || b!"GOAWAY frame enqueued".isPrefixOf text ||
  b!"sending response body ".isPrefixOf text || b!"enqueuing data frame ".isPrefixOf text ||
  b!" status code sent w/headers".isPrefixOf (text.dropWhile Digit) ||
    b!"read ".isPrefixOf text && b!" settings, sending ACK".isPrefixOf ((text.drop 5).dropWhile Digit)

/-- The lines about frames sent. -/
def notices (lines : List Line) : List Line := lines.filter fun l => AboutSent l.2

/-- An event that puts octets into the write buffer, or decides on an answer. -/
def Puts : Ev → Bool
  | .enqueue _ => true
  | .respond _ _ _ => true
  | _ => false

/-- DATA frames that carry a body, with a line for each: the number of octets in it and of those that remain. The last one
ends the stream. -/
inductive DataNoticed (stream : Nat) : Bytes → List Frame → List Line → Prop where
  | done : DataNoticed stream [] [] []
  | piece (bs rest sz rem : Bytes) (fs : List Frame) (ls : List Line) : bs ≠ [] → IsDecimal bs.length sz →
    IsDecimal rest.length rem → DataNoticed stream rest fs ls →
    DataNoticed stream (bs ++ rest) (⟨0, if rest = [] then 1 else 0, stream, bs⟩ :: fs)
      ((.trace, b!"enqueuing data frame for write (size: " ++ sz ++ b!", rem: " ++ rem ++ b!")") :: ls)

/-- The frames of a body that is not empty come after a line with its length. -/
inductive BodyNoticed (stream : Nat) : Bytes → List Frame → List Line → Prop where
  | none : BodyNoticed stream [] [] []
  | some (body len : Bytes) (fs : List Frame) (ls : List Line) : body ≠ [] → IsDecimal body.length len →
    DataNoticed stream body fs ls →
    BodyNoticed stream body fs ((.info, b!"sending response body (length: " ++ len ++ b!")") :: ls)

/-- Frames sent, the answers among them, and the lines about them. -/
inductive Noticed : List Frame → List (UInt32 × HttpResponse × Bytes) → List Line → Prop where
  | nil : Noticed [] [] []
  | settings (f : Frame) (fs : List Frame) (rs : List (UInt32 × HttpResponse × Bytes)) (ls : List Line) : ServerPreface f →
    Noticed fs rs ls → Noticed (f :: fs) rs ((.debug, b!"SETTINGS frame sent") :: ls)
  | ack (n : Nat) (num : Bytes) (fs : List Frame) (rs : List (UInt32 × HttpResponse × Bytes)) (ls : List Line) :
    IsDecimal n num → Noticed fs rs ls →
    Noticed (⟨4, 1, 0, []⟩ :: fs) rs ((.debug, b!"read " ++ num ++ b!" settings, sending ACK") :: ls)
  | goaway (f : Frame) (fs : List Frame) (rs : List (UInt32 × HttpResponse × Bytes)) (ls : List Line) : f.type = 7 →
    Noticed fs rs ls → Noticed (f :: fs) rs ((.debug, b!"GOAWAY frame enqueued") :: ls)
  | answer (stream : UInt32) (resp : HttpResponse) (block num : Bytes) (ds fs : List Frame)
    (rs : List (UInt32 × HttpResponse × Bytes)) (bl ls : List Line) : IsDecimal resp.status.toNat num →
    BodyNoticed (stream.toNat % 2 ^ 31) resp.body ds bl → Noticed fs rs ls →
    Noticed (⟨1, if resp.body = [] then 5 else 4, stream.toNat % 2 ^ 31, block⟩ :: ds ++ fs) ((stream, resp, block) :: rs)
      ((.info, num ++ b!" status code sent w/headers") :: bl ++ ls)

/-- An application and a transport that do not write such lines themselves. -/
structure Reserved {W : Type} (app : AppLog W) (net : NetLog) : Prop where
  app : ∀ req w, notices (app.lines req w) = []
  handshake : ∀ r, notices (net.handshake r) = []
  read : ∀ rs, notices (net.read rs) = []
  write : ∀ a ws, notices (net.write a ws) = []
  shutdown : notices net.shutdown = []

/-- A connection after some calls of `process` and `close`, with what has been logged in them. -/
inductive Overheard {W : Type} (cfg : Cfg W) (app : AppLog W) (w : W) (now : Nat) : Sim W → List Line → Prop where
  | new : Overheard cfg app w now (Sim.init w now) []
  | step (s s' : Sim W) (lines : List Line) (env : Env) (net : NetLog) (r : ProcRes) :
    Overheard cfg app w now s lines → Reserved app net → s.process cfg env = .ok (r, s') →
    Overheard cfg app w now s' (lines ++ s.processLines cfg app net env)
  | closed (s : Sim W) (lines : List Line) :
    Overheard cfg app w now s lines → Overheard cfg app w now s.close (lines ++ s.closeCallLines)

end Spec

open Spec

/-! ## Lines about other things -/

theorem notices_append (a b : List Line) : notices (a ++ b) = notices a ++ notices b := List.filter_append ..

theorem notices_skip {v : Level} {t : Bytes} (h : AboutSent t = false) (ls : List Line) :
    notices ((v, t) :: ls) = notices ls := by
  simp [notices, h]

theorem notices_nil : notices [] = [] := rfl

theorem mute_cons {v : Level} {t : Bytes} {ls : List Line} (h : AboutSent t = false) (hl : notices ls = []) :
    notices ((v, t) :: ls) = [] := by rw [notices_skip h, hl]

theorem mute_append {a b : List Line} (ha : notices a = []) (hb : notices b = []) : notices (a ++ b) = [] := by
  rw [notices_append, ha, hb]; rfl

theorem mute_one {v : Level} {t : Bytes} (h : AboutSent t = false) : notices [(v, t)] = [] := mute_cons h rfl

theorem insertLines_mute (t : DynTable) (h : Header) : notices (t.insertLines h) = [] := by
  simp only [DynTable.insertLines]
  split <;> exact mute_one rfl

theorem entryLines_mute : ∀ (hs : List Header) (pos : Nat), notices (entryLines pos hs) = []
  | [], _ => rfl
  | _ :: hs, pos => mute_cons rfl (entryLines_mute hs (pos + 1))

theorem tablesLines_mute (dec enc : DynTable) : notices (tablesLines dec enc) = [] :=
  mute_append (mute_cons rfl (mute_cons rfl (entryLines_mute ..))) (mute_cons rfl (mute_cons rfl (entryLines_mute ..)))

theorem restLines_mute (br : BitReader) (bits : Nat) : notices (HuffTree.restLines br bits) = [] := by
  fun_induction HuffTree.restLines br bits with
  | case1 => exact mute_one rfl
  | case2 _ _ _ _ ih => exact ih
  | case3 => rfl

theorem loopLines_mute (root : HuffTree) (br : BitReader) (current : HuffTree) (bits : Nat) :
    notices (HuffTree.loopLines root br current bits) = [] := by
  fun_induction HuffTree.loopLines root br current bits with
  | case1 => rfl
  | case2 => exact restLines_mute ..
  | case3 => assumption
  | case4 => assumption
  | case5 => rfl

theorem limitLines_mute (size : Nat) : notices (limitLines size) = [] := by
  rw [limitLines]
  split
  · rfl
  · exact mute_one rfl

theorem stringLines_mute (isHuffman : Bool) (size : Nat) (data : Bytes) : notices (stringLines isHuffman size data) = [] := by
  rw [stringLines]
  split
  · rw [huffmanStringLines]
    split
    · rfl
    · refine mute_append (loopLines_mute ..) ?_
      split
      · exact limitLines_mute _
      · rfl
  · exact limitLines_mute _

theorem lengthAndStringLines_mute (r : ByteReader) : notices (lengthAndStringLines r) = [] := by
  rw [lengthAndStringLines]
  split
  · exact mute_one rfl
  · split
    · exact mute_one rfl
    · split
      · exact mute_one rfl
      · exact stringLines_mute ..

theorem headerAtLines_mute (t : DynTable) (index i : Nat) : notices (headerAtLines t index i) = [] := by
  rw [headerAtLines]
  split
  · exact mute_one rfl
  · simp only
    split
    · exact mute_one rfl
    · split
      · exact mute_one rfl
      · rfl

theorem headerNameAtLines_mute (t : DynTable) (index i : Nat) : notices (headerNameAtLines t index i) = [] := by
  rw [headerNameAtLines]
  split
  · exact mute_one rfl
  · simp only
    split
    · exact mute_one rfl
    · split
      · exact mute_one rfl
      · rfl

theorem indexedFieldLines_mute (t : DynTable) (r : ByteReader) : notices (indexedFieldLines t r) = [] := by
  rw [indexedFieldLines]
  split
  · exact mute_one rfl
  · split
    · exact mute_one rfl
    · exact headerAtLines_mute ..

theorem valueLines_mute (name : Bytes) (r : ByteReader) : notices (valueLines name r) = [] := by
  rw [valueLines]
  refine mute_append (lengthAndStringLines_mute _) ?_
  split
  · exact mute_one rfl
  · rfl

theorem literalFieldLines_mute (t : DynTable) (bits : UInt8) (r : ByteReader) : notices (literalFieldLines t bits r) = [] := by
  rw [literalFieldLines]
  split
  · exact mute_one rfl
  · refine mute_cons rfl ?_
    split
    · refine mute_append (lengthAndStringLines_mute _) ?_
      split
      · exact valueLines_mute ..
      · rfl
    · refine mute_append (headerNameAtLines_mute ..) ?_
      split
      · exact valueLines_mute ..
      · rfl

theorem sizeUpdateLines_mute (r : ByteReader) : notices (sizeUpdateLines r) = [] := by
  rw [sizeUpdateLines]
  split
  · exact mute_one rfl
  · split <;> exact mute_one rfl

theorem fieldLines_mute (t : DynTable) (r : ByteReader) (b : UInt8) : notices (fieldLines t r b) = [] := by
  rw [fieldLines]
  refine mute_cons rfl ?_
  split
  · exact indexedFieldLines_mute ..
  · refine mute_append (literalFieldLines_mute ..) ?_
    split
    · exact insertLines_mute ..
    · rfl
  · exact literalFieldLines_mute ..
  · exact literalFieldLines_mute ..
  · exact sizeUpdateLines_mute _
  · exact mute_one rfl

theorem blockLoopLines_mute : ∀ (n : Nat) (t : DynTable) (r : ByteReader), notices (blockLoopLines n t r) = []
  | 0, _, [] => rfl
  | _ + 1, _, [] => rfl
  | 0, _, _ :: _ => rfl
  | n + 1, t, b :: r => by
    rw [blockLoopLines]
    refine mute_append (fieldLines_mute ..) ?_
    split
    · exact blockLoopLines_mute ..
    · rfl

theorem encodeLines_mute (c : Bool) : ∀ (hs : List Header) (t : DynTable), notices (encodeLines c t hs) = []
  | [], _ => rfl
  | h :: hs, t => by
    rw [encodeLines]
    refine mute_append ?_ ?_
    · rw [encodeHeaderLines]
      split
      · rfl
      · split
        · rfl
        · split
          · exact insertLines_mute ..
          · rfl
    · split
      · exact encodeLines_mute ..
      · rfl

theorem reads_drop (n : Nat) (t : Bytes) : AboutSent (b!"read " ++ decimal n ++ t) =
    b!" settings, sending ACK".isPrefixOf (t.dropWhile Digit) := by
  rw [← dropDigits n t, List.append_assoc]
  rfl

theorem status_sent (n : Nat) : AboutSent (decimal n ++ b!" status code sent w/headers") = true := by
  simp only [AboutSent]
  rw [dropDigits]
  simp only [show b!" status code sent w/headers".isPrefixOf (b!" status code sent w/headers".dropWhile Digit) = true by
    decide +kernel, Bool.or_true, Bool.true_or]

theorem reads_mute (n : Nat) (t : Bytes) : AboutSent (b!"read " ++ decimal n ++ b!" bytes, buffer size now " ++ t) = false := by
  rw [List.append_assoc, reads_drop]
  rfl

theorem notices_keep {v : Level} {t : Bytes} (h : AboutSent t = true) (ls : List Line) :
    notices ((v, t) :: ls) = (v, t) :: notices ls := by
  simp [notices, h]

namespace Sim
variable {W : Type}

theorem headersLines_mute : ∀ hs : List Header,
    notices (hs.map fun h => ((.debug : Level), b!" - request header: " ++ h.name ++ b!": " ++ h.value)) = []
  | [] => rfl
  | _ :: hs => mute_cons rfl (headersLines_mute hs)

theorem stateLines_mute (s : Sim W) (st : CState) : notices (s.stateLines st) = [] := by
  rw [stateLines]
  split
  · exact mute_one rfl
  · rfl

/-! ## Lines about frames -/

theorem _root_.Ion.Spec.Noticed.append {fs gs : List Frame} {rs qs : List (UInt32 × HttpResponse × Bytes)} {l m : List Line}
    (h : Noticed fs rs l) (k : Noticed gs qs m) : Noticed (fs ++ gs) (rs ++ qs) (l ++ m) := by
  induction h with
  | nil => exact k
  | settings f fs rs ls hf _ ih => exact .settings f _ _ _ hf ih
  | ack n num fs rs ls hn _ ih => exact .ack n num _ _ _ hn ih
  | goaway f fs rs ls hf _ ih => exact .goaway f _ _ _ hf ih
  | answer stream resp block num ds fs rs bl ls h1 h2 _ ih =>
    have := Noticed.answer stream resp block num ds _ _ bl _ h1 h2 ih
    simpa using this

theorem put_nothing {evs : List Ev} (h : ∀ e ∈ evs, Puts e = false) : produced evs = [] ∧ responses evs = [] := by
  induction evs with
  | nil => exact ⟨rfl, rfl⟩
  | cons e evs ih =>
    have h1 := h e (List.mem_cons_self ..)
    have h2 := ih fun x hx => h x (List.mem_cons_of_mem _ hx)
    cases e with
    | enqueue => cases h1
    | respond => cases h1
    | _ => exact h2

/-- The lines agree with the frames sent. -/
def Sends (s : Sim W) (ls : List Line) (s' : Sim W) : Prop :=
  ∃ evs, s'.trace = s.trace ++ evs ∧ ((∀ x ∈ responses evs, x.2.2.length < 2 ^ 24) →
    ∃ fs, FramesWire fs (produced evs) ∧ Noticed fs (responses evs) (notices ls))

theorem Sends.append {s s1 s2 : Sim W} {a b : List Line} (h : Sends s a s1) (k : Sends s1 b s2) : Sends s (a ++ b) s2 := by
  obtain ⟨e1, h1, h2⟩ := h
  obtain ⟨e2, k1, k2⟩ := k
  refine ⟨e1 ++ e2, by rw [k1, h1, List.append_assoc], fun hb => ?_⟩
  rw [responses_append] at hb
  obtain ⟨fs, p1, p2⟩ := h2 fun x hx => hb x (List.mem_append_left _ hx)
  obtain ⟨gs, q1, q2⟩ := k2 fun x hx => hb x (List.mem_append_right _ hx)
  rw [notices_append, responses_append, produced_append]
  exact ⟨fs ++ gs, p1.append q1, p2.append q2⟩

/-- Nothing is sent and nothing is said about it. -/
theorem Sends.mute {s s' : Sim W} {ls : List Line} {evs : List Ev} (hl : notices ls = []) (ht : s'.trace = s.trace ++ evs)
    (he : ∀ e ∈ evs, Puts e = false) : Sends s ls s' :=
  ⟨evs, ht, fun _ => ⟨[], by rw [(put_nothing he).1]; exact .nil, by rw [hl, (put_nothing he).2]; exact .nil⟩⟩

theorem Sends.rest {s s' : Sim W} {ls : List Line} (hl : notices ls = []) (ht : s'.trace = s.trace) :
    Sends s ls s' := .mute (evs := []) hl (by rw [ht, List.append_nil]) (by simp)

theorem Sends.skip {s s' : Sim W} {v : Level} {t : Bytes} {ls : List Line} (h : AboutSent t = false)
    (k : Sends s ls s') : Sends s ((v, t) :: ls) s' := by
  rw [Sends, notices_skip h]
  exact k

theorem Sends.pre {s s' : Sim W} {a ls : List Line} (h : notices a = []) (k : Sends s ls s') : Sends s (a ++ ls) s' := by
  rw [Sends, notices_append, h]
  exact k

theorem dataLines_noticed (sid : UInt32) (body : Bytes) :
    ∃ fs, FramesWire fs (dataChunks sid body).flatten ∧
      DataNoticed (sid.toNat % 2 ^ 31) body fs (notices (dataLines body)) := by
  fun_induction dataLines body with
  | case1 body h =>
    have : body = [] := List.length_eq_zero_iff.mp h
    subst this
    rw [dataChunks, dif_pos h]
    exact ⟨[], .nil, .done⟩
  | case2 body h n ih =>
    obtain ⟨fs, h1, h2⟩ := ih
    have hn : n = min body.length 16256 := rfl
    have hle : n ≤ body.length := by omega
    have htk : (body.take n).length = n := by rw [List.length_take]; omega
    have hdrop : (body.drop n).length = body.length - n := List.length_drop
    have hd : body.length - n = 0 ↔ body.drop n = [] := by rw [← hdrop, List.length_eq_zero_iff]
    have wire := serialize_wire ⟨UInt32.ofNat n, 0, if body.length - n = 0 then 1 else 0, sid⟩
      (body.take n) (by rw [u32_ofNat_toNat (by omega), htk]) (by rw [htk]; omega)
    refine ⟨⟨0, if body.drop n = [] then 1 else 0, sid.toNat % 2 ^ 31, body.take n⟩ :: fs, ?_, ?_⟩
    · rw [dataChunks, dif_neg h]
      simp only [← hn, List.flatten_cons]
      rw [← List.append_assoc]
      simp only [hd] at wire ⊢
      exact .cons _ _ _ _ wire h1
    · rw [notices_keep rfl]
      have := DataNoticed.piece (stream := sid.toNat % 2 ^ 31) (body.take n) (body.drop n) (decimal n)
        (decimal (body.length - n)) fs _ (fun h0 => by rw [h0] at htk; simp at htk; omega)
        (by rw [htk]; exact decimal_spec _) (by rw [hdrop]; exact decimal_spec _) h2
      rwa [List.take_append_drop] at this

theorem answerLines_send {cfg : Cfg W} {app : AppLog W} (hq : ∀ req w, notices (app.lines req w) = []) {s s' : Sim W}
    {sid : UInt32} {hs : List Header} (h : answerRequest cfg s sid hs = .ok s') : Sends s (s.answerLines cfg app hs) s' := by
  obtain ⟨resp, evs, w', block, enc', hr, he, rfl⟩ := answerRequest_ok.mp h
  rw [answerLines, hr.processRequest s rfl]
  simp only
  refine .pre ?_ ?_
  · refine mute_append (headersLines_mute _) ?_
    rw [requestLines]
    split
    · refine mute_append (hq _ _) ?_
      split
      · exact mute_one rfl
      · rfl
    · exact mute_one rfl
  refine .pre (encodeLines_mute ..) ?_
  rw [he]
  simp only
  refine .pre (tablesLines_mute ..) ?_
  have hre : responses evs = [] := by cases hr <;> rfl
  have hrs : responses (answerEvs evs sid hs resp block) = [(sid, resp, block)] := by
    simp [answerEvs, responses_append, hre, responses]
  have hpr : produced (answerEvs evs sid hs resp block) = (responseChunks sid resp block).flatten := by
    simp [answerEvs, produced_append, hr.proj.2.1, produced]
  refine ⟨_, rfl, fun hb => ?_⟩
  rw [hrs] at hb ⊢
  rw [hpr]
  have hlen : block.length < 2 ^ 24 := hb _ (List.mem_singleton.mpr rfl)
  obtain ⟨ds, h1, h2⟩ := dataLines_noticed sid resp.body
  have wire := serialize_wire ⟨UInt32.ofNat block.length, 1, if resp.body = [] then 5 else 4, sid⟩
    block (u32_ofNat_toNat (by omega)) hlen
  refine ⟨⟨1, if resp.body = [] then 5 else 4, sid.toNat % 2 ^ 31, block⟩ :: ds, ?_, ?_⟩
  · simp only [responseChunks, List.flatten_cons]
    rw [← List.append_assoc]
    exact .cons _ _ _ _ wire h1
  · rw [notices_keep (status_sent _)]
    have key : BodyNoticed (sid.toNat % 2 ^ 31) resp.body ds (notices (if resp.body = [] then [] else
        (.info, b!"sending response body (length: " ++ decimal resp.body.length ++ b!")") :: dataLines resp.body)) := by
      by_cases hbd : resp.body = []
      · rw [if_pos hbd]
        rw [hbd] at h2 ⊢
        rw [show dataLines [] = [] by rw [dataLines]; rfl] at h2
        generalize hx : ([] : Bytes) = x at h2
        cases h2 with
        | done => exact .none
      · rw [if_neg hbd, notices_keep rfl]
        exact .some _ _ _ _ hbd (decimal_spec _) h2
    have := Noticed.answer sid resp block _ ds [] [] _ [] (decimal_spec _) key .nil
    simpa using this

theorem frameLines_send {cfg : Cfg W} {app : AppLog W} (hq : ∀ req w, notices (app.lines req w) = []) {s s' : Sim W}
    {f : FrameReader} (h : processFrame cfg s f = .ok s') : Sends s (s.frameLines cfg app f) s' := by
  unfold processFrame at h
  unfold frameLines
  by_cases h4 : f.header.type = 0x04
  · rw [if_pos h4] at h ⊢
    refine .skip rfl ?_
    by_cases hf : f.hasFlag 0x01 = true
    · rw [if_pos hf] at h ⊢
      cases h
      exact .rest (mute_one rfl) rfl
    · rw [if_neg hf] at h ⊢
      cases hr : f.readSettings with
      | err e => rw [hr] at h; cases h; exact .rest (mute_cons rfl (stateLines_mute ..)) rfl
      | ub u => rw [hr] at h; cases h
      | ok l =>
        rw [hr] at h
        cases h
        rw [writeSettingsAck_eq]
        refine ⟨_, rfl, fun _ => ⟨[⟨4, 1, 0, []⟩], ?_, ?_⟩⟩
        · simpa [produced] using FramesWire.one ack_wire
        · rw [notices_keep (by rw [reads_drop]; rfl)]
          exact .ack _ _ _ _ _ (decimal_spec _) .nil
  · rw [if_neg h4] at h ⊢
    by_cases h1 : f.header.type = 0x01
    · rw [if_pos h1] at h ⊢
      refine .pre (mute_cons rfl (mute_cons rfl (tablesLines_mute ..))) ?_
      obtain ⟨block, hb, h⟩ := Outcome.bind_eq_ok.mp h
      rw [hb]
      simp only
      refine .pre (blockLoopLines_mute ..) ?_
      cases hd : decodeBlock s.dec block with
      | ub u => rw [hd] at h; cases h
      | err e dec => rw [hd] at h; cases h; exact .rest (stateLines_mute ..) rfl
      | ok headers dec => rw [hd] at h; exact answerLines_send (s := { s with dec }) hq h
    · rw [if_neg h1] at h ⊢
      by_cases h8 : f.header.type = 0x08
      · rw [if_pos h8] at h ⊢
        obtain ⟨w, hw, h⟩ := Outcome.bind_eq_ok.mp h
        cases h
        rw [hw]
        exact .rest (mute_cons rfl (mute_one rfl)) rfl
      · rw [if_neg h8] at h ⊢
        by_cases h7 : f.header.type = 0x07
        · rw [if_pos h7] at h ⊢
          cases h
          exact .rest (mute_cons rfl (stateLines_mute ..)) rfl
        · rw [if_neg h7] at h ⊢
          cases h
          exact .rest (mute_one rfl) rfl

theorem tryReadLines_send {cfg : Cfg W} {app : AppLog W} (hq : ∀ req w, notices (app.lines req w) = []) {s s' : Sim W}
    {again : Bool} (h : s.tryReadFrame cfg = .ok (again, s')) : Sends s (s.tryReadLines cfg app) s' := by
  simp only [tryReadFrame] at h
  simp only [tryReadLines]
  split at h
  · rename_i hl
    cases h
    rw [if_pos hl]
    exact .rest (mute_one rfl) rfl
  · rename_i hl
    rw [if_neg hl]
    obtain ⟨header, hp, h⟩ := Outcome.bind_eq_ok.mp h
    rw [hp]
    simp only
    refine .skip rfl ?_
    split at h
    · rename_i hb
      cases h
      rw [if_pos hb]
      exact .rest (mute_cons rfl (stateLines_mute ..)) rfl
    · rename_i hb
      rw [if_neg hb]
      split at h
      · rename_i ht
        cases h
        rw [if_pos ht]
        exact .rest (mute_one rfl) rfl
      · rename_i ht
        obtain ⟨s1, h1, h⟩ := Outcome.bind_eq_ok.mp h
        cases h
        rw [if_neg ht]
        have k := (Sends.mute (s := s) (ls := []) (evs := [_]) rfl rfl (by simp [Puts])).append (frameLines_send hq h1)
        exact k

theorem flushLines_send {app : AppLog W} {net : NetLog} (hn : Reserved app net) {s s' : Sim W} (h : s.flush = .ok s') :
    Sends s (s.flushLines net) s' := by
  unfold flush at h
  split at h
  · rename_i hw
    cases h
    rw [flushLines, if_pos hw]
    exact .rest rfl rfl
  · rename_i hw
    simp only [emit, updateState] at h
    cases hws : s.writes.headD (.fail .wantReadOrWrite) with
    | wrote n t =>
      rw [hws] at h
      simp only at h
      by_cases hb : n > s.wbuf.length
      · simp only [hb, if_true] at h; cases h
      · simp only [hb, if_false] at h
        cases h
        rw [flushLines, if_neg hw, hws]
        exact .pre (hn.write _ _) (.mute (evs := [_]) (mute_one rfl) rfl (by simp [Puts]))
    | fail e =>
      by_cases he : e = .wantReadOrWrite
      · subst he
        rw [hws] at h
        cases h
        rw [flushLines, if_neg hw, hws]
        exact .pre (hn.write _ _) (.mute (evs := [_]) (mute_one rfl) rfl (by simp [Puts]))
      · rw [flushLines_failed net hw hws he]
        rw [hws] at h
        cases e with
        | wantReadOrWrite => exact absurd rfl he
        | _ =>
          cases h
          exact .pre (hn.write _ _) (.mute (evs := [_]) (mute_cons rfl (stateLines_mute ..)) rfl (by simp [Puts]))

theorem readFailedLines_send (s : Sim W) (e : TErr) (rs : List ReadRes) :
    Sends s (s.readFailedLines e) { s.readFailed e with reads := rs } := by
  cases e with
  | wantReadOrWrite => exact .mute (evs := [_]) (mute_one rfl) rfl (by simp [Puts])
  | connectionClosed => exact .mute (evs := [_]) (mute_cons rfl (stateLines_mute ..)) rfl (by simp [Puts])
  | protocolError => exact .mute (evs := [_]) (mute_cons rfl (stateLines_mute ..)) rfl (by simp [Puts])
  | writeError => exact .mute (evs := [_]) (mute_one rfl) rfl (by simp [Puts])
  | otherError => exact .mute (evs := [_]) (mute_one rfl) rfl (by simp [Puts])

theorem fillLoopLines_send {app : AppLog W} {net : NetLog} (hn : Reserved app net) (rs : List ReadRes) :
    ∀ s : Sim W, Sends s (fillLoopLines net rs s) (fillLoop rs s) := by
  induction rs with
  | nil =>
    intro s
    simp only [fillLoopLines, fillLoop]
    by_cases hf : s.rbuf.length + tempReadBufferSize ≥ maxReadBufferSize
    · rw [if_pos hf, if_pos hf]
      exact .rest (mute_one rfl) rfl
    · rw [if_neg hf, if_neg hf]
      exact .pre (hn.read _) (readFailedLines_send ..)
  | cons r rs ih =>
    intro s
    simp only [fillLoopLines, fillLoop]
    by_cases hf : s.rbuf.length + tempReadBufferSize ≥ maxReadBufferSize
    · rw [if_pos hf, if_pos hf]
      exact .rest (mute_one rfl) rfl
    · rw [if_neg hf, if_neg hf]
      refine .pre (hn.read _) ?_
      cases r with
      | fail e => exact readFailedLines_send ..
      | data bs t =>
        refine .skip (reads_mute ..) ?_
        exact (Sends.mute (s := s) (ls := []) (evs := [_]) rfl rfl (by simp [Puts])).append (ih _)

theorem frameCaseLines_send {cfg : Cfg W} {app : AppLog W} (hq : ∀ req w, notices (app.lines req w) = []) {s s' : Sim W}
    {r : Option ProcRes} (h : s.frameCase cfg = .ok (r, s')) : Sends s (s.frameCaseLines cfg app) s' := by
  unfold frameCase at h
  obtain ⟨⟨b, s1⟩, h1, h⟩ := Outcome.bind_eq_ok.mp h
  rw [frameCaseLines, h1]
  refine (tryReadLines_send hq h1).append ?_
  cases b with
  | true => simp at h; obtain ⟨rfl, rfl⟩ := h; exact .rest (mute_one rfl) rfl
  | false => simp at h; obtain ⟨rfl, rfl⟩ := h; exact .rest rfl rfl

theorem closeCallLines_send (s : Sim W) : Sends s s.closeCallLines s.close := by
  rw [closeCallLines]
  split
  · rename_i h
    rw [close, if_pos h]
    exact .rest (mute_one rfl) rfl
  · rename_i h
    rw [close_eq s h]
    refine ⟨_, rfl, fun _ => ⟨[goawayFrame s.st], ?_, ?_⟩⟩
    · simpa using FramesWire.one (goaway_wire s.st)
    · rw [notices_keep rfl, stateLines_mute, responses_enqueues]
      exact .goaway _ _ _ _ rfl .nil

theorem dispatchLines_send {cfg : Cfg W} {app : AppLog W} {net : NetLog} (hn : Reserved app net) {s s' : Sim W}
    {r : Option ProcRes} (h : s.dispatch cfg = .ok (r, s')) : Sends s (s.dispatchLines cfg app net) s' := by
  unfold dispatch at h
  unfold dispatchLines
  cases hst : s.st with
  | awaitingHandshake => rw [hst] at h; cases h; exact .rest (mute_cons rfl (stateLines_mute ..)) rfl
  | awaitingFrame => rw [hst] at h; exact frameCaseLines_send hn.app h
  | closing =>
    rw [hst] at h
    cases h
    exact .mute (evs := [_]) (mute_cons rfl (mute_append hn.shutdown (stateLines_mute ..))) rfl (by simp [Puts])
  | clientClosed => rw [hst] at h; cases h; exact .rest rfl rfl
  | protocolError => rw [hst] at h; cases h; exact .skip rfl (closeCallLines_send s)
  | awaitingPreface =>
    rw [hst] at h
    simp only at h ⊢
    unfold readPreface at h ⊢
    unfold prefaceLines
    by_cases h1 : s.rbuf.length < clientPreface.length
    · simp only [h1, if_true] at h ⊢
      cases h
      exact .rest (mute_append (mute_one rfl) rfl) rfl
    · by_cases h2 : s.rbuf.take clientPreface.length ≠ clientPreface
      · rw [if_neg h1, if_pos h2] at h
        rw [if_neg h1, if_pos h2, if_neg h1, if_pos h2]
        cases h
        exact .rest (mute_append (mute_one rfl) rfl) rfl
      · rw [if_neg h1, if_neg h2] at h
        rw [if_neg h1, if_neg h2, if_neg h1, if_neg h2]
        refine Sends.append ?_ (frameCaseLines_send hn.app h)
        simp only [writeServerSettings_eq, enq, emit, updateState, discardProcessed]
        refine ⟨.prefaceOk :: _, by simp only [List.append_assoc]; rfl, fun _ => ⟨[settingsFrame], ?_, ?_⟩⟩
        · simpa [produced] using FramesWire.one settings_wire
        · rw [notices_skip rfl, notices_keep rfl, stateLines_mute]
          simp only [responses]
          exact .settings _ _ _ _ settings_preface .nil

theorem turnLines_send {cfg : Cfg W} {app : AppLog W} {net : NetLog} (hn : Reserved app net) {s s' : Sim W}
    {r : Option ProcRes} (h : s.turn cfg = .ok (r, s')) : Sends s (s.turnLines cfg app net) s' := by
  unfold turn at h
  obtain ⟨s1, h1, h⟩ := Outcome.bind_eq_ok.mp h
  rw [turnLines, h1]
  simp only
  refine (flushLines_send hn h1).append ?_
  by_cases hw : s1.wbuf ≠ []
  · rw [if_pos hw] at h ⊢
    cases h
    exact .rest rfl rfl
  · rw [if_neg hw] at h ⊢
    exact Sends.append (fillLoopLines_send hn s1.reads s1) (dispatchLines_send hn h)

theorem iterLines_send {cfg : Cfg W} {app : AppLog W} {net : NetLog} (hn : Reserved app net) {s s' : Sim W}
    {r : Option ProcRes} (h : s.iter cfg = .ok (r, s')) : Sends s (s.iterLines cfg app net) s' := by
  unfold iter at h
  unfold iterLines
  refine .skip rfl ?_
  by_cases hst : s.st = .awaitingHandshake
  · rw [if_pos hst] at h ⊢
    cases hh : s.hs with
    | done t =>
      have e : s.handleHandshake = (none, ({ s with last := t }.emit (.handshake t)).updateState .awaitingPreface) := by
        rw [handleHandshake, hh]
      rw [e] at h ⊢
      simp only at h ⊢
      refine Sends.append ?_ (turnLines_send hn h)
      rw [handshakeLines, hh]
      exact .pre (hn.handshake _) (.mute (evs := [_]) (mute_cons rfl (stateLines_mute ..)) rfl (by simp [Puts]))
    | fail e =>
      have hx : ∃ x, s.handleHandshake = (some x, s) := by
        rw [handleHandshake, hh]
        cases e <;> exact ⟨_, rfl⟩
      obtain ⟨x, hx⟩ := hx
      rw [hx] at h ⊢
      cases h
      refine Sends.append (s1 := s) ?_ (.rest rfl rfl)
      rw [handshakeLines, hh]
      refine .pre (hn.handshake _) (.rest ?_ rfl)
      cases e <;> exact mute_one rfl
  · rw [if_neg hst] at h ⊢
    exact turnLines_send hn h

theorem processLoopLines_send {cfg : Cfg W} {app : AppLog W} {net : NetLog} (hn : Reserved app net) (n : Nat) :
    ∀ {s s' : Sim W} {r : ProcRes}, s.loop cfg n = .ok (r, s') → Sends s (processLoopLines cfg app net n s) s' := by
  induction n with
  | zero => intro s s' r h; cases h
  | succ n ih =>
    intro s s' r h
    rw [loop] at h
    obtain ⟨⟨x, s1⟩, h1, h⟩ := Outcome.bind_eq_ok.mp h
    rw [processLoopLines, h1]
    refine (iterLines_send hn h1).append ?_
    cases x with
    | some x =>
      simp at h
      obtain ⟨rfl, rfl⟩ := h
      exact .rest rfl rfl
    | none => exact ih h

/-- C172: the lines of one call of `process` about frames sent are one for each frame put into the write buffer in the call, in
order, and they are true of it. -/
theorem C172_process {cfg : Cfg W} {app : AppLog W} {net : NetLog} (hn : Reserved app net) {env : Env} {s s' : Sim W}
    {r : ProcRes} (h : s.process cfg env = .ok (r, s')) :
    ∃ evs, s'.trace = s.trace ++ evs ∧ ((∀ x ∈ responses evs, x.2.2.length < 2 ^ 24) →
      ∃ fs, FramesWire fs (produced evs) ∧ Noticed fs (responses evs) (notices (s.processLines cfg app net env))) := by
  unfold process at h
  obtain ⟨⟨x, s2⟩, h1, h⟩ := Outcome.bind_eq_ok.mp h
  cases h
  have k := (processLoopLines_send hn _ h1).append
    (show Sends s2 [] (s2.emit (.returned r)) from .mute (evs := [_]) rfl rfl (by simp [Puts]))
  rw [List.append_nil] at k
  exact k

/-- C172: the lines about frames sent since the connection was made are one for each frame, in order, and they are true of
it. (Header blocks are assumed to fit the 24-bit length field.) -/
theorem C172_all {cfg : Cfg W} {app : AppLog W} {w : W} {now : Nat} {s : Sim W} {lines : List Line}
    (h : Overheard cfg app w now s lines) (hb : ∀ x ∈ responses s.trace, x.2.2.length < 2 ^ 24) :
    ∃ fs, FramesWire fs (produced s.trace) ∧ Noticed fs (responses s.trace) (notices lines) := by
  have key : ∃ evs, s.trace = (Sim.init w now).trace ++ evs ∧ ((∀ x ∈ responses evs, x.2.2.length < 2 ^ 24) →
      ∃ fs, FramesWire fs (produced evs) ∧ Noticed fs (responses evs) (notices lines)) := by
    clear hb
    induction h with
    | new => exact Sends.rest rfl rfl
    | step s s' lines env net r _ hn hp ih =>
      exact Sends.append (s := Sim.init w now) ih (C172_process hn hp)
    | closed s lines _ ih => exact Sends.append (s := Sim.init w now) ih (closeCallLines_send s)
  obtain ⟨evs, h1, h2⟩ := key
  have : s.trace = evs := h1
  rw [this] at hb ⊢
  exact h2 hb

theorem exNet_reserved : Reserved (silent : AppLog Nat) exNet := by
  refine ⟨fun _ _ => rfl, fun r => ?_, fun rs => ?_, fun a ws => ?_, rfl⟩
  · cases r with
    | done t => rfl
    | fail e => cases e <;> rfl
  · cases rs with
    | nil => rfl
    | cons r rs =>
      cases r with
      | data bs t => rfl
      | fail e => cases e <;> rfl
  · cases ws with
    | nil => rfl
    | cons r rs =>
      cases r with
      | wrote n t => rfl
      | fail e => cases e <;> rfl

/-- The lines about frames of a new connection's first call. -/
def exNotices (env : Env) : List Bytes := (notices (processLines exCfg silent exNet env (init 0 0))).map (·.2)

set_option maxRecDepth 100000 in
/-- Hypotheses of `C172_process`: a transport that writes no such lines (`exNet_reserved`), and calls that return. Settings and
a request; a frame that is too large. -/
example :
    exNotices { hs := .done 1, reads := [.data (clientPreface ++ exSettings ++ exGet) 2], writes := [.wrote 36 3, .wrote 44 4] } =
      [b!"SETTINGS frame sent", b!"read 0 settings, sending ACK", b!"200 status code sent w/headers",
       b!"sending response body (length: 2)", b!"enqueuing data frame for write (size: 2, rem: 0)"] ∧
    exNotices { hs := .done 1, reads := [.data (clientPreface ++ [0xFF, 0, 0, 0, 0, 0, 0, 0, 0]) 2], writes := [.wrote 27 3] } =
      [b!"SETTINGS frame sent", b!"GOAWAY frame enqueued"] := by
  refine ⟨?_, ?_⟩ <;> decide +kernel

/-- A body in two pieces. -/
example (sid : UInt32) : ∃ fs, FramesWire fs (dataChunks sid (List.replicate 16257 97)).flatten ∧
    DataNoticed (sid.toNat % 2 ^ 31) (List.replicate 16257 97) fs
      [(.trace, b!"enqueuing data frame for write (size: 16256, rem: 1)"),
       (.trace, b!"enqueuing data frame for write (size: 1, rem: 0)")] := by
  have := dataLines_noticed sid (List.replicate 16257 97)
  rwa [show notices (dataLines (List.replicate 16257 97)) =
    [(.trace, b!"enqueuing data frame for write (size: 16256, rem: 1)"),
     (.trace, b!"enqueuing data frame for write (size: 1, rem: 0)")] by
    have h1 : decimal 16256 = b!"16256" := by decide +kernel
    have h2 : decimal 1 = b!"1" := by decide +kernel
    have h3 : decimal 0 = b!"0" := by decide +kernel
    rw [dataLines, dif_neg (by rw [List.length_replicate]; decide)]
    simp only [List.length_replicate, List.drop_replicate, maxFrameSize]
    rw [dataLines, dif_neg (by rw [List.length_replicate]; decide)]
    simp only [List.length_replicate, List.drop_replicate, maxFrameSize]
    rw [dataLines, dif_pos (by rw [List.length_replicate]; decide)]
    simp only [show min 16257 (16384 - 128) = 16256 by decide, show 16257 - 16256 = 1 by decide,
      show min 1 (16384 - 128) = 1 by decide, Nat.sub_self, h1, h2, h3]
    rfl] at this

end Sim
end Ion
