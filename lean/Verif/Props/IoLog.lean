import Verif.Props.StateLog

/-!
# What the log says about the octets read and written (C170)

At level trace each read leaves a line with the number of octets read and the number of those that then wait in the buffer,
and each write one with the number of octets written. C170 asks whether these lines agree with what the transport did.
-/

namespace Ion

namespace Spec

/-- A decimal digit. -/
def Digit (b : UInt8) : Bool := decide (48 ≤ b.toNat ∧ b.toNat ≤ 57)

/-- A text that is about octets read or written. -/
def AboutMove (text : Bytes) : Bool :=
  b!"flushed ".isPrefixOf text ||
    b!"read ".isPrefixOf text && b!" bytes, buffer size now ".isPrefixOf ((text.drop 5).dropWhile Digit)

/-- The lines about octets read and written. -/
def moved (lines : List Line) : List Line := lines.filter fun l => AboutMove l.2

/-- An event that moves octets. -/
def Moves : Ev → Bool
  | .read _ _ => true
  | .write _ (.wrote _ _) => true
  | .prefaceOk => true
  | .frame _ => true
  | _ => false

/-- Lines that agree with the events, given how many octets wait in the read buffer before and after. The preface and the
frames acted on take octets out of it. -/
inductive Booked : Nat → List Ev → List Line → Nat → Prop where
  | nil (n : Nat) : Booked n [] [] n
  | read (n : Nat) (bs : Bytes) (t : Nat) (tr : List Ev) (ls : List Line) (n' : Nat) (got now : Bytes) :
    IsDecimal bs.length got → IsDecimal (n + bs.length) now → Booked (n + bs.length) tr ls n' →
    Booked n (.read bs t :: tr) ((.trace, b!"read " ++ got ++ b!" bytes, buffer size now " ++ now) :: ls) n'
  | wrote (n : Nat) (a : Bytes) (k t : Nat) (tr : List Ev) (ls : List Line) (n' : Nat) (put : Bytes) :
    IsDecimal k put → k ≤ a.length → Booked n tr ls n' →
    Booked n (.write a (.wrote k t) :: tr) ((.trace, b!"flushed " ++ put ++ b!" bytes from write buffer") :: ls) n'
  | preface (n : Nat) (tr : List Ev) (ls : List Line) (n' : Nat) :
    Booked n tr ls n' → Booked (24 + n) (.prefaceOk :: tr) ls n'
  | frame (f : FrameReader) (n : Nat) (tr : List Ev) (ls : List Line) (n' : Nat) :
    Booked n tr ls n' → Booked (9 + f.payload.length + n) (.frame f :: tr) ls n'
  | other (e : Ev) (n : Nat) (tr : List Ev) (ls : List Line) (n' : Nat) :
    Moves e = false → Booked n tr ls n' → Booked n (e :: tr) ls n'

/-- What the numbers in the lines add up to: octets read and octets written. -/
inductive Sums : List Line → Nat → Nat → Prop where
  | nil : Sums [] 0 0
  | read (k : Nat) (got now : Bytes) (ls : List Line) (r w : Nat) : IsDecimal k got → Sums ls r w →
    Sums ((.trace, b!"read " ++ got ++ b!" bytes, buffer size now " ++ now) :: ls) (k + r) w
  | wrote (k : Nat) (put : Bytes) (ls : List Line) (r w : Nat) : IsDecimal k put → Sums ls r w →
    Sums ((.trace, b!"flushed " ++ put ++ b!" bytes from write buffer") :: ls) r (k + w)

/-- An application and a transport that do not write such lines themselves. -/
structure Modest {W : Type} (app : AppLog W) (net : NetLog) : Prop where
  app : ∀ req w, moved (app.lines req w) = []
  handshake : ∀ r, moved (net.handshake r) = []
  read : ∀ rs, moved (net.read rs) = []
  write : ∀ a ws, moved (net.write a ws) = []
  shutdown : moved net.shutdown = []

/-- A connection after some calls of `process` and `close`, with what has been logged in them. -/
inductive Metered {W : Type} (cfg : Cfg W) (app : AppLog W) (w : W) (now : Nat) : Sim W → List Line → Prop where
  | new : Metered cfg app w now (Sim.init w now) []
  | step (s s' : Sim W) (lines : List Line) (env : Env) (net : NetLog) (r : ProcRes) :
    Metered cfg app w now s lines → Modest app net → s.process cfg env = .ok (r, s') →
    Metered cfg app w now s' (lines ++ s.processLines cfg app net env)
  | closed (s : Sim W) (lines : List Line) :
    Metered cfg app w now s lines → Metered cfg app w now s.close (lines ++ s.closeCallLines)

end Spec

open Spec

/-! ## Lines about other things -/

theorem moved_append (a b : List Line) : moved (a ++ b) = moved a ++ moved b := List.filter_append ..

theorem moved_skip {v : Level} {t : Bytes} (h : AboutMove t = false) (ls : List Line) :
    moved ((v, t) :: ls) = moved ls := by
  simp [moved, h]

theorem moved_nil : moved [] = [] := rfl

theorem idle_cons {v : Level} {t : Bytes} {ls : List Line} (h : AboutMove t = false) (hl : moved ls = []) :
    moved ((v, t) :: ls) = [] := by rw [moved_skip h, hl]

theorem idle_append {a b : List Line} (ha : moved a = []) (hb : moved b = []) : moved (a ++ b) = [] := by
  rw [moved_append, ha, hb]; rfl

theorem idle_one {v : Level} {t : Bytes} (h : AboutMove t = false) : moved [(v, t)] = [] := idle_cons h rfl

theorem insertLines_idle (t : DynTable) (h : Header) : moved (t.insertLines h) = [] := by
  simp only [DynTable.insertLines]
  split <;> exact idle_one rfl

theorem entryLines_idle : ∀ (hs : List Header) (pos : Nat), moved (entryLines pos hs) = []
  | [], _ => rfl
  | _ :: hs, pos => idle_cons rfl (entryLines_idle hs (pos + 1))

theorem tablesLines_idle (dec enc : DynTable) : moved (tablesLines dec enc) = [] :=
  idle_append (idle_cons rfl (idle_cons rfl (entryLines_idle ..))) (idle_cons rfl (idle_cons rfl (entryLines_idle ..)))

theorem restLines_idle (br : BitReader) (bits : Nat) : moved (HuffTree.restLines br bits) = [] := by
  fun_induction HuffTree.restLines br bits with
  | case1 => exact idle_one rfl
  | case2 _ _ _ _ ih => exact ih
  | case3 => rfl

theorem loopLines_idle (root : HuffTree) (br : BitReader) (current : HuffTree) (bits : Nat) :
    moved (HuffTree.loopLines root br current bits) = [] := by
  fun_induction HuffTree.loopLines root br current bits with
  | case1 => rfl
  | case2 => exact restLines_idle ..
  | case3 => assumption
  | case4 => assumption
  | case5 => rfl

theorem limitLines_idle (size : Nat) : moved (limitLines size) = [] := by
  rw [limitLines]
  split
  · rfl
  · exact idle_one rfl

theorem stringLines_idle (isHuffman : Bool) (size : Nat) (data : Bytes) : moved (stringLines isHuffman size data) = [] := by
  rw [stringLines]
  split
  · rw [huffmanStringLines]
    split
    · rfl
    · refine idle_append (loopLines_idle ..) ?_
      split
      · exact limitLines_idle _
      · rfl
  · exact limitLines_idle _

theorem lengthAndStringLines_idle (r : ByteReader) : moved (lengthAndStringLines r) = [] := by
  rw [lengthAndStringLines]
  split
  · exact idle_one rfl
  · split
    · exact idle_one rfl
    · split
      · exact idle_one rfl
      · exact stringLines_idle ..

theorem headerAtLines_idle (t : DynTable) (index i : Nat) : moved (headerAtLines t index i) = [] := by
  rw [headerAtLines]
  split
  · exact idle_one rfl
  · simp only
    split
    · exact idle_one rfl
    · split
      · exact idle_one rfl
      · rfl

theorem headerNameAtLines_idle (t : DynTable) (index i : Nat) : moved (headerNameAtLines t index i) = [] := by
  rw [headerNameAtLines]
  split
  · exact idle_one rfl
  · simp only
    split
    · exact idle_one rfl
    · split
      · exact idle_one rfl
      · rfl

theorem indexedFieldLines_idle (t : DynTable) (r : ByteReader) : moved (indexedFieldLines t r) = [] := by
  rw [indexedFieldLines]
  split
  · exact idle_one rfl
  · split
    · exact idle_one rfl
    · exact headerAtLines_idle ..

theorem valueLines_idle (name : Bytes) (r : ByteReader) : moved (valueLines name r) = [] := by
  rw [valueLines]
  refine idle_append (lengthAndStringLines_idle _) ?_
  split
  · exact idle_one rfl
  · rfl

theorem literalFieldLines_idle (t : DynTable) (bits : UInt8) (r : ByteReader) : moved (literalFieldLines t bits r) = [] := by
  rw [literalFieldLines]
  split
  · exact idle_one rfl
  · refine idle_cons rfl ?_
    split
    · refine idle_append (lengthAndStringLines_idle _) ?_
      split
      · exact valueLines_idle ..
      · rfl
    · refine idle_append (headerNameAtLines_idle ..) ?_
      split
      · exact valueLines_idle ..
      · rfl

theorem sizeUpdateLines_idle (r : ByteReader) : moved (sizeUpdateLines r) = [] := by
  rw [sizeUpdateLines]
  split
  · exact idle_one rfl
  · split <;> exact idle_one rfl

theorem fieldLines_idle (t : DynTable) (r : ByteReader) (b : UInt8) : moved (fieldLines t r b) = [] := by
  rw [fieldLines]
  refine idle_cons rfl ?_
  split
  · exact indexedFieldLines_idle ..
  · refine idle_append (literalFieldLines_idle ..) ?_
    split
    · exact insertLines_idle ..
    · rfl
  · exact literalFieldLines_idle ..
  · exact literalFieldLines_idle ..
  · exact sizeUpdateLines_idle _
  · exact idle_one rfl

theorem blockLoopLines_idle : ∀ (n : Nat) (t : DynTable) (r : ByteReader), moved (blockLoopLines n t r) = []
  | 0, _, [] => rfl
  | _ + 1, _, [] => rfl
  | 0, _, _ :: _ => rfl
  | n + 1, t, b :: r => by
    rw [blockLoopLines]
    refine idle_append (fieldLines_idle ..) ?_
    split
    · exact blockLoopLines_idle ..
    · rfl

theorem encodeLines_idle (c : Bool) : ∀ (hs : List Header) (t : DynTable), moved (encodeLines c t hs) = []
  | [], _ => rfl
  | h :: hs, t => by
    rw [encodeLines]
    refine idle_append ?_ ?_
    · rw [encodeHeaderLines]
      split
      · rfl
      · split
        · rfl
        · split
          · exact insertLines_idle ..
          · rfl
    · split
      · exact encodeLines_idle ..
      · rfl

theorem dropDigits (n : Nat) (t : Bytes) : (decimal n ++ t).dropWhile Digit = t.dropWhile Digit := by
  obtain ⟨-, h2, -, -⟩ := Sim.decimal_spec n
  revert h2
  generalize decimal n = ds
  intro h2
  induction ds with
  | nil => rfl
  | cons d ds ih =>
    have hd : Digit d = true := by
      have := h2 d (List.mem_cons_self ..)
      simpa [Digit] using this
    rw [List.cons_append, List.dropWhile_cons_of_pos hd]
    exact ih fun x hx => h2 x (List.mem_cons_of_mem _ hx)

theorem read_drop (n : Nat) (t : Bytes) : AboutMove (b!"read " ++ decimal n ++ t) =
    b!" bytes, buffer size now ".isPrefixOf (t.dropWhile Digit) := by
  rw [← dropDigits n t, List.append_assoc]
  rfl

theorem settings_idle (n : Nat) : AboutMove (b!"read " ++ decimal n ++ b!" settings, sending ACK") = false := by
  rw [read_drop]
  rfl

theorem status_idle (n : Nat) (t : Bytes) : AboutMove (decimal n ++ t) = false := by
  obtain ⟨h1, h2, -, -⟩ := Sim.decimal_spec n
  cases hd : decimal n with
  | nil => exact absurd hd h1
  | cons d ds =>
    have := h2 d (by rw [hd]; exact List.mem_cons_self ..)
    have hne : (102 : UInt8) ≠ d := by rintro rfl; revert this; decide
    have hne' : (114 : UInt8) ≠ d := by rintro rfl; revert this; decide
    simp only [AboutMove, List.cons_append, List.isPrefixOf]
    rw [beq_eq_false_iff_ne.mpr hne, beq_eq_false_iff_ne.mpr hne']
    rfl

namespace Sim
variable {W : Type}

theorem dataLines_idle (body : Bytes) : moved (dataLines body) = [] := by
  fun_induction dataLines body with
  | case1 => rfl
  | case2 _ _ _ ih => exact idle_cons rfl ih

theorem headersLines_idle : ∀ hs : List Header,
    moved (hs.map fun h => ((.debug : Level), b!" - request header: " ++ h.name ++ b!": " ++ h.value)) = []
  | [] => rfl
  | _ :: hs => idle_cons rfl (headersLines_idle hs)

theorem answerLines_idle {cfg : Cfg W} {app : AppLog W} (hq : ∀ req w, moved (app.lines req w) = []) (s : Sim W)
    (hs : List Header) : moved (s.answerLines cfg app hs) = [] := by
  rw [answerLines]
  refine idle_append (idle_append (headersLines_idle _) ?_) ?_
  · rw [requestLines]
    split
    · refine idle_append (hq _ _) ?_
      split
      · exact idle_one rfl
      · rfl
    · exact idle_one rfl
  · split
    · refine idle_append (encodeLines_idle ..) ?_
      split
      · refine idle_append (tablesLines_idle ..) (idle_cons (status_idle ..) ?_)
        split
        · rfl
        · exact idle_cons rfl (dataLines_idle _)
      · rfl
    · rfl

/-! ## Lines about octets -/

theorem stateLines_idle (s : Sim W) (st : CState) : moved (s.stateLines st) = [] := by
  rw [stateLines]
  split
  · exact idle_one rfl
  · rfl

theorem _root_.Ion.Spec.Booked.append {a b c : Nat} {tr tr' : List Ev} {l m : List Line} (h : Booked a tr l b)
    (k : Booked b tr' m c) : Booked a (tr ++ tr') (l ++ m) c := by
  induction h with
  | nil => exact k
  | read n bs t tr ls n' got now h1 h2 _ ih => exact .read n bs t _ _ _ got now h1 h2 (ih k)
  | wrote n a k' t tr ls n' put h1 h2 _ ih => exact .wrote n a k' t _ _ _ put h1 h2 (ih k)
  | preface n tr ls n' _ ih => exact .preface n _ _ _ (ih k)
  | frame f n tr ls n' _ ih => exact .frame f n _ _ _ (ih k)
  | other e n tr ls n' he _ ih => exact .other e n _ _ _ he (ih k)

/-- Events that move nothing are booked without lines. -/
theorem booked_rest {n : Nat} {evs : List Ev} (h : ∀ e ∈ evs, Moves e = false) : Booked n evs [] n := by
  induction evs with
  | nil => exact .nil _
  | cons e evs ih => exact .other e _ _ _ _ (h e (List.mem_cons_self ..)) (ih fun x hx => h x (List.mem_cons_of_mem _ hx))

theorem booked_enqueues (n : Nat) (cs : List Bytes) : Booked n (cs.map Ev.enqueue) [] n :=
  booked_rest fun e he => by
    obtain ⟨c, -, rfl⟩ := List.mem_map.mp he
    rfl

/-- The lines agree with what happens to the connection. -/
def Books (s : Sim W) (ls : List Line) (s' : Sim W) : Prop :=
  ∃ evs, s'.trace = s.trace ++ evs ∧ Booked s.rbuf.length evs (moved ls) s'.rbuf.length

theorem Books.append {s s1 s2 : Sim W} {a b : List Line} (h : Books s a s1) (k : Books s1 b s2) : Books s (a ++ b) s2 := by
  obtain ⟨e1, h1, h2⟩ := h
  obtain ⟨e2, k1, k2⟩ := k
  refine ⟨e1 ++ e2, by rw [k1, h1, List.append_assoc], ?_⟩
  rw [moved_append]
  exact h2.append k2

/-- Nothing moves and nothing is said about it. -/
theorem Books.idle {s s' : Sim W} {ls : List Line} {evs : List Ev} (hl : moved ls = []) (ht : s'.trace = s.trace ++ evs)
    (he : ∀ e ∈ evs, Moves e = false) (hb : s'.rbuf = s.rbuf) : Books s ls s' :=
  ⟨evs, ht, by rw [hl, hb]; exact booked_rest he⟩

theorem Books.rest {s s' : Sim W} {ls : List Line} (hl : moved ls = []) (ht : s'.trace = s.trace) (hb : s'.rbuf = s.rbuf) :
    Books s ls s' := .idle (evs := []) hl (by rw [ht, List.append_nil]) (by simp) hb

theorem Books.skip {s s' : Sim W} {v : Level} {t : Bytes} {ls : List Line} (h : AboutMove t = false)
    (k : Books s ls s') : Books s ((v, t) :: ls) s' := by
  rw [Books, moved_skip h]
  exact k

theorem Books.pre {s s' : Sim W} {a ls : List Line} (h : moved a = []) (k : Books s ls s') : Books s (a ++ ls) s' := by
  rw [Books, moved_append, h]
  exact k

theorem frameLines_idle {cfg : Cfg W} {app : AppLog W} (hq : ∀ req w, moved (app.lines req w) = []) (s : Sim W)
    (f : FrameReader) : moved (s.frameLines cfg app f) = [] := by
  rw [frameLines]
  split
  · refine idle_cons rfl ?_
    split
    · exact idle_one rfl
    · split
      · exact idle_cons rfl (stateLines_idle ..)
      · rfl
      · exact idle_one (settings_idle _)
  · split
    · refine idle_append (idle_cons rfl (idle_cons rfl (tablesLines_idle ..))) ?_
      split
      · refine idle_append (blockLoopLines_idle ..) ?_
        split
        · exact answerLines_idle hq ..
        · exact stateLines_idle ..
        · rfl
      · rfl
    · split
      · refine idle_cons rfl ?_
        split
        · exact idle_one rfl
        · rfl
      · split
        · exact idle_cons rfl (stateLines_idle ..)
        · exact idle_one rfl

theorem AnsEv.rest {e : Ev} (h : AnsEv e) : Moves e = false := by
  cases e <;> first | rfl | exact h.elim

theorem tryReadLines_book {cfg : Cfg W} {app : AppLog W} (hq : ∀ req w, moved (app.lines req w) = []) {s s' : Sim W}
    {again : Bool} (h : s.tryReadFrame cfg = .ok (again, s')) : Books s (s.tryReadLines cfg app) s' := by
  simp only [tryReadFrame] at h
  simp only [tryReadLines]
  split at h
  · rename_i hl
    cases h
    rw [if_pos hl]
    exact .rest (idle_one rfl) rfl rfl
  · rename_i hl
    rw [if_neg hl]
    obtain ⟨header, hp, h⟩ := Outcome.bind_eq_ok.mp h
    rw [hp]
    simp only
    refine .skip rfl ?_
    split at h
    · rename_i hb
      cases h
      rw [if_pos hb]
      exact .rest (idle_cons rfl (stateLines_idle ..)) rfl rfl
    · rename_i hb
      rw [if_neg hb]
      split at h
      · rename_i ht
        cases h
        rw [if_pos ht]
        exact .rest (idle_one rfl) rfl rfl
      · rename_i ht
        obtain ⟨s1, h1, h⟩ := Outcome.bind_eq_ok.mp h
        cases h
        rw [if_neg ht]
        have ha := processFrame_ok h1
        obtain ⟨evs, e1, e2⟩ := ha.events
        have hr : s1.rbuf = s.rbuf := ha.rbuf.1
        refine ⟨.frame ⟨header, (s.rbuf.drop 9).take header.length.toNat⟩ :: evs, ?_, ?_⟩
        · show s1.trace = _
          rw [e1]
          simp [emit]
        · rw [frameLines_idle hq]
          have hn : s.rbuf.length = 9 + ((s.rbuf.drop 9).take header.length.toNat).length +
              (s1.discardProcessed (9 + header.length.toNat)).rbuf.length := by
            simp only [discardProcessed, hr, List.length_take, List.length_drop]
            omega
          rw [hn]
          exact .frame ⟨header, _⟩ _ _ _ _ (booked_rest fun e he => (e2 e he).rest)

theorem flushLines_book {app : AppLog W} {net : NetLog} (hn : Modest app net) {s s' : Sim W} (h : s.flush = .ok s') :
    Books s (s.flushLines net) s' := by
  unfold flush at h
  split at h
  · rename_i hw
    cases h
    rw [flushLines, if_pos hw]
    exact .rest rfl rfl rfl
  · rename_i hw
    simp only [emit, updateState] at h
    cases hws : s.writes.headD (.fail .wantReadOrWrite) with
    | wrote n t =>
      rw [hws] at h
      simp only at h
      by_cases hb : n > s.wbuf.length
      · simp only [hb, if_true] at h; cases h
      · simp only [hb, if_false] at h
        cases h
        rw [flushLines, if_neg hw, hws]
        exact .pre (hn.write _ _) ⟨[_], rfl, .wrote _ _ _ _ _ _ _ _ (decimal_spec _) (Nat.le_of_not_lt hb) (.nil _)⟩
    | fail e =>
      by_cases he : e = .wantReadOrWrite
      · subst he
        rw [hws] at h
        cases h
        rw [flushLines, if_neg hw, hws]
        exact .pre (hn.write _ _) (.idle (evs := [_]) (idle_one rfl) rfl (by simp [Moves]) rfl)
      · rw [flushLines_failed net hw hws he]
        rw [hws] at h
        cases e with
        | wantReadOrWrite => exact absurd rfl he
        | _ =>
          cases h
          exact .pre (hn.write _ _) (.idle (evs := [_]) (idle_cons rfl (stateLines_idle ..)) rfl (by simp [Moves]) rfl)

theorem readFailedLines_book (s : Sim W) (e : TErr) (rs : List ReadRes) :
    Books s (s.readFailedLines e) { s.readFailed e with reads := rs } := by
  cases e with
  | wantReadOrWrite => exact .idle (evs := [_]) (idle_one rfl) rfl (by simp [Moves]) rfl
  | connectionClosed => exact .idle (evs := [_]) (idle_cons rfl (stateLines_idle ..)) rfl (by simp [Moves]) rfl
  | protocolError => exact .idle (evs := [_]) (idle_cons rfl (stateLines_idle ..)) rfl (by simp [Moves]) rfl
  | writeError => exact .idle (evs := [_]) (idle_one rfl) rfl (by simp [Moves]) rfl
  | otherError => exact .idle (evs := [_]) (idle_one rfl) rfl (by simp [Moves]) rfl

theorem read_moved (n m : Nat) : AboutMove (b!"read " ++ decimal n ++ b!" bytes, buffer size now " ++ decimal m) = true := by
  rw [List.append_assoc, read_drop]
  rfl

theorem Books.read {s s' : Sim W} {bs : Bytes} {t : Nat} {ls : List Line}
    (k : Books ({ s with last := t, rbuf := s.rbuf ++ bs }.emit (.read bs t)) ls s') :
    Books s ((.trace, b!"read " ++ decimal bs.length ++ b!" bytes, buffer size now " ++ decimal (s.rbuf ++ bs).length) :: ls)
      s' := by
  obtain ⟨evs, h1, h2⟩ := k
  refine ⟨.read bs t :: evs, by rw [h1]; simp [emit], ?_⟩
  simp only [moved, List.filter_cons]
  rw [if_pos (read_moved ..)]
  refine .read _ _ _ _ _ _ _ _ (decimal_spec _) ?_ ?_
  · rw [← List.length_append]
    exact decimal_spec _
  · rw [← List.length_append]
    exact h2

theorem fillLoopLines_book {app : AppLog W} {net : NetLog} (hn : Modest app net) (rs : List ReadRes) :
    ∀ s : Sim W, Books s (fillLoopLines net rs s) (fillLoop rs s) := by
  induction rs with
  | nil =>
    intro s
    simp only [fillLoopLines, fillLoop]
    by_cases hf : s.rbuf.length + tempReadBufferSize ≥ maxReadBufferSize
    · rw [if_pos hf, if_pos hf]
      exact .rest (idle_one rfl) rfl rfl
    · rw [if_neg hf, if_neg hf]
      exact .pre (hn.read _) (readFailedLines_book ..)
  | cons r rs ih =>
    intro s
    simp only [fillLoopLines, fillLoop]
    by_cases hf : s.rbuf.length + tempReadBufferSize ≥ maxReadBufferSize
    · rw [if_pos hf, if_pos hf]
      exact .rest (idle_one rfl) rfl rfl
    · rw [if_neg hf, if_neg hf]
      refine .pre (hn.read _) ?_
      cases r with
      | fail e => exact readFailedLines_book ..
      | data bs t => exact .read (ih _)

theorem frameCaseLines_book {cfg : Cfg W} {app : AppLog W} (hq : ∀ req w, moved (app.lines req w) = []) {s s' : Sim W}
    {r : Option ProcRes} (h : s.frameCase cfg = .ok (r, s')) : Books s (s.frameCaseLines cfg app) s' := by
  unfold frameCase at h
  obtain ⟨⟨b, s1⟩, h1, h⟩ := Outcome.bind_eq_ok.mp h
  rw [frameCaseLines, h1]
  refine (tryReadLines_book hq h1).append ?_
  cases b with
  | true => simp at h; obtain ⟨rfl, rfl⟩ := h; exact .rest (idle_one rfl) rfl rfl
  | false => simp at h; obtain ⟨rfl, rfl⟩ := h; exact .rest rfl rfl rfl

theorem closeCallLines_book (s : Sim W) : Books s s.closeCallLines s.close := by
  rw [closeCallLines]
  split
  · rename_i h
    rw [close, if_pos h]
    exact .rest (idle_one rfl) rfl rfl
  · rename_i h
    rw [close_eq s h]
    exact ⟨_, rfl, by rw [idle_cons rfl (stateLines_idle ..)]; exact booked_enqueues ..⟩

theorem dispatchLines_book {cfg : Cfg W} {app : AppLog W} {net : NetLog} (hn : Modest app net) {s s' : Sim W}
    {r : Option ProcRes} (h : s.dispatch cfg = .ok (r, s')) : Books s (s.dispatchLines cfg app net) s' := by
  unfold dispatch at h
  unfold dispatchLines
  cases hst : s.st with
  | awaitingHandshake => rw [hst] at h; cases h; exact .rest (idle_cons rfl (stateLines_idle ..)) rfl rfl
  | awaitingFrame => rw [hst] at h; exact frameCaseLines_book hn.app h
  | closing =>
    rw [hst] at h
    cases h
    exact .idle (evs := [_]) (idle_cons rfl (idle_append hn.shutdown (stateLines_idle ..))) rfl (by simp [Moves]) rfl
  | clientClosed => rw [hst] at h; cases h; exact .rest rfl rfl rfl
  | protocolError => rw [hst] at h; cases h; exact .skip rfl (closeCallLines_book s)
  | awaitingPreface =>
    rw [hst] at h
    simp only at h ⊢
    unfold readPreface at h ⊢
    unfold prefaceLines
    by_cases h1 : s.rbuf.length < clientPreface.length
    · simp only [h1, if_true] at h ⊢
      cases h
      exact .rest (idle_append (idle_one rfl) rfl) rfl rfl
    · by_cases h2 : s.rbuf.take clientPreface.length ≠ clientPreface
      · rw [if_neg h1, if_pos h2] at h
        rw [if_neg h1, if_pos h2, if_neg h1, if_pos h2]
        cases h
        exact .rest (idle_append (idle_one rfl) rfl) rfl rfl
      · rw [if_neg h1, if_neg h2] at h
        rw [if_neg h1, if_neg h2, if_neg h1, if_neg h2]
        refine Books.append ?_ (frameCaseLines_book hn.app h)
        simp only [writeServerSettings_eq, enq, emit, updateState, discardProcessed]
        refine ⟨.prefaceOk :: _, by simp only [List.append_assoc]; rfl, ?_⟩
        rw [idle_cons rfl (idle_cons rfl (stateLines_idle ..))]
        have hl : clientPreface.length = 24 := rfl
        rw [hl] at h1
        rw [show s.rbuf.length = 24 + (s.rbuf.drop clientPreface.length).length by rw [List.length_drop, hl]; omega]
        exact .preface _ _ _ _ (booked_enqueues ..)

theorem turnLines_book {cfg : Cfg W} {app : AppLog W} {net : NetLog} (hn : Modest app net) {s s' : Sim W}
    {r : Option ProcRes} (h : s.turn cfg = .ok (r, s')) : Books s (s.turnLines cfg app net) s' := by
  unfold turn at h
  obtain ⟨s1, h1, h⟩ := Outcome.bind_eq_ok.mp h
  rw [turnLines, h1]
  simp only
  refine (flushLines_book hn h1).append ?_
  by_cases hw : s1.wbuf ≠ []
  · rw [if_pos hw] at h ⊢
    cases h
    exact .rest rfl rfl rfl
  · rw [if_neg hw] at h ⊢
    exact Books.append (fillLoopLines_book hn s1.reads s1) (dispatchLines_book hn h)

theorem iterLines_book {cfg : Cfg W} {app : AppLog W} {net : NetLog} (hn : Modest app net) {s s' : Sim W}
    {r : Option ProcRes} (h : s.iter cfg = .ok (r, s')) : Books s (s.iterLines cfg app net) s' := by
  unfold iter at h
  unfold iterLines
  refine .skip rfl ?_
  by_cases hst : s.st = .awaitingHandshake
  · rw [if_pos hst] at h ⊢
    cases hh : s.hs with
    | done t =>
      have e : s.handleHandshake = (none, ({ s with last := t }.emit (.handshake t)).updateState .awaitingPreface) := by
        rw [handleHandshake, hh]
      rw [e] at h ⊢
      simp only at h ⊢
      refine Books.append ?_ (turnLines_book hn h)
      rw [handshakeLines, hh]
      exact .pre (hn.handshake _) (.idle (evs := [_]) (idle_cons rfl (stateLines_idle ..)) rfl (by simp [Moves]) rfl)
    | fail e =>
      have hx : ∃ x, s.handleHandshake = (some x, s) := by
        rw [handleHandshake, hh]
        cases e <;> exact ⟨_, rfl⟩
      obtain ⟨x, hx⟩ := hx
      rw [hx] at h ⊢
      cases h
      refine Books.append (s1 := s) ?_ (.rest rfl rfl rfl)
      rw [handshakeLines, hh]
      refine .pre (hn.handshake _) (.rest ?_ rfl rfl)
      cases e <;> exact idle_one rfl
  · rw [if_neg hst] at h ⊢
    exact turnLines_book hn h

theorem processLoopLines_book {cfg : Cfg W} {app : AppLog W} {net : NetLog} (hn : Modest app net) (n : Nat) :
    ∀ {s s' : Sim W} {r : ProcRes}, s.loop cfg n = .ok (r, s') → Books s (processLoopLines cfg app net n s) s' := by
  induction n with
  | zero => intro s s' r h; cases h
  | succ n ih =>
    intro s s' r h
    rw [loop] at h
    obtain ⟨⟨x, s1⟩, h1, h⟩ := Outcome.bind_eq_ok.mp h
    rw [processLoopLines, h1]
    refine (iterLines_book hn h1).append ?_
    cases x with
    | some x =>
      simp at h
      obtain ⟨rfl, rfl⟩ := h
      exact .rest rfl rfl rfl
    | none => exact ih h

/-- C170: the lines of one call of `process` about octets read and written agree with what happened in the call. -/
theorem C170_process {cfg : Cfg W} {app : AppLog W} {net : NetLog} (hn : Modest app net) {env : Env} {s s' : Sim W}
    {r : ProcRes} (h : s.process cfg env = .ok (r, s')) :
    ∃ evs, s'.trace = s.trace ++ evs ∧
      Booked s.rbuf.length evs (moved (s.processLines cfg app net env)) s'.rbuf.length := by
  unfold process at h
  obtain ⟨⟨x, s2⟩, h1, h⟩ := Outcome.bind_eq_ok.mp h
  cases h
  have k := (processLoopLines_book hn _ h1).append
    (show Books s2 [] (s2.emit (.returned r)) from .idle (evs := [_]) rfl rfl (by simp [Moves]) rfl)
  rw [List.append_nil] at k
  exact k

/-- C170: all lines about octets read and written since the connection was made agree with all that happened on it. -/
theorem C170_all {cfg : Cfg W} {app : AppLog W} {w : W} {now : Nat} {s : Sim W} {lines : List Line}
    (h : Metered cfg app w now s lines) : Booked 0 s.trace (moved lines) s.rbuf.length := by
  induction h with
  | new => exact .nil _
  | step s s' lines env net r _ hn hp ih =>
    obtain ⟨evs, h1, h2⟩ := C170_process hn hp
    rw [h1, moved_append]
    exact ih.append h2
  | closed s lines _ ih =>
    obtain ⟨evs, h1, h2⟩ := closeCallLines_book s
    rw [h1, moved_append]
    exact ih.append h2

theorem _root_.Ion.Spec.Booked.sums {a b : Nat} {tr : List Ev} {ls : List Line} (h : Booked a tr ls b) :
    Sums ls (received tr).length (accepted tr).length := by
  induction h with
  | nil => exact .nil
  | read n bs t tr ls n' got now h1 h2 _ ih =>
    rw [received, List.length_append, accepted]
    · exact .read _ _ _ _ _ _ h1 ih
    · intros; contradiction
  | wrote n a k t tr ls n' put h1 h2 _ ih =>
    rw [accepted, List.length_append, List.length_take, Nat.min_eq_left h2, received]
    · exact .wrote _ _ _ _ _ h1 ih
    · intros; contradiction
  | preface n tr ls n' _ ih => exact ih
  | frame f n tr ls n' _ ih => exact ih
  | other e n tr ls n' he _ ih =>
    cases e with
    | read => cases he
    | write a r =>
      cases r with
      | wrote => cases he
      | fail => exact ih
    | _ => exact ih

/-- C170: the numbers in the lines add up to the octets received from the client and to those that the transport took. -/
theorem C170_totals {cfg : Cfg W} {app : AppLog W} {w : W} {now : Nat} {s : Sim W} {lines : List Line}
    (h : Metered cfg app w now s lines) :
    Sums (moved lines) (received s.trace).length (accepted s.trace).length := (C170_all h).sums

theorem exNet_modest : Modest (silent : AppLog Nat) exNet := by
  refine ⟨fun _ _ => rfl, fun r => ?_, fun rs => ?_, fun a ws => ?_, rfl⟩
  · cases r with
    | done t => rfl
    | fail e => cases e <;> rfl
  · cases rs with
    | nil => rfl
    | cons r rs =>
      cases r with
      | data bs t => rfl
      | fail e => cases e <;> rfl
  · cases ws with
    | nil => rfl
    | cons r rs =>
      cases r with
      | wrote n t => rfl
      | fail e => cases e <;> rfl

/-- The lines about octets of a new connection's first call. -/
def exMoved (env : Env) : List Bytes := (moved (processLines exCfg silent exNet env (init 0 0))).map (·.2)

set_option maxRecDepth 100000 in
/-- A preface with a request in two pieces, and the answer in two pieces; one whose answer cannot be written yet. -/
example :
    exMoved { hs := .done 1, reads := [.data (clientPreface.take 10) 2, .data (clientPreface.drop 10 ++ exGet) 2],
              writes := [.wrote 71 3] } =
      [b!"read 10 bytes, buffer size now 10", b!"read 25 bytes, buffer size now 35",
       b!"flushed 71 bytes from write buffer"] ∧
    exMoved { hs := .done 1, reads := [.data (clientPreface ++ exGet) 2], writes := [.wrote 27 3, .wrote 44 4] } =
      [b!"read 35 bytes, buffer size now 35", b!"flushed 27 bytes from write buffer"] ∧
    exMoved { hs := .done 1, reads := [.data (clientPreface ++ exGet) 2], writes := [] } =
      [b!"read 35 bytes, buffer size now 35"] := by
  refine ⟨?_, ?_, ?_⟩ <;> decide +kernel

end Sim
end Ion
