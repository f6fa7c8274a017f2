import Verif.Props.ConnLog

/-!
# What the log says about the state of a connection (C169)

At level debug each change of the state of a connection leaves a line with the old and the new state. C169 asks whether
these lines tell all changes, in order, and nothing else.
-/

namespace Ion

namespace Spec

/-- The names of the states. -/
def stateName : CState → Bytes
  | .awaitingHandshake => b!"AwaitingHandshake"
  | .awaitingPreface => b!"AwaitingPreface"
  | .awaitingFrame => b!"AwaitingFrame"
  | .protocolError => b!"ProtocolError"
  | .clientClosed => b!"ClientClosed"
  | .closing => b!"Closing"

/-- A text that is about a change of state. -/
def AboutChange (text : Bytes) : Bool := b!"connection state changed".isPrefixOf text

/-- The lines about changes of state. -/
def changes (lines : List Line) : List Line := lines.filter fun l => AboutChange l.2

/-- Lines that tell how the state changed, step by step, from the first state to the last. -/
inductive Chain : CState → List Line → CState → Prop where
  | nil (a : CState) : Chain a [] a
  | cons (a b c : CState) (ls : List Line) : a ≠ b → Chain b ls c →
    Chain a ((.debug, b!"connection state changed from " ++ stateName a ++ b!" to " ++ stateName b) :: ls) c

/-- An application and a transport that do not write such lines themselves. -/
structure Discreet {W : Type} (app : AppLog W) (net : NetLog) : Prop where
  app : ∀ req w, changes (app.lines req w) = []
  handshake : ∀ r, changes (net.handshake r) = []
  read : ∀ rs, changes (net.read rs) = []
  write : ∀ a ws, changes (net.write a ws) = []
  shutdown : changes net.shutdown = []

/-- A connection after some calls of `process` and `close`, with what has been logged in them. -/
inductive Watched {W : Type} (cfg : Cfg W) (app : AppLog W) (w : W) (now : Nat) : Sim W → List Line → Prop where
  | new : Watched cfg app w now (Sim.init w now) []
  | step (s s' : Sim W) (lines : List Line) (env : Env) (net : NetLog) (r : ProcRes) :
    Watched cfg app w now s lines → Discreet app net → s.process cfg env = .ok (r, s') →
    Watched cfg app w now s' (lines ++ s.processLines cfg app net env)
  | closed (s : Sim W) (lines : List Line) :
    Watched cfg app w now s lines → Watched cfg app w now s.close (lines ++ s.closeCallLines)

end Spec

open Spec

/-! ## Lines about other things -/

theorem changes_append (a b : List Line) : changes (a ++ b) = changes a ++ changes b := List.filter_append ..

theorem changes_skip {v : Level} {t : Bytes} (h : AboutChange t = false) (ls : List Line) :
    changes ((v, t) :: ls) = changes ls := by
  simp [changes, h]

theorem changes_nil : changes [] = [] := rfl

theorem still_cons {v : Level} {t : Bytes} {ls : List Line} (h : AboutChange t = false) (hl : changes ls = []) :
    changes ((v, t) :: ls) = [] := by rw [changes_skip h, hl]

theorem still_append {a b : List Line} (ha : changes a = []) (hb : changes b = []) : changes (a ++ b) = [] := by
  rw [changes_append, ha, hb]; rfl

theorem still_one {v : Level} {t : Bytes} (h : AboutChange t = false) : changes [(v, t)] = [] := still_cons h rfl

theorem insertLines_still (t : DynTable) (h : Header) : changes (t.insertLines h) = [] := by
  simp only [DynTable.insertLines]
  split <;> exact still_one rfl

theorem entryLines_still : ∀ (hs : List Header) (pos : Nat), changes (entryLines pos hs) = []
  | [], _ => rfl
  | _ :: hs, pos => still_cons rfl (entryLines_still hs (pos + 1))

theorem tablesLines_still (dec enc : DynTable) : changes (tablesLines dec enc) = [] :=
  still_append (still_cons rfl (still_cons rfl (entryLines_still ..))) (still_cons rfl (still_cons rfl (entryLines_still ..)))

theorem restLines_still (br : BitReader) (bits : Nat) : changes (HuffTree.restLines br bits) = [] := by
  fun_induction HuffTree.restLines br bits with
  | case1 => exact still_one rfl
  | case2 _ _ _ _ ih => exact ih
  | case3 => rfl

theorem loopLines_still (root : HuffTree) (br : BitReader) (current : HuffTree) (bits : Nat) :
    changes (HuffTree.loopLines root br current bits) = [] := by
  fun_induction HuffTree.loopLines root br current bits with
  | case1 => rfl
  | case2 => exact restLines_still ..
  | case3 => assumption
  | case4 => assumption
  | case5 => rfl

theorem limitLines_still (size : Nat) : changes (limitLines size) = [] := by
  rw [limitLines]
  split
  · rfl
  · exact still_one rfl

theorem stringLines_still (isHuffman : Bool) (size : Nat) (data : Bytes) : changes (stringLines isHuffman size data) = [] := by
  rw [stringLines]
  split
  · rw [huffmanStringLines]
    split
    · rfl
    · refine still_append (loopLines_still ..) ?_
      split
      · exact limitLines_still _
      · rfl
  · exact limitLines_still _

theorem lengthAndStringLines_still (r : ByteReader) : changes (lengthAndStringLines r) = [] := by
  rw [lengthAndStringLines]
  split
  · exact still_one rfl
  · split
    · exact still_one rfl
    · split
      · exact still_one rfl
      · exact stringLines_still ..

theorem headerAtLines_still (t : DynTable) (index i : Nat) : changes (headerAtLines t index i) = [] := by
  rw [headerAtLines]
  split
  · exact still_one rfl
  · simp only
    split
    · exact still_one rfl
    · split
      · exact still_one rfl
      · rfl

theorem headerNameAtLines_still (t : DynTable) (index i : Nat) : changes (headerNameAtLines t index i) = [] := by
  rw [headerNameAtLines]
  split
  · exact still_one rfl
  · simp only
    split
    · exact still_one rfl
    · split
      · exact still_one rfl
      · rfl

theorem indexedFieldLines_still (t : DynTable) (r : ByteReader) : changes (indexedFieldLines t r) = [] := by
  rw [indexedFieldLines]
  split
  · exact still_one rfl
  · split
    · exact still_one rfl
    · exact headerAtLines_still ..

theorem valueLines_still (name : Bytes) (r : ByteReader) : changes (valueLines name r) = [] := by
  rw [valueLines]
  refine still_append (lengthAndStringLines_still _) ?_
  split
  · exact still_one rfl
  · rfl

theorem literalFieldLines_still (t : DynTable) (bits : UInt8) (r : ByteReader) : changes (literalFieldLines t bits r) = [] := by
  rw [literalFieldLines]
  split
  · exact still_one rfl
  · refine still_cons rfl ?_
    split
    · refine still_append (lengthAndStringLines_still _) ?_
      split
      · exact valueLines_still ..
      · rfl
    · refine still_append (headerNameAtLines_still ..) ?_
      split
      · exact valueLines_still ..
      · rfl

theorem sizeUpdateLines_still (r : ByteReader) : changes (sizeUpdateLines r) = [] := by
  rw [sizeUpdateLines]
  split
  · exact still_one rfl
  · split <;> exact still_one rfl

theorem fieldLines_still (t : DynTable) (r : ByteReader) (b : UInt8) : changes (fieldLines t r b) = [] := by
  rw [fieldLines]
  refine still_cons rfl ?_
  split
  · exact indexedFieldLines_still ..
  · refine still_append (literalFieldLines_still ..) ?_
    split
    · exact insertLines_still ..
    · rfl
  · exact literalFieldLines_still ..
  · exact literalFieldLines_still ..
  · exact sizeUpdateLines_still _
  · exact still_one rfl

theorem blockLoopLines_still : ∀ (n : Nat) (t : DynTable) (r : ByteReader), changes (blockLoopLines n t r) = []
  | 0, _, [] => rfl
  | _ + 1, _, [] => rfl
  | 0, _, _ :: _ => rfl
  | n + 1, t, b :: r => by
    rw [blockLoopLines]
    refine still_append (fieldLines_still ..) ?_
    split
    · exact blockLoopLines_still ..
    · rfl

theorem encodeLines_still (c : Bool) : ∀ (hs : List Header) (t : DynTable), changes (encodeLines c t hs) = []
  | [], _ => rfl
  | h :: hs, t => by
    rw [encodeLines]
    refine still_append ?_ ?_
    · rw [encodeHeaderLines]
      split
      · rfl
      · split
        · rfl
        · split
          · exact insertLines_still ..
          · rfl
    · split
      · exact encodeLines_still ..
      · rfl

theorem status_still (n : Nat) (t : Bytes) : AboutChange (decimal n ++ t) = false := by
  obtain ⟨h1, h2, -, -⟩ := Sim.decimal_spec n
  cases hd : decimal n with
  | nil => exact absurd hd h1
  | cons d ds =>
    have := h2 d (by rw [hd]; exact List.mem_cons_self ..)
    have hne : (99 : UInt8) ≠ d := by rintro rfl; revert this; decide
    simp only [AboutChange, List.cons_append, List.isPrefixOf]
    rw [beq_eq_false_iff_ne.mpr hne]
    rfl

namespace Sim
variable {W : Type}

theorem dataLines_still (body : Bytes) : changes (dataLines body) = [] := by
  fun_induction dataLines body with
  | case1 => rfl
  | case2 _ _ _ ih => exact still_cons rfl ih

theorem headersLines_still : ∀ hs : List Header,
    changes (hs.map fun h => ((.debug : Level), b!" - request header: " ++ h.name ++ b!": " ++ h.value)) = []
  | [] => rfl
  | _ :: hs => still_cons rfl (headersLines_still hs)

theorem answerLines_still {cfg : Cfg W} {app : AppLog W} (hq : ∀ req w, changes (app.lines req w) = []) (s : Sim W)
    (hs : List Header) : changes (s.answerLines cfg app hs) = [] := by
  rw [answerLines]
  refine still_append (still_append (headersLines_still _) ?_) ?_
  · rw [requestLines]
    split
    · refine still_append (hq _ _) ?_
      split
      · exact still_one rfl
      · rfl
    · exact still_one rfl
  · split
    · refine still_append (encodeLines_still ..) ?_
      split
      · refine still_append (tablesLines_still ..) (still_cons (status_still ..) ?_)
        split
        · rfl
        · exact still_cons rfl (dataLines_still _)
      · rfl
    · rfl

/-! ## Lines about changes -/

theorem _root_.Ion.CState.text_eq (a : CState) : a.text = stateName a := by cases a <;> rfl

theorem _root_.Ion.Spec.Chain.append {a b c : CState} {l m : List Line} (h : Chain a l b) (k : Chain b m c) : Chain a (l ++ m) c := by
  induction h with
  | nil => exact k
  | cons a b _ ls hne _ ih => exact .cons a b _ _ hne (ih k)

/-- The lines tell how the state of the connection changed. -/
def Follows (s : Sim W) (ls : List Line) (s' : Sim W) : Prop := Chain s.st (changes ls) s'.st

theorem Follows.append {s s1 s2 : Sim W} {a b : List Line} (h : Follows s a s1) (k : Follows s1 b s2) :
    Follows s (a ++ b) s2 := by
  rw [Follows, changes_append]
  exact Chain.append h k

theorem Follows.still {s s' : Sim W} {ls : List Line} (hl : changes ls = []) (hs : s'.st = s.st) : Follows s ls s' := by
  rw [Follows, hl, hs]
  exact .nil _

theorem Follows.skip {s s' : Sim W} {v : Level} {t : Bytes} {ls : List Line} (h : AboutChange t = false)
    (k : Follows s ls s') : Follows s ((v, t) :: ls) s' := by
  rw [Follows, changes_skip h]
  exact k

theorem Follows.pre {s s' : Sim W} {a ls : List Line} (h : changes a = []) (k : Follows s ls s') : Follows s (a ++ ls) s' := by
  rw [Follows, changes_append, h]
  exact k

theorem Follows.change {s s' : Sim W} {st : CState} (h : s'.st = st) : Follows s (s.stateLines st) s' := by
  subst h
  rw [Follows, stateLines]
  split
  · rename_i hne
    rw [show changes [(Level.debug, b!"connection state changed from " ++ s.st.text ++ b!" to " ++ s'.st.text)] =
      [(Level.debug, b!"connection state changed from " ++ s.st.text ++ b!" to " ++ s'.st.text)] from rfl,
      CState.text_eq, CState.text_eq]
    exact .cons _ _ _ _ (Ne.symm hne) (.nil _)
  · rename_i he
    have he : s'.st = s.st := Decidable.byContradiction he
    rw [he]
    exact .nil _

theorem Follows.of_st {s t s' t' : Sim W} {ls : List Line} (h : Follows s ls s') (hs : t.st = s.st) (hs' : t'.st = s'.st) :
    Follows t ls t' := by
  rw [Follows, hs, hs']; exact h

theorem frameLines_follow {cfg : Cfg W} {app : AppLog W} (hq : ∀ req w, changes (app.lines req w) = []) {s s' : Sim W}
    {f : FrameReader} (h : s.processFrame cfg f = .ok s') : Follows s (s.frameLines cfg app f) s' := by
  cases processFrame_ok h with
  | settingsAck ht hf =>
    rw [frameLines, if_pos ht, if_pos (by simpa [FrameReader.hasFlag] using hf)]
    exact .still (still_cons rfl (still_one rfl)) rfl
  | settings l ht hf hl =>
    rw [frameLines, if_pos ht, if_neg (by simpa [FrameReader.hasFlag] using hf), hl]
    exact .still (still_cons rfl (still_one rfl)) rfl
  | badSettings e ht hf hl =>
    rw [frameLines, if_pos ht, if_neg (by simpa [FrameReader.hasFlag] using hf), hl]
    exact .skip rfl (.skip rfl (.change rfl))
  | badHeaders block e dec' ht hb hd =>
    rw [frameLines, if_neg (by rw [ht]; decide), if_pos ht, hb]
    simp only [hd]
    refine Follows.append (s1 := { s with dec := dec' }) ?_ ?_
    · exact .still (still_cons rfl (still_cons rfl (tablesLines_still ..))) rfl
    · exact .pre (blockLoopLines_still ..) (.change rfl)
  | request data hs dec' resp evs w' block enc' ht hb hd hr he =>
    rw [frameLines, if_neg (by rw [ht]; decide), if_pos ht, hb]
    simp only [hd]
    exact .still (still_append (still_cons rfl (still_cons rfl (tablesLines_still ..)))
      (still_append (blockLoopLines_still ..) (answerLines_still hq _ _))) rfl
  | windowUpdate w ht hw =>
    rw [frameLines, if_neg (by rw [ht]; decide), if_neg (by rw [ht]; decide), if_pos ht, hw]
    exact .still (still_cons rfl (still_one rfl)) rfl
  | goaway ht =>
    rw [frameLines, if_neg (by rw [ht]; decide), if_neg (by rw [ht]; decide), if_neg (by rw [ht]; decide), if_pos ht]
    exact .skip rfl (.change rfl)
  | other h1 h4 h7 h8 =>
    rw [frameLines, if_neg h4, if_neg h1, if_neg h8, if_neg h7]
    exact .still (still_one rfl) rfl

theorem tryReadLines_follow {cfg : Cfg W} {app : AppLog W} (hq : ∀ req w, changes (app.lines req w) = []) {s s' : Sim W}
    {again : Bool} (h : s.tryReadFrame cfg = .ok (again, s')) : Follows s (s.tryReadLines cfg app) s' := by
  simp only [tryReadFrame] at h
  simp only [tryReadLines]
  split at h
  · rename_i hl
    cases h
    rw [if_pos hl]
    exact .still (still_one rfl) rfl
  · rename_i hl
    rw [if_neg hl]
    obtain ⟨header, hp, h⟩ := Outcome.bind_eq_ok.mp h
    rw [hp]
    simp only
    refine .skip rfl ?_
    split at h
    · rename_i hb
      cases h
      rw [if_pos hb]
      exact .skip rfl (.change rfl)
    · rename_i hb
      rw [if_neg hb]
      split at h
      · rename_i ht
        cases h
        rw [if_pos ht]
        exact .still (still_one rfl) rfl
      · rename_i ht
        obtain ⟨s1, h1, h⟩ := Outcome.bind_eq_ok.mp h
        cases h
        rw [if_neg ht]
        exact (frameLines_follow hq h1).of_st rfl rfl

theorem flushLines_follow {app : AppLog W} {net : NetLog} (hn : Discreet app net) {s s' : Sim W} (h : s.flush = .ok s') :
    Follows s (s.flushLines net) s' := by
  unfold flush at h
  split at h
  · rename_i hw
    cases h
    rw [flushLines, if_pos hw]
    exact .still rfl rfl
  · rename_i hw
    simp only [emit, updateState] at h
    cases hws : s.writes.headD (.fail .wantReadOrWrite) with
    | wrote n t =>
      rw [hws] at h
      simp only at h
      by_cases hb : n > s.wbuf.length
      · simp only [hb, if_true] at h; cases h
      · simp only [hb, if_false] at h
        cases h
        rw [flushLines, if_neg hw, hws]
        exact .pre (hn.write _ _) (.still (still_one rfl) rfl)
    | fail e =>
      by_cases he : e = .wantReadOrWrite
      · subst he
        rw [hws] at h
        cases h
        rw [flushLines, if_neg hw, hws]
        exact .pre (hn.write _ _) (.still (still_one rfl) rfl)
      · rw [flushLines_failed net hw hws he]
        rw [hws] at h
        cases e with
        | wantReadOrWrite => exact absurd rfl he
        | _ => cases h; exact .pre (hn.write _ _) (.skip rfl (.change rfl))

theorem readFailedLines_follow (s : Sim W) (e : TErr) (rs : List ReadRes) :
    Follows s (s.readFailedLines e) { s.readFailed e with reads := rs } := by
  cases e with
  | wantReadOrWrite => exact .still (still_one rfl) rfl
  | connectionClosed => exact .skip rfl (.change rfl)
  | protocolError => exact .skip rfl (.change rfl)
  | writeError => exact .still (still_one rfl) rfl
  | otherError => exact .still (still_one rfl) rfl

theorem fillLoopLines_follow {app : AppLog W} {net : NetLog} (hn : Discreet app net) (rs : List ReadRes) :
    ∀ s : Sim W, Follows s (fillLoopLines net rs s) (fillLoop rs s) := by
  induction rs with
  | nil =>
    intro s
    simp only [fillLoopLines, fillLoop]
    by_cases hf : s.rbuf.length + tempReadBufferSize ≥ maxReadBufferSize
    · rw [if_pos hf, if_pos hf]
      exact .still (still_one rfl) rfl
    · rw [if_neg hf, if_neg hf]
      exact .pre (hn.read _) (readFailedLines_follow ..)
  | cons r rs ih =>
    intro s
    simp only [fillLoopLines, fillLoop]
    by_cases hf : s.rbuf.length + tempReadBufferSize ≥ maxReadBufferSize
    · rw [if_pos hf, if_pos hf]
      exact .still (still_one rfl) rfl
    · rw [if_neg hf, if_neg hf]
      refine .pre (hn.read _) ?_
      cases r with
      | fail e => exact readFailedLines_follow ..
      | data bs t => exact .skip rfl ((ih _).of_st rfl rfl)

theorem frameCaseLines_follow {cfg : Cfg W} {app : AppLog W} (hq : ∀ req w, changes (app.lines req w) = []) {s s' : Sim W}
    {r : Option ProcRes} (h : s.frameCase cfg = .ok (r, s')) : Follows s (s.frameCaseLines cfg app) s' := by
  unfold frameCase at h
  obtain ⟨⟨b, s1⟩, h1, h⟩ := Outcome.bind_eq_ok.mp h
  rw [frameCaseLines, h1]
  refine (tryReadLines_follow hq h1).append ?_
  cases b with
  | true => simp at h; obtain ⟨rfl, rfl⟩ := h; exact .still (still_one rfl) rfl
  | false => simp at h; obtain ⟨rfl, rfl⟩ := h; exact .still rfl rfl

theorem closeCallLines_follow (s : Sim W) : Follows s s.closeCallLines s.close := by
  rw [closeCallLines]
  split
  · rename_i h
    rw [close, if_pos h]
    exact .still (still_one rfl) rfl
  · rename_i h
    refine .skip rfl (.change ?_)
    rw [close, if_neg h]
    rfl

theorem dispatchLines_follow {cfg : Cfg W} {app : AppLog W} {net : NetLog} (hn : Discreet app net) {s s' : Sim W}
    {r : Option ProcRes} (h : s.dispatch cfg = .ok (r, s')) : Follows s (s.dispatchLines cfg app net) s' := by
  unfold dispatch at h
  unfold dispatchLines
  cases hst : s.st with
  | awaitingHandshake => rw [hst] at h; cases h; exact .skip rfl (.change rfl)
  | awaitingFrame => rw [hst] at h; exact frameCaseLines_follow hn.app h
  | closing => rw [hst] at h; cases h; exact .skip rfl (.pre hn.shutdown (.change rfl))
  | clientClosed => rw [hst] at h; cases h; exact .still rfl rfl
  | protocolError => rw [hst] at h; cases h; exact .skip rfl (closeCallLines_follow s)
  | awaitingPreface =>
    rw [hst] at h
    simp only at h ⊢
    unfold readPreface at h ⊢
    unfold prefaceLines
    by_cases h1 : s.rbuf.length < clientPreface.length
    · simp only [h1, if_true] at h ⊢
      cases h
      exact .still (still_append (still_one rfl) rfl) rfl
    · by_cases h2 : s.rbuf.take clientPreface.length ≠ clientPreface
      · rw [if_neg h1, if_pos h2] at h
        rw [if_neg h1, if_pos h2, if_neg h1, if_pos h2]
        cases h
        exact .still (still_append (still_one rfl) rfl) rfl
      · rw [if_neg h1, if_neg h2] at h
        rw [if_neg h1, if_neg h2, if_neg h1, if_neg h2]
        exact Follows.append (.skip rfl (.skip rfl (.change rfl))) (frameCaseLines_follow hn.app h)

theorem turnLines_follow {cfg : Cfg W} {app : AppLog W} {net : NetLog} (hn : Discreet app net) {s s' : Sim W}
    {r : Option ProcRes} (h : s.turn cfg = .ok (r, s')) : Follows s (s.turnLines cfg app net) s' := by
  unfold turn at h
  obtain ⟨s1, h1, h⟩ := Outcome.bind_eq_ok.mp h
  rw [turnLines, h1]
  simp only
  refine (flushLines_follow hn h1).append ?_
  by_cases hw : s1.wbuf ≠ []
  · rw [if_pos hw] at h ⊢
    cases h
    exact .still rfl rfl
  · rw [if_neg hw] at h ⊢
    exact Follows.append (fillLoopLines_follow hn s1.reads s1) (dispatchLines_follow hn h)

theorem iterLines_follow {cfg : Cfg W} {app : AppLog W} {net : NetLog} (hn : Discreet app net) {s s' : Sim W}
    {r : Option ProcRes} (h : s.iter cfg = .ok (r, s')) : Follows s (s.iterLines cfg app net) s' := by
  unfold iter at h
  unfold iterLines
  refine .skip rfl ?_
  by_cases hst : s.st = .awaitingHandshake
  · rw [if_pos hst] at h ⊢
    cases hh : s.hs with
    | done t =>
      have e : s.handleHandshake = (none, ({ s with last := t }.emit (.handshake t)).updateState .awaitingPreface) := by
        rw [handleHandshake, hh]
      rw [e] at h ⊢
      simp only at h ⊢
      refine Follows.append ?_ (turnLines_follow hn h)
      rw [handshakeLines, hh]
      exact .pre (hn.handshake _) (.skip rfl (.change rfl))
    | fail e =>
      have hx : ∃ x, s.handleHandshake = (some x, s) := by
        rw [handleHandshake, hh]
        cases e <;> exact ⟨_, rfl⟩
      obtain ⟨x, hx⟩ := hx
      rw [hx] at h ⊢
      cases h
      refine Follows.append (s1 := s) ?_ (.still rfl rfl)
      rw [handshakeLines, hh]
      refine .pre (hn.handshake _) (.still ?_ rfl)
      cases e <;> exact still_one rfl
  · rw [if_neg hst] at h ⊢
    exact turnLines_follow hn h

theorem processLoopLines_follow {cfg : Cfg W} {app : AppLog W} {net : NetLog} (hn : Discreet app net) (n : Nat) :
    ∀ {s s' : Sim W} {r : ProcRes}, s.loop cfg n = .ok (r, s') → Follows s (processLoopLines cfg app net n s) s' := by
  induction n with
  | zero => intro s s' r h; cases h
  | succ n ih =>
    intro s s' r h
    rw [loop] at h
    obtain ⟨⟨x, s1⟩, h1, h⟩ := Outcome.bind_eq_ok.mp h
    rw [processLoopLines, h1]
    refine (iterLines_follow hn h1).append ?_
    cases x with
    | some x =>
      simp at h
      obtain ⟨rfl, rfl⟩ := h
      exact .still rfl rfl
    | none => exact ih h

/-- C169: the lines about changes of state that one call of `process` leaves lead, change by change, from the state
before the call to the state after it. -/
theorem C169_process {cfg : Cfg W} {app : AppLog W} {net : NetLog} (hn : Discreet app net) {env : Env} {s s' : Sim W}
    {r : ProcRes} (h : s.process cfg env = .ok (r, s')) :
    Chain s.st (changes (s.processLines cfg app net env)) s'.st := by
  unfold process at h
  obtain ⟨⟨x, s2⟩, h1, h⟩ := Outcome.bind_eq_ok.mp h
  cases h
  exact processLoopLines_follow hn _ h1

/-- C169: the same for `close`. -/
theorem C169_close (s : Sim W) : Chain s.st (changes s.closeCallLines) s.close.st := closeCallLines_follow s

/-- C169: all lines about changes of state since the connection was made lead from AwaitingHandshake to the state in which
the connection is. -/
theorem C169_all {cfg : Cfg W} {app : AppLog W} {w : W} {now : Nat} {s : Sim W} {lines : List Line}
    (h : Watched cfg app w now s lines) : Chain .awaitingHandshake (changes lines) s.st := by
  induction h with
  | new => exact .nil _
  | step s s' lines env net r _ hn hp ih =>
    rw [changes_append]
    exact ih.append (C169_process hn hp)
  | closed s lines _ ih =>
    rw [changes_append]
    exact ih.append (C169_close s)

end Sim

/-- C169: such lines can be read in one way only: two chains with the same lines and the same beginning have the same end. -/
theorem C169_reads {a b c : CState} {ls : List Line} (h : Chain a ls b) (k : Chain a ls c) : b = c := by
  induction h with
  | nil => cases k; rfl
  | cons a b _ ls _ _ ih =>
    generalize hl : ((Level.debug, b!"connection state changed from " ++ stateName a ++ b!" to " ++ stateName b) :: ls) = m at k
    cases k with
    | nil => cases hl
    | cons _ b' _ ls' _ k =>
      simp only [List.cons.injEq, Prod.mk.injEq, true_and] at hl
      obtain ⟨h1, rfl⟩ := hl
      have : stateName b = stateName b' := List.append_cancel_left h1
      have : b = b' := by
        cases b <;> cases b' <;> first | rfl | (revert this; decide)
      subst this
      exact ih k

namespace Sim

theorem exNet_discreet : Discreet (silent : AppLog Nat) exNet := by
  refine ⟨fun _ _ => rfl, fun r => ?_, fun rs => ?_, fun a ws => ?_, rfl⟩
  · cases r with
    | done t => rfl
    | fail e => cases e <;> rfl
  · cases rs with
    | nil => rfl
    | cons r rs =>
      cases r with
      | data bs t => rfl
      | fail e => cases e <;> rfl
  · cases ws with
    | nil => rfl
    | cons r rs =>
      cases r with
      | wrote n t => rfl
      | fail e => cases e <;> rfl

/-- The result of a new connection's first call, the state after it, and the lines about changes of state. -/
def exStates (env : Env) : Option (ProcRes × CState) × List Bytes :=
  (match process exCfg env (init 0 0) with
    | .ok (r, s) => some (r, s.st)
    | _ => none, (changes (processLines exCfg silent exNet env (init 0 0))).map (·.2))

set_option maxRecDepth 100000 in
/-- A client that sends a frame that is too long; one that closes the connection after a request; one whose handshake is not
finished; one that sends a request and waits. -/
example :
    exStates (exEnv (clientPreface ++ exBig) [27]) = (some (.discard, .closing),
      [b!"connection state changed from AwaitingHandshake to AwaitingPreface",
       b!"connection state changed from AwaitingPreface to AwaitingFrame",
       b!"connection state changed from AwaitingFrame to ProtocolError",
       b!"connection state changed from ProtocolError to Closing"]) ∧
    exStates { hs := .done 1, reads := [.data (clientPreface ++ exGet) 2, .fail .wantReadOrWrite, .fail .connectionClosed],
               writes := [.wrote 71 3] } = (some (.discard, .clientClosed),
      [b!"connection state changed from AwaitingHandshake to AwaitingPreface",
       b!"connection state changed from AwaitingPreface to AwaitingFrame",
       b!"connection state changed from AwaitingFrame to ClientClosed"]) ∧
    exStates { hs := .fail .wantReadOrWrite } = (some (.wantRead, .awaitingHandshake), []) ∧
    (exStates { hs := .done 1, reads := [.data (clientPreface ++ exGet) 2], writes := [.wrote 71 3] }).2 =
      [b!"connection state changed from AwaitingHandshake to AwaitingPreface",
       b!"connection state changed from AwaitingPreface to AwaitingFrame"] := by
  refine ⟨?_, ?_, ?_, ?_⟩ <;> decide +kernel

/-- `close` on a connection that waits for frames, and on one that is closing. -/
example :
    (changes (closeCallLines { (init 0 0 : Sim Nat) with st := .awaitingFrame })).map (·.2) =
      [b!"connection state changed from AwaitingFrame to Closing"] ∧
    changes (closeCallLines { (init 0 0 : Sim Nat) with st := .closing }) = [] := by
  refine ⟨?_, ?_⟩ <;> decide +kernel

end Sim
end Ion
