import Verif.Lemmas.ConnMore

/-!
# The loop of `internal_process`: progress, and when an iteration does not return
-/

namespace Ion
namespace Sim
variable {W : Type}

/-- Octets in a list of read results. -/
def pending : List ReadRes → Bytes
  | [] => []
  | .data bs _ :: rs => bs ++ pending rs
  | .fail _ :: rs => pending rs

theorem available_eq (rs : List ReadRes) : available rs = (pending rs).length := by
  induction rs with
  | nil => rfl
  | cons r rs ih => cases r <;> simp [available, pending, ih]

/-- Octets received and still to come in the current call. -/
def offered (s : Sim W) : Bytes := received s.trace ++ pending s.reads

/-- Octets a call can still act on. -/
def toRead (s : Sim W) : Nat := s.rbuf.length + available s.reads

theorem fillLoop_keeps (rs : List ReadRes) (s : Sim W) :
    received (fillLoop rs s).trace ++ pending (fillLoop rs s).reads = received s.trace ++ pending rs ∧
    (fillLoop rs s).rbuf.length + available (fillLoop rs s).reads = s.rbuf.length + available rs := by
  induction rs generalizing s with
  | nil =>
    simp only [fillLoop]
    split
    · exact ⟨rfl, rfl⟩
    · simp [Sim.readFailed, emit, received, pending]
  | cons r rs ih =>
    simp only [fillLoop]
    split
    · exact ⟨rfl, rfl⟩
    · cases r with
      | fail e => cases e <;> simp [Sim.readFailed, emit, updateState, received, pending, available]
      | data bs t =>
        obtain ⟨h1, h2⟩ := ih ({ s with last := t, rbuf := s.rbuf ++ bs }.emit (.read bs t))
        refine ⟨h1.trans ?_, h2.trans ?_⟩
        · simp [emit, received, pending]
        · simp [emit, available]; omega

theorem fill_keeps (s : Sim W) : s.fill.offered = s.offered ∧ s.fill.toRead = s.toRead :=
  fillLoop_keeps s.reads s

/-- A failed write result is the only thing that stops a flush: an over-reported success. -/
def OverReports (s : Sim W) : Prop :=
  ∃ n t, s.wbuf ≠ [] ∧ s.writes.head? = some (.wrote n t) ∧ s.wbuf.length < n

theorem flush_keeps {s s' : Sim W} (h : s.flush = .ok s') :
    s'.offered = s.offered ∧ s'.toRead = s.toRead ∧ (s'.st = s.st ∨ s'.st = .protocolError) := by
  unfold flush at h
  split at h
  · cases h; exact ⟨rfl, rfl, .inl rfl⟩
  · simp only [emit, updateState] at h
    split at h
    · cases h; exact ⟨by simp [offered, received], rfl, .inl rfl⟩
    · cases h; exact ⟨by simp [offered, received], rfl, .inr rfl⟩
    · rename_i n t hr
      by_cases hn : n > s.wbuf.length
      · simp only [hn, if_true] at h; cases h
      · simp only [hn, if_false] at h
        cases h
        exact ⟨by simp [offered, received], rfl, .inl rfl⟩

theorem flush_fails {s : Sim W} (h : ∀ x, s.flush ≠ .ok x) : OverReports s := by
  unfold flush at h
  split at h
  · exact absurd rfl (h s)
  · rename_i hw
    simp only [emit, updateState] at h
    split at h
    · exact absurd rfl (h _)
    · exact absurd rfl (h _)
    · rename_i n t hr
      by_cases hn : n > s.wbuf.length
      · refine ⟨n, t, hw, ?_, hn⟩
        cases hws : s.writes with
        | nil => simp [hws] at hr
        | cons x xs => simp [hws] at hr; simp [hr]
      · simp only [hn, if_false] at h
        exact absurd rfl (h _)

/-- What a computation ended with, if not with a value. -/
def ending {ε α : Type} : Outcome ε α → Option (ε ⊕ UB)
  | .ok _ => none
  | .err e => some (.inl e)
  | .ub u => some (.inr u)

theorem ending_ok {ε α : Type} {x : Outcome ε α} : ending x = none ↔ ∃ a, x = .ok a := by
  cases x <;> simp [ending]

/-- Acting on the complete frame at the head of the buffer ends with `e`. -/
def FrameEnds (cfg : Cfg W) (s : Sim W) (e : Stop ⊕ UB) : Prop :=
  s.st = .awaitingFrame ∧ ∃ hd, HasHeader s.rbuf hd ∧ hd.length.toNat ≤ 16384 ∧
    9 + hd.length.toNat ≤ s.rbuf.length ∧
    ending (processFrame cfg { s with trace := s.trace ++
        [.frame ⟨hd, (s.rbuf.drop 9).take hd.length.toNat⟩] }
      ⟨hd, (s.rbuf.drop 9).take hd.length.toNat⟩) = some e

/-- Acting on the complete frame at the head of the buffer fails. -/
def FrameFails (cfg : Cfg W) (s : Sim W) : Prop :=
  s.st = .awaitingFrame ∧ ∃ hd, HasHeader s.rbuf hd ∧ hd.length.toNat ≤ 16384 ∧
    9 + hd.length.toNat ≤ s.rbuf.length ∧
    ∀ x, processFrame cfg { s with trace := s.trace ++
        [.frame ⟨hd, (s.rbuf.drop 9).take hd.length.toNat⟩] }
      ⟨hd, (s.rbuf.drop 9).take hd.length.toNat⟩ ≠ .ok x

theorem FrameEnds.fails {cfg : Cfg W} {s : Sim W} {e : Stop ⊕ UB} (h : FrameEnds cfg s e) : FrameFails cfg s := by
  obtain ⟨h1, hd, h2, h3, h4, h5⟩ := h
  refine ⟨h1, hd, h2, h3, h4, fun x hx => ?_⟩
  rw [hx] at h5
  cases h5

theorem parse_ok {bs : Bytes} (h : 9 ≤ bs.length) :
    ∃ hd, (FrameHeader.parse bs : Outcome Stop _) = .ok hd := by
  match bs, h with
  | _ :: _ :: _ :: _ :: _ :: _ :: _ :: _ :: _ :: _, _ => exact ⟨_, rfl⟩

theorem Acts.reads {cfg : Cfg W} {s s' : Sim W} {f : FrameReader} (h : Acts cfg s f s') :
    s'.reads = s.reads := by
  cases h <;> rfl

theorem frameCase_keeps {cfg : Cfg W} {s s' : Sim W} {r : Option ProcRes}
    (h : s.frameCase cfg = .ok (r, s')) :
    s'.offered = s.offered ∧
      (r = none → s'.toRead + 9 ≤ s.toRead ∨ (s'.toRead = s.toRead ∧ s'.st = .protocolError)) := by
  unfold frameCase tryReadFrame at h
  by_cases h9 : s.rbuf.length < 9
  · simp only [h9, if_true, Outcome.bind_ok] at h
    cases h
    exact ⟨rfl, by simp⟩
  · simp only [h9, if_false] at h
    obtain ⟨hd, hp⟩ := parse_ok (bs := s.rbuf) (by omega)
    simp only [hp, Outcome.bind_ok] at h
    by_cases hbig : hd.length.toNat > maxFrameSize
    · rw [if_pos hbig] at h
      simp only [Outcome.bind_ok, if_true] at h
      cases h
      exact ⟨rfl, fun _ => .inr ⟨rfl, rfl⟩⟩
    · rw [if_neg hbig] at h
      by_cases hsh : s.rbuf.length < 9 + hd.length.toNat
      · rw [if_pos hsh] at h
        simp only [Outcome.bind_ok] at h
        cases h
        exact ⟨rfl, by simp⟩
      · rw [if_neg hsh] at h
        obtain ⟨⟨b, s1⟩, h1, h⟩ := Outcome.bind_eq_ok.mp h
        obtain ⟨s2, h2, h1⟩ := Outcome.bind_eq_ok.mp h1
        cases h1
        simp only [if_true] at h
        cases h
        have ha := processFrame_ok h2
        obtain ⟨evs, e1, e2⟩ := ha.events
        have hrb := ha.rbuf
        have hrd := ha.reads
        simp only [emit] at hrb hrd e1
        obtain ⟨q1, -⟩ := AnsEv.proj e2
        refine ⟨?_, fun _ => .inl ?_⟩
        · simp [offered, discardProcessed, hrd, e1, received, q1]
        · simp only [toRead, discardProcessed, hrd, hrb, List.length_drop]
          omega

theorem frameCase_ends {cfg : Cfg W} {s : Sim W} {e : Stop ⊕ UB} (hst : s.st = .awaitingFrame)
    (h : ending (s.frameCase cfg) = some e) : FrameEnds cfg s e := by
  unfold frameCase tryReadFrame at h
  by_cases h9 : s.rbuf.length < 9
  · simp only [h9, if_true, Outcome.bind_ok] at h
    cases h
  · simp only [h9, if_false] at h
    obtain ⟨hd, hp⟩ := parse_ok (bs := s.rbuf) (by omega)
    simp only [hp, Outcome.bind_ok] at h
    by_cases hbig : hd.length.toNat > maxFrameSize
    · rw [if_pos hbig] at h
      cases h
    · rw [if_neg hbig] at h
      by_cases hsh : s.rbuf.length < 9 + hd.length.toNat
      · rw [if_pos hsh] at h
        cases h
      · rw [if_neg hsh] at h
        refine ⟨hst, hd, ⟨by omega, hp⟩, by simpa [maxFrameSize] using hbig, by omega, ?_⟩
        revert h
        simp only [emit]
        generalize processFrame cfg _ _ = x
        cases x with
        | ok x => intro h; cases h
        | err x => exact id
        | ub x => exact id

theorem readPreface_keeps (s : Sim W) : (readPreface s).2.offered = s.offered ∧
    (readPreface s).2.toRead ≤ s.toRead := by
  simp only [readPreface, writeServerSettings_eq]
  by_cases h1 : s.rbuf.length < clientPreface.length
  · rw [if_pos h1]; exact ⟨rfl, Nat.le_refl _⟩
  · rw [if_neg h1]
    by_cases h2 : s.rbuf.take clientPreface.length ≠ clientPreface
    · rw [if_pos h2]; exact ⟨rfl, Nat.le_refl _⟩
    · rw [if_neg h2]
      constructor
      · simp [offered, discardProcessed, updateState, enq, emit, received]
      · simp only [toRead, discardProcessed, updateState, enq, emit, List.length_drop]
        omega

theorem close_keeps (s : Sim W) : s.close.offered = s.offered ∧ s.close.toRead = s.toRead := by
  unfold Sim.close
  split
  · exact ⟨rfl, rfl⟩
  · constructor
    · simp [offered, writeGoAway, writeFrameHeader, enqueue, emit, updateState, received]
    · rfl

theorem dispatch_keeps {cfg : Cfg W} {s s' : Sim W} {r : Option ProcRes}
    (h : s.dispatch cfg = .ok (r, s')) :
    s'.offered = s.offered ∧ (Ended s.st → r ≠ none) ∧
      (r = none → s'.toRead + 9 ≤ s.toRead ∨ (s'.toRead ≤ s.toRead ∧ s'.st = .protocolError)) := by
  unfold dispatch at h
  split at h
  · rename_i hs
    have he : ¬ Ended s.st := by simp [Ended, hs]
    have hk := readPreface_keeps s
    split at h
    · rename_i t ht
      rw [ht] at hk
      obtain ⟨k1, k2⟩ := frameCase_keeps h
      refine ⟨k1.trans hk.1, fun h => absurd h he, fun hr => ?_⟩
      have := hk.2
      simp only at this
      rcases k2 hr with k2 | ⟨k2, k3⟩
      · exact .inl (by omega)
      · exact .inr ⟨by omega, k3⟩
    · rename_i t ht
      rw [ht] at hk
      cases h
      exact ⟨hk.1, by simp, by simp⟩
    · rename_i t ht
      rw [ht] at hk
      cases h
      exact ⟨hk.1, by simp, by simp⟩
  · rename_i hs
    obtain ⟨k1, k2⟩ := frameCase_keeps h
    refine ⟨k1, by simp [Ended, hs], fun hr => ?_⟩
    rcases k2 hr with k2 | ⟨k2, k3⟩
    · exact .inl k2
    · exact .inr ⟨by omega, k3⟩
  · cases h; exact ⟨by simp [offered, emit, updateState, received], by simp, by simp⟩
  · cases h; exact ⟨(close_keeps s).1, by simp, by simp⟩
  · cases h; exact ⟨rfl, by simp, by simp⟩
  · cases h; exact ⟨rfl, by simp, by simp⟩

theorem turn_keeps {cfg : Cfg W} {s s' : Sim W} {r : Option ProcRes} (hst : s.st ≠ .awaitingHandshake)
    (h : s.turn cfg = .ok (r, s')) :
    s'.offered = s.offered ∧ (Ended s.st → r ≠ none) ∧
      (r = none → s'.toRead + 9 ≤ s.toRead ∨ (s'.toRead ≤ s.toRead ∧ s'.st = .protocolError)) := by
  unfold turn at h
  obtain ⟨s1, h1, h⟩ := Outcome.bind_eq_ok.mp h
  obtain ⟨k1, k2, k3⟩ := flush_keeps h1
  have hst1 := (flush_steps cfg false hst h1).2
  split at h
  · cases h
    exact ⟨k1, by simp, by simp⟩
  · rename_i hw
    have hw : s1.wbuf = [] := by simpa using hw
    obtain ⟨f1, f2⟩ := fill_keeps s1
    obtain ⟨d1, d2, d3⟩ := dispatch_keeps h
    refine ⟨d1.trans (f1.trans k1), fun he => d2 ?_, fun hr => ?_⟩
    · have : Ended s1.st := by
        rcases k3 with k3 | k3
        · rw [k3]; exact he
        · rw [k3]; exact .inr (.inl rfl)
      exact ((fill_steps cfg false s1 hw hst1).1.ended this).1
    · have := d3 hr
      rw [f2, k2] at this
      exact this

theorem iter_keeps {cfg : Cfg W} {s s' : Sim W} {r : Option ProcRes} (h : s.iter cfg = .ok (r, s')) :
    s'.offered = s.offered ∧ (Ended s.st → r ≠ none) ∧
      (r = none → s'.toRead + 9 ≤ s.toRead ∨ (s'.toRead ≤ s.toRead ∧ s'.st = .protocolError)) := by
  unfold iter at h
  split at h
  · rename_i hs
    unfold handleHandshake at h
    split at h
    · rename_i x s1 heq
      cases h
      split at heq
      · cases heq
      · cases heq; exact ⟨rfl, by simp, by simp⟩
      · cases heq; exact ⟨rfl, by simp, by simp⟩
    · rename_i s1 heq
      split at heq
      · rename_i t ht
        cases heq
        obtain ⟨k1, -, k3⟩ := turn_keeps (by simp [updateState]) h
        refine ⟨k1.trans (by simp [offered, emit, updateState, received]), by simp [Ended, hs], k3⟩
      · cases heq
      · cases heq
  · rename_i hs; exact turn_keeps hs h

theorem turn_ends {cfg : Cfg W} {s : Sim W} {e : Stop ⊕ UB} (hst : s.st ≠ .awaitingHandshake)
    (h : ending (s.turn cfg) = some e) :
    OverReports s ∨ ∃ s1, Steps cfg false s s1 ∧ s1.offered = s.offered ∧ FrameEnds cfg s1 e := by
  by_cases hf : ∀ x, s.flush ≠ .ok x
  · exact .inl (flush_fails hf)
  · right
    obtain ⟨s1, h1⟩ : ∃ s1, s.flush = .ok s1 := by
      cases hx : s.flush with
      | ok a => exact ⟨a, rfl⟩
      | err e => exact absurd (by simp [hx]) hf
      | ub u => exact absurd (by simp [hx]) hf
    obtain ⟨k1, k2⟩ := flush_steps cfg false hst h1
    simp only [turn, h1, Outcome.bind_ok] at h
    split at h
    · cases h
    · rename_i hw
      have hw : s1.wbuf = [] := by simpa using hw
      obtain ⟨f1, f2, f3, -⟩ := fill_steps cfg false s1 hw k2
      have hk : s1.fill.offered = s.offered := (fill_keeps s1).1.trans (flush_keeps h1).1
      have hsteps := k1.trans f1
      generalize s1.fill = s2 at *
      unfold dispatch at h
      split at h
      · rename_i hs
        have hkp := (readPreface_keeps s2).1
        split at h
        · rename_i t ht
          rw [ht] at hkp
          have hp : Steps cfg false s2 t ∧ t.st = .awaitingFrame := by
            unfold readPreface at ht
            by_cases g1 : s2.rbuf.length < clientPreface.length
            · rw [if_pos g1] at ht; cases ht
            · by_cases g2 : s2.rbuf.take clientPreface.length ≠ clientPreface
              · rw [if_neg g1, if_pos g2] at ht; cases ht
              · rw [if_neg g1, if_neg g2] at ht
                have g2 : s2.rbuf.take clientPreface.length = clientPreface := by simpa using g2
                have hr : s2.rbuf = clientPreface ++ s2.rbuf.drop clientPreface.length := by
                  conv => lhs; rw [← List.take_append_drop clientPreface.length s2.rbuf, g2]
                rw [writeServerSettings_eq] at ht
                cases ht
                exact ⟨.one (Step.preface (cfg := cfg) s2 _ hs f2 hr), rfl⟩
          exact ⟨t, hsteps.trans hp.1, hkp.trans hk, frameCase_ends hp.2 h⟩
        · cases h
        · cases h
      · rename_i hs; exact ⟨s2, hsteps, hk, frameCase_ends hs h⟩
      · cases h
      · cases h
      · cases h
      · cases h

theorem iter_ends {cfg : Cfg W} {s : Sim W} {e : Stop ⊕ UB} (h : ending (s.iter cfg) = some e) :
    OverReports s ∨ ∃ s1, Steps cfg false s s1 ∧ s1.offered = s.offered ∧ FrameEnds cfg s1 e := by
  unfold iter at h
  split at h
  · rename_i hs
    cases hh : s.hs with
    | fail e =>
      cases e <;> simp only [handleHandshake, hh] at h <;> cases h
    | done t =>
      simp only [handleHandshake, hh] at h
      have j := Steps.one (c := false) (Step.handshake (cfg := cfg) s t hs)
      rw [hh] at j
      rcases turn_ends (by simp [updateState]) h with k | ⟨s1, k1, k2, k3⟩
      · exact .inl k
      · exact .inr ⟨s1, j.trans k1, k2.trans (by simp [offered, emit, updateState, received]), k3⟩
  · rename_i hs; exact turn_ends hs h

theorem iter_fails {cfg : Cfg W} {s : Sim W} (h : ∀ x, s.iter cfg ≠ .ok x) :
    OverReports s ∨ ∃ s1, Steps cfg false s s1 ∧ s1.offered = s.offered ∧ FrameFails cfg s1 := by
  cases he : ending (s.iter cfg) with
  | none =>
    obtain ⟨x, hx⟩ := ending_ok.mp he
    exact absurd hx (h x)
  | some e =>
    rcases iter_ends he with k | ⟨s1, k1, k2, k3⟩
    · exact .inl k
    · exact .inr ⟨s1, k1, k2, k3.fails⟩

/-! ### Errors -/

theorem evict_no_err {ε : Type} (e : ε) (n k : Nat) : ∀ t : DynTable, t.table.length = n →
    (t.evict k : Outcome ε DynTable) ≠ .err e := by
  induction n with
  | zero =>
    intro t hn
    rw [DynTable.evict]
    split
    · have : t.table.getLast? = none := by rw [List.length_eq_zero_iff.mp hn]; rfl
      split
      · simp
      · rename_i h; rw [this] at h; cases h
    · simp
  | succ n ih =>
    intro t hn
    rw [DynTable.evict]
    split
    · split
      · simp
      · exact ih _ (by simp [hn])
    · simp

theorem insert_no_err {ε : Type} (e : ε) (t : DynTable) (h : Header) :
    (t.insert h : Outcome ε DynTable) ≠ .err e := by
  unfold DynTable.insert
  split
  · simp
  · intro hh
    cases hx : (t.evict (entrySize h) : Outcome ε DynTable) with
    | ok a => simp [hx] at hh
    | err e' => exact evict_no_err e' _ _ t rfl hx
    | ub u => simp [hx] at hh

theorem huffmanWrite_no_err {ε : Type} (e : ε) (sgn : Bool) : ∀ (s : Bytes) (bw : BitWriter),
    (huffmanWrite sgn s bw : Outcome ε BitWriter) ≠ .err e := by
  intro s
  induction s with
  | nil => intro bw; simp [huffmanWrite]
  | cons c cs ih =>
    intro bw
    rw [huffmanWrite]
    have : ∀ e', (huffmanCodeOfChar sgn c : Outcome ε HuffmanCode) ≠ .err e' := by
      intro e'
      unfold huffmanCodeOfChar
      split
      · simp
      · split <;> simp
    cases hx : (huffmanCodeOfChar sgn c : Outcome ε HuffmanCode) with
    | ok a => simpa using ih _
    | err e' => exact absurd hx (this e')
    | ub u => simp

theorem writeLengthAndString_no_err {ε : Type} (e : ε) (sgn : Bool) (s : Bytes) :
    (writeLengthAndString sgn s : Outcome ε Bytes) ≠ .err e := by
  unfold writeLengthAndString
  split
  · cases hx : (huffmanWrite sgn s {} : Outcome ε BitWriter) with
    | ok a => simp
    | err e' => exact absurd hx (huffmanWrite_no_err e' sgn s {})
    | ub u => simp
  · simp

theorem encodeHeader_no_err {ε : Type} (e : ε) (sgn : Bool) (t : DynTable) (h : Header) :
    (encodeHeader sgn t h : Outcome ε (Bytes × DynTable)) ≠ .err e := by
  have tail : ∀ g : Bytes → Bytes, ((do
      let v ← writeLengthAndString sgn h.value
      let t ← t.insert h
      .ok (g v, t)) : Outcome ε (Bytes × DynTable)) ≠ .err e := by
    intro g
    cases hx : (writeLengthAndString sgn h.value : Outcome ε Bytes) with
    | ok a =>
      cases hy : (t.insert h : Outcome ε DynTable) with
      | ok b => simp
      | err e' => exact absurd hy (insert_no_err e' t h)
      | ub u => simp
    | err e' => exact absurd hx (writeLengthAndString_no_err e' sgn _)
    | ub u => simp
  unfold encodeHeader
  split
  · simp
  · split
    · simp
    · split
      · exact tail _
      · split
        · exact tail _
        · cases hx : (writeLengthAndString sgn h.name : Outcome ε Bytes) with
          | ok a => simpa using tail fun v => 0x40 :: (a ++ v)
          | err e' => exact absurd hx (writeLengthAndString_no_err e' sgn _)
          | ub u => simp

/-- The encoder reports no errors. -/
theorem encodeBlock_no_err {ε : Type} (sgn : Bool) (hs : List Header) : ∀ (e : ε) (t : DynTable),
    (encodeBlock sgn t hs : Outcome ε (Bytes × DynTable)) ≠ .err e := by
  induction hs with
  | nil => intro e t; simp [encodeBlock]
  | cons h hs ih =>
    intro e t
    rw [encodeBlock]
    cases hx : (encodeHeader sgn t h : Outcome ε (Bytes × DynTable)) with
    | ok a =>
      obtain ⟨b, t'⟩ := a
      simp only [Outcome.bind_ok]
      cases hy : (encodeBlock sgn t' hs : Outcome ε (Bytes × DynTable)) with
      | ok b => simp
      | err e' => exact absurd hy (ih e' t')
      | ub u => simp
    | err e' => exact absurd hx (encodeHeader_no_err e' sgn t h)
    | ub u => simp

theorem headersBlock_no_err {ε : Type} (e : ε) (f : FrameReader) :
    (f.headersBlock : Outcome ε Bytes) ≠ .err e := by
  unfold FrameReader.headersBlock
  split
  · split <;> simp
  · simp

theorem readWindowUpdate_no_err {ε : Type} (e : ε) (f : FrameReader) :
    (f.readWindowUpdate : Outcome ε WindowUpdate) ≠ .err e := by
  unfold FrameReader.readWindowUpdate WindowUpdate.parse
  split <;> simp

/-- The only way for a frame to end a call other than by returning or undefined behaviour: a handler
threw something that is not a `std::exception`. -/
theorem processFrame_err {cfg : Cfg W} {s : Sim W} {f : FrameReader} {e : Stop}
    (h : processFrame cfg s f = .err e) : e = .escaped := by
  unfold processFrame at h
  split at h
  · split at h
    · cases h
    · split at h <;> cases h
  · split at h
    · cases hb : (f.headersBlock : Outcome Stop Bytes) with
      | err e' => exact absurd hb (headersBlock_no_err e' f)
      | ub u => simp [hb] at h
      | ok block =>
        simp only [hb, Outcome.bind_ok] at h
        split at h
        · cases h
        · cases h
        · rename_i hs dec hd
          unfold answerRequest processRequest at h
          split at h
          · rename_i path method hp hm
            rcases hh : cfg.getHandler path method ⟨method, path, hs⟩ s.world with ⟨o, w'⟩
            simp only [hh] at h
            cases o with
            | otherExn => simp only [Outcome.bind_err] at h; cases h; rfl
            | stdExn =>
              simp only [Outcome.bind_ok] at h
              cases hx : (encodeBlock cfg.charSigned s.enc
                (finishResponse { status := 500 }).headers : Outcome Stop _) with
              | ok a => simp [emit, hx] at h
              | err e' => exact absurd hx (encodeBlock_no_err _ _ _ _)
              | ub u => simp [emit, hx] at h
            | resp r =>
              simp only [Outcome.bind_ok] at h
              cases hx : (encodeBlock cfg.charSigned s.enc
                (finishResponse r).headers : Outcome Stop _) with
              | ok a => simp [emit, hx] at h
              | err e' => exact absurd hx (encodeBlock_no_err _ _ _ _)
              | ub u => simp [emit, hx] at h
          · simp only [Outcome.bind_ok] at h
            cases hx : (encodeBlock cfg.charSigned s.enc [] : Outcome Stop _) with
            | ok a => simp [hx] at h
            | err e' => exact absurd hx (encodeBlock_no_err _ _ _ _)
            | ub u => simp [hx] at h
    · split at h
      · cases hb : (f.readWindowUpdate : Outcome Stop WindowUpdate) with
        | err e' => exact absurd hb (readWindowUpdate_no_err e' f)
        | ub u => simp [hb] at h
        | ok w => simp [hb] at h
      · split at h <;> cases h

theorem frameCase_err {cfg : Cfg W} {s : Sim W} {e : Stop} (h : s.frameCase cfg = .err e) :
    e = .escaped := by
  unfold frameCase tryReadFrame at h
  by_cases h9 : s.rbuf.length < 9
  · simp only [h9, if_true, Outcome.bind_ok] at h
    cases h
  · simp only [h9, if_false] at h
    obtain ⟨hd, hp⟩ := parse_ok (bs := s.rbuf) (by omega)
    simp only [hp, Outcome.bind_ok] at h
    by_cases hbig : hd.length.toNat > maxFrameSize
    · rw [if_pos hbig] at h
      cases h
    · rw [if_neg hbig] at h
      by_cases hsh : s.rbuf.length < 9 + hd.length.toNat
      · rw [if_pos hsh] at h
        cases h
      · rw [if_neg hsh] at h
        cases hx : processFrame cfg
            (s.emit (.frame ⟨hd, (s.rbuf.drop 9).take hd.length.toNat⟩))
            ⟨hd, (s.rbuf.drop 9).take hd.length.toNat⟩ with
        | ok a => simp [hx] at h
        | err e' => simp [hx] at h; subst h; exact processFrame_err hx
        | ub u => simp [hx] at h

theorem turn_err {cfg : Cfg W} {s : Sim W} {e : Stop} (h : s.turn cfg = .err e) : e = .escaped := by
  unfold turn at h
  cases hf : s.flush with
  | ub u => simp [hf] at h
  | err e' =>
    unfold flush at hf
    split at hf
    · cases hf
    · simp only [emit, updateState] at hf
      split at hf
      · cases hf
      · cases hf
      · rename_i n t hr
        by_cases hn : n > s.wbuf.length
        · simp only [hn, if_true] at hf; cases hf
        · simp only [hn, if_false] at hf; cases hf
  | ok s1 =>
    simp only [hf, Outcome.bind_ok] at h
    split at h
    · cases h
    · unfold dispatch at h
      split at h
      · split at h
        · exact frameCase_err h
        · cases h
        · cases h
      · exact frameCase_err h
      · cases h
      · cases h
      · cases h
      · cases h

theorem iter_err {cfg : Cfg W} {s : Sim W} {e : Stop} (h : s.iter cfg = .err e) : e = .escaped := by
  unfold iter at h
  split at h
  · split at h
    · cases h
    · exact turn_err h
  · exact turn_err h

/-- A budget of two more than the octets at hand suffices, and more makes no difference. -/
theorem loop_enough {cfg : Cfg W} (n : Nat) : ∀ (s : Sim W) (k : Nat), s.toRead + 2 ≤ n →
    s.loop cfg n ≠ .err .fuel ∧ s.loop cfg (n + k) = s.loop cfg n := by
  -- one iteration suffices once the connection has ended
  have ended : ∀ (s : Sim W) (n k : Nat), Ended s.st → 1 ≤ n →
      s.loop cfg n ≠ .err .fuel ∧ s.loop cfg (n + k) = s.loop cfg n := by
    intro s n k he hn
    obtain ⟨m, rfl⟩ : ∃ m, n = m + 1 := ⟨n - 1, by omega⟩
    rw [show m + 1 + k = (m + k) + 1 by omega, loop, loop]
    cases hi : s.iter cfg with
    | ub u => simp
    | err e => simp [iter_err hi]
    | ok x =>
      obtain ⟨r, t⟩ := x
      have := (iter_keeps hi).2.1 he
      cases r with
      | none => exact absurd rfl this
      | some r => simp
  induction n with
  | zero => intro s k h; omega
  | succ n ih =>
    intro s k h
    rw [show n + 1 + k = (n + k) + 1 by omega, loop, loop]
    cases hi : s.iter cfg with
    | ub u => simp
    | err e => simp [iter_err hi]
    | ok x =>
      obtain ⟨r, t⟩ := x
      cases r with
      | some r => simp
      | none =>
        simp only [Outcome.bind_ok]
        rcases (iter_keeps hi).2.2 rfl with hk | ⟨hk, he⟩
        · exact ih t k (by omega)
        · exact ended t n k (.inr (.inl he)) (by omega)

end Sim
end Ion
