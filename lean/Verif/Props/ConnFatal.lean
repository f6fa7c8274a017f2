import Verif.Props.ServerIter
import Verif.Props.ConnEnd

/-! # The transport after an operation that failed for good (C157) -/

namespace Ion.Sim
variable {W : Type}
open Spec

/-- The operations of the transport (lib/transports/transport.h:21-31). -/
def Operation : Ev → Prop
  | .handshake _ => True
  | .read _ _ => True
  | .readFail _ => True
  | .write _ _ => True
  | .shutdown => True
  | _ => False

/-- An operation that failed, and not just for now. -/
def Fatal : Ev → Prop
  | .readFail e => e ≠ .wantReadOrWrite
  | .write _ (.fail e) => e ≠ .wantReadOrWrite
  | _ => False

/-- A read that did not bring anything, or did. -/
def Reading : Ev → Prop
  | .read _ _ => True
  | .readFail _ => True
  | _ => False

/-- Errors of a read that end a connection. -/
def EndOfInput (e : TErr) : Prop := e = .protocolError ∨ e = .connectionClosed

/-- The property: after an operation that failed for good there is no other one. -/
def LeftAlone (tr : List Ev) : Prop :=
  ∀ a x b, tr = a ++ x :: b → Fatal x → ∀ y ∈ b, ¬ Operation y

/-! ### After a read -/

/-- No read has ended the connection. -/
def NoEnd (tr : List Ev) : Prop := ∀ e, EndOfInput e → Ev.readFail e ∉ tr

theorem NoEnd.append {a b : List Ev} (ha : NoEnd a) (hb : NoEnd b) : NoEnd (a ++ b) := by
  intro e he hm
  rcases List.mem_append.mp hm with hm | hm
  · exact ha e he hm
  · exact hb e he hm

theorem frameCase_noEnd {cfg : Cfg W} {s s' : Sim W} {r : Option ProcRes}
    (h : s.frameCase cfg = .ok (r, s')) : NoEnd s.trace → NoEnd s'.trace := by
  unfold frameCase tryReadFrame at h
  by_cases h9 : s.rbuf.length < 9
  · simp only [h9, if_true, Outcome.bind_ok] at h
    cases h
    exact id
  · simp only [h9, if_false] at h
    obtain ⟨hd, hp⟩ := parse_ok (bs := s.rbuf) (by omega)
    simp only [hp, Outcome.bind_ok] at h
    by_cases hbig : hd.length.toNat > maxFrameSize
    · rw [if_pos hbig] at h
      simp only [Outcome.bind_ok, if_true] at h
      cases h
      exact id
    · rw [if_neg hbig] at h
      by_cases hsh : s.rbuf.length < 9 + hd.length.toNat
      · rw [if_pos hsh] at h
        simp only [Outcome.bind_ok] at h
        cases h
        exact id
      · rw [if_neg hsh] at h
        obtain ⟨⟨b, s1⟩, h1, h⟩ := Outcome.bind_eq_ok.mp h
        obtain ⟨s2, h2, h1⟩ := Outcome.bind_eq_ok.mp h1
        cases h1
        simp only [if_true] at h
        cases h
        obtain ⟨evs, e1, e2⟩ := (processFrame_ok h2).events
        intro hn
        simp only [discardProcessed, e1, emit]
        refine (hn.append ?_).append ?_
        · intro e _ hm; simp at hm
        · intro e _ hm; exact e2 _ hm

theorem dispatch_noEnd {cfg : Cfg W} {s s' : Sim W} {r : Option ProcRes}
    (h : s.dispatch cfg = .ok (r, s')) : NoEnd s.trace → NoEnd s'.trace := by
  intro hn
  unfold dispatch at h
  split at h
  · by_cases h1 : s.rbuf.length < clientPreface.length
    · simp only [readPreface, if_pos h1] at h
      cases h
      exact hn
    · by_cases h2 : s.rbuf.take clientPreface.length ≠ clientPreface
      · simp only [readPreface, if_neg h1, if_pos h2] at h
        cases h
        exact hn
      · simp only [readPreface, if_neg h1, if_neg h2] at h
        refine frameCase_noEnd h ?_
        rw [writeServerSettings_eq]
        simp only [discardProcessed, updateState, enq, emit]
        refine (hn.append ?_).append ?_
        · intro e _ hm; simp at hm
        · intro e _ hm; simp at hm
  · exact frameCase_noEnd h hn
  · cases h
    refine hn.append ?_
    intro e _ hm; simp at hm
  · cases h
    unfold Sim.close
    split
    · exact hn
    · simp only [writeGoAway, writeFrameHeader, enqueue, emit, updateState]
      refine (hn.append ?_).append ?_
      · intro e _ hm; simp at hm
      · intro e _ hm; simp at hm
  · cases h; exact hn
  · cases h; exact hn

/-- What filling the buffer leads to: as before, or the last thing was a read that ended the connection. -/
theorem fillLoop_end (rs : List ReadRes) : ∀ s : Sim W, NoEnd s.trace →
    NoEnd (fillLoop rs s).trace ∨
      ∃ a e, EndOfInput e ∧ NoEnd a ∧ (fillLoop rs s).trace = a ++ [.readFail e] ∧
        ((fillLoop rs s).st = .protocolError ∨ (fillLoop rs s).st = .clientClosed) := by
  induction rs with
  | nil =>
    intro s hn
    left
    simp only [fillLoop]
    split
    · exact hn
    · exact hn.append (by intro e he hm; simp at hm; subst hm; simp [EndOfInput] at he)
  | cons r rs ih =>
    intro s hn
    simp only [fillLoop]
    split
    · exact .inl hn
    · cases r with
      | data bs t =>
        exact ih _ (hn.append (by intro e _ hm; simp at hm))
      | fail e =>
        by_cases he : EndOfInput e
        · right
          refine ⟨s.trace, e, he, hn, by cases e <;> rfl, ?_⟩
          rcases he with rfl | rfl
          · exact .inl rfl
          · exact .inr rfl
        · left
          have ht : (s.readFailed e).trace = s.trace ++ [.readFail e] := by cases e <;> rfl
          simp only
          rw [ht]
          refine hn.append ?_
          intro e' he' hm
          simp at hm
          subst hm
          exact he he'

theorem flush_noEnd {s s' : Sim W} (h : s.flush = .ok s') (hn : NoEnd s.trace) : NoEnd s'.trace := by
  have q : ∀ (r : WriteRes), NoEnd (s.trace ++ [.write s.wbuf r]) := fun r =>
    hn.append (by intro e _ hm; simp at hm)
  unfold flush at h
  split at h
  · cases h; exact hn
  · simp only at h
    split at h
    · cases h; rename_i k; exact k ▸ q _
    · cases h; rename_i k; exact q _
    · rename_i k
      split at h
      · cases h
      · cases h; exact q _

/-- One iteration: either no read ends the connection, or one does, and then nothing happens but that a
GOAWAY frame may be produced. -/
theorem iter_end {cfg : Cfg W} {s s' : Sim W} {r : Option ProcRes} (h : s.iter cfg = .ok (r, s'))
    (hn : NoEnd s.trace) :
    NoEnd s'.trace ∨
      (r = some .discard ∧ ∃ a e cs, EndOfInput e ∧ NoEnd a ∧
        s'.trace = a ++ .readFail e :: (cs : List Bytes).map Ev.enqueue) := by
  have hturn : ∀ s : Sim W, NoEnd s.trace → s.turn cfg = .ok (r, s') → NoEnd s'.trace ∨
      (r = some .discard ∧ ∃ a e cs, EndOfInput e ∧ NoEnd a ∧
        s'.trace = a ++ .readFail e :: (cs : List Bytes).map Ev.enqueue) := by
    intro s hn h
    unfold turn at h
    obtain ⟨s1, h1, h⟩ := Outcome.bind_eq_ok.mp h
    have hn1 := flush_noEnd h1 hn
    split at h
    · cases h; exact .inl hn1
    · rcases fillLoop_end s1.reads s1 hn1 with k | ⟨a, e, he, ha, ht, hst⟩
      · exact .inl (dispatch_noEnd h k)
      · right
        unfold dispatch at h
        rcases hst with hst | hst
        · rw [show s1.fill.st = .protocolError from hst] at h
          cases h
          refine ⟨rfl, a, e, goawayChunks .protocolError, he, ha, ?_⟩
          rw [close_eq _ (by rw [show s1.fill.st = .protocolError from hst]; simp)]
          rw [show s1.fill.st = .protocolError from hst]
          simp only [enq]
          rw [show s1.fill.trace = a ++ [.readFail e] from ht]
          simp
        · rw [show s1.fill.st = .clientClosed from hst] at h
          cases h
          exact ⟨rfl, a, e, [], he, ha, by simpa [fill] using ht⟩
  unfold iter at h
  split at h
  · unfold handleHandshake at h
    split at h
    · rename_i heq
      cases h
      split at heq
      · cases heq
      · cases heq; exact .inl hn
      · cases heq; exact .inl hn
    · rename_i heq
      split at heq
      · cases heq
        exact hturn _ (hn.append (by intro e _ hm; simp at hm)) h
      · cases heq
      · cases heq
  · exact hturn _ hn h

theorem process_end {cfg : Cfg W} {env : Env} {s s' : Sim W} {r : ProcRes} (h : s.process cfg env = .ok (r, s'))
    (hn : NoEnd s.trace) :
    NoEnd s'.trace ∨
      (r = .discard ∧ ∃ a e cs, EndOfInput e ∧ NoEnd a ∧
        s'.trace = a ++ .readFail e :: ((cs : List Bytes).map Ev.enqueue ++ [.returned .discard])) := by
  unfold process at h
  obtain ⟨⟨x, s2⟩, h1, h⟩ := Outcome.bind_eq_ok.mp h
  cases h
  have hl : ∀ (n : Nat) (s : Sim W), NoEnd s.trace → s.loop cfg n = .ok (r, s2) → NoEnd s2.trace ∨
      (r = .discard ∧ ∃ a e cs, EndOfInput e ∧ NoEnd a ∧
        s2.trace = a ++ .readFail e :: (cs : List Bytes).map Ev.enqueue) := by
    intro n
    induction n with
    | zero => intro s _ h; cases h
    | succ n ih =>
      intro s hn h
      rw [loop] at h
      obtain ⟨⟨y, s3⟩, h3, h⟩ := Outcome.bind_eq_ok.mp h
      rcases iter_end h3 hn with k | ⟨rfl, k⟩
      · cases y with
        | none => exact ih _ k h
        | some y => cases h; exact .inl k
      · cases h; exact .inr ⟨rfl, k⟩
  rcases hl _ _ (by exact hn) h1 with k | ⟨rfl, a, e, cs, he, ha, ht⟩
  · exact .inl (k.append (by intro e _ hm; simp at hm))
  · exact .inr ⟨rfl, a, e, cs, he, ha, by simp [emit, ht]⟩

theorem InUse.noEnd {cfg : Cfg W} {w : W} {now : Nat} {s : Sim W} (h : InUse cfg w now s) : NoEnd s.trace := by
  induction h with
  | new => intro e _ hm; simp [init] at hm
  | step s s' env r hs h hr ih =>
    rcases process_end h ih with k | ⟨k, -⟩
    · exact k
    · exact absurd k hr

/-- C157, reads. After a read that reported the end of the input or a failure of TLS, the transport is not used
again: all that happens is that one GOAWAY frame may be produced, and the connection is given up. Missing: the
same after a read that failed otherwise, and after a write that failed. -/
theorem C157_read_partial (cfg : Cfg W) (w : W) (now : Nat) (r : ProcRes) (s : Sim W) (h : Called cfg w now r s)
    (a b : List Ev) (e : TErr) (hs : s.trace = a ++ .readFail e :: b) (he : EndOfInput e) :
    r = .discard ∧ ∃ cs : List Bytes, b = cs.map Ev.enqueue ++ [.returned .discard] := by
  obtain ⟨s0, env, h0, hp⟩ := h
  rcases process_end hp h0.noEnd with k | ⟨rfl, a', e', cs, he', ha', ht⟩
  · exact absurd (by rw [hs]; simp) (k e he)
  · refine ⟨rfl, cs, ?_⟩
    rw [hs] at ht
    rcases List.append_eq_append_iff.mp ht with ⟨u, h1, h2⟩ | ⟨u, h1, h2⟩
    · cases u with
      | nil => simp at h2; exact h2.2
      | cons x u =>
        exfalso
        simp at h2
        obtain ⟨rfl, -⟩ := h2
        exact ha' e he (by rw [h1]; simp)
    · cases u with
      | nil => simp at h2; exact h2.2.symm
      | cons x u =>
        exfalso
        simp at h2
        have : Ev.readFail e ∈ cs.map Ev.enqueue ++ [.returned .discard] := by rw [h2.2]; simp
        simp at this

/-! ### After a write -/

/-- What can follow a write that failed for good: more of the same, reads, the GOAWAY frame, and results. -/
def Lingers : Ev → Prop
  | .write _ _ => True
  | .read _ _ => True
  | .readFail _ => True
  | .enqueue _ => True
  | .returned _ => True
  | _ => False

/-- What follows a write of `b` that failed for good. -/
structure AfterWrite (b : Bytes) (c : List Ev) : Prop where
  lingers : ∀ x ∈ c, Lingers x
  offers : ∀ c1 b' r c2, c = c1 ++ .write b' r :: c2 → b = accepted c1 ++ b'
  reads : ∀ c1 x c2, c = c1 ++ x :: c2 → Reading x → accepted c1 = b

theorem AfterWrite.nil (b : Bytes) : AfterWrite b [] :=
  ⟨by simp, by simp, by simp⟩

theorem snoc_split {α : Type} {c : List α} {x y : α} {c1 c2 : List α} (h : c ++ [x] = c1 ++ y :: c2) :
    (c1 = c ∧ y = x ∧ c2 = []) ∨ ∃ c3, c = c1 ++ y :: c3 ∧ c2 = c3 ++ [x] := by
  rcases List.eq_nil_or_concat c2 with rfl | ⟨c3, z, rfl⟩
  · left
    obtain ⟨h1, h2⟩ := List.append_inj' h rfl
    cases h2
    exact ⟨h1.symm, rfl, rfl⟩
  · right
    rw [List.concat_eq_append, ← List.cons_append, ← List.append_assoc] at h
    obtain ⟨h1, h2⟩ := List.append_inj' h rfl
    cases h2
    exact ⟨c3, h1, by simp⟩

theorem AfterWrite.snoc {b : Bytes} {c : List Ev} (h : AfterWrite b c) (x : Ev) (h1 : Lingers x)
    (h2 : ∀ b' r, x = .write b' r → b = accepted c ++ b') (h3 : Reading x → accepted c = b) :
    AfterWrite b (c ++ [x]) := by
  refine ⟨?_, ?_, ?_⟩
  · intro y hy
    rcases List.mem_append.mp hy with hy | hy
    · exact h.lingers y hy
    · simp at hy; subst hy; exact h1
  · intro c1 b' r c2 he
    rcases snoc_split he with ⟨rfl, k, -⟩ | ⟨c3, k, -⟩
    · exact h2 b' r k.symm
    · exact h.offers _ _ _ _ k
  · intro c1 y c2 he hy
    rcases snoc_split he with ⟨rfl, rfl, -⟩ | ⟨c3, k, -⟩
    · exact h3 hy
    · exact h.reads _ _ _ k hy

/-- After a write that failed for good, the connection is over, and what was offered is what has been accepted
since and what is still waiting. -/
def FailedWrites (s : Sim W) : Prop :=
  ∀ a b e c, s.trace = a ++ .write b (.fail e) :: c → e ≠ .wantReadOrWrite →
    (s.st = .protocolError ∨ s.st = .clientClosed) ∧ b = accepted c ++ s.wbuf ∧ AfterWrite b c

theorem FailedWrites.same {s t : Sim W} (h : FailedWrites s) (ht : t.trace = s.trace) (hw : t.wbuf = s.wbuf)
    (hst : (s.st = .protocolError ∨ s.st = .clientClosed) → (t.st = .protocolError ∨ t.st = .clientClosed)) :
    FailedWrites t := by
  intro a b e c he hb
  rw [ht] at he
  obtain ⟨h1, h2, h3⟩ := h a b e c he hb
  exact ⟨hst h1, by rw [hw]; exact h2, h3⟩

theorem FailedWrites.snoc {s t : Sim W} (h : FailedWrites s) (x : Ev) (ht : t.trace = s.trace ++ [x])
    (hst : (s.st = .protocolError ∨ s.st = .clientClosed) → (t.st = .protocolError ∨ t.st = .clientClosed))
    (hf : ∀ b e, x = .write b (.fail e) → e ≠ .wantReadOrWrite → t.st = .protocolError ∧ t.wbuf = b)
    (hx : (s.st = .protocolError ∨ s.st = .clientClosed) → Lingers x)
    (hacc : s.wbuf = accepted [x] ++ t.wbuf)
    (ho : ∀ b r, x = .write b r → b = s.wbuf) (hr : Reading x → s.wbuf = []) : FailedWrites t := by
  intro a b e c he hb
  rw [ht] at he
  rcases snoc_split he with ⟨-, k, rfl⟩ | ⟨c3, k, rfl⟩
  · obtain ⟨k1, k2⟩ := hf b e k.symm hb
    exact ⟨.inl k1, by simp [accepted, k2], .nil b⟩
  · obtain ⟨h1, h2, h3⟩ := h a b e c3 k hb
    refine ⟨hst h1, ?_, h3.snoc x (hx h1) ?_ ?_⟩
    · rw [accepted_append, List.append_assoc, ← hacc]; exact h2
    · intro b' r hb'
      rw [ho b' r hb']; exact h2
    · intro hx'
      rw [hr hx', List.append_nil] at h2
      exact h2.symm

theorem Step.failedWrites {cfg : Cfg W} {s t : Sim W} (h : Step cfg false s t) (hc : s.st ≠ .closing)
    (i : FailedWrites s) : FailedWrites t := by
  have over : ∀ (es : List Ev), ¬ (s.st = .protocolError ∨ s.st = .clientClosed) →
      t.trace = s.trace ++ es → (∀ a b e c, es = a ++ Ev.write b (.fail e) :: c → False) → FailedWrites t := by
    intro es hn ht hes a b e c he hb
    rw [ht] at he
    rcases List.append_eq_append_iff.mp he with ⟨u, h1, h2⟩ | ⟨u, h1, h2⟩
    · exact absurd h2 (fun h2 => (hes u b e c h2).elim)
    · cases u with
      | nil => exact (hes [] b e c h2.symm).elim
      | cons x u =>
        simp at h2
        obtain ⟨rfl, -⟩ := h2
        exact absurd (i a b e u h1 hb).1 hn
  have one : ∀ {x : Ev} {a c : List Ev} {b e}, [x] = a ++ Ev.write b (.fail e) :: c → x = .write b (.fail e) := by
    intro x a c b e h
    cases a with
    | nil => simp at h; exact h.1
    | cons y a => simp at h
  cases h with
  | env => exact i.same rfl rfl id
  | readsLeft => exact i.same rfl rfl id
  | handshake _ n h =>
    exact over [.handshake n] (by rw [h]; simp) rfl fun a b e c k => by cases one k
  | writeBlocked _ ws h hst =>
    exact i.snoc _ rfl id (by intro b e he hb; cases he; exact absurd rfl hb) (fun _ => trivial) (by simp [accepted])
      (by intro b r he; cases he; rfl) (by simp [Reading])
  | writeFailed _ ws e h he hst =>
    exact i.snoc _ rfl (fun _ => .inl rfl) (by intro b e he _; cases he; exact ⟨rfl, rfl⟩) (fun _ => trivial)
      (by simp [accepted]) (by intro b r he; cases he; rfl) (by simp [Reading])
  | wrote _ ws n t h hn hst =>
    exact i.snoc _ rfl id (by intro b e he; cases he) (fun _ => trivial) (by simp [accepted])
      (by intro b r he; cases he; rfl) (by simp [Reading])
  | read _ bs t hw hst hr =>
    exact i.snoc _ rfl id (by intro b e he; cases he) (fun _ => trivial) (by simp [accepted])
      (by intro b r he; cases he) (fun _ => hw)
  | readFailed _ e hw hst hr =>
    refine i.snoc (.readFail e) (by cases e <;> rfl) ?_ (by intro b e he; cases he) (fun _ => trivial) ?_
      (by intro b r he; cases he) (fun _ => hw)
    · intro h; cases e <;> simp [Sim.readFailed, emit, updateState, h]
    · cases e <;> simp [Sim.readFailed, emit, updateState, accepted]
  | preface _ rest h hw hr =>
    refine over (.prefaceOk :: settingsChunks.map Ev.enqueue) (by rw [h]; simp)
      (by simp only [enq, emit, List.append_assoc]; rfl) ?_
    intro a b e c k
    have : Ev.write b (.fail e) ∈ Ev.prefaceOk :: settingsChunks.map Ev.enqueue := by rw [k]; simp
    simp at this
  | oversized _ h hd hh hl hw =>
    exact over [] (by rw [h]; simp) (by simp) (by simp)
  | frame _ s1 h hd hh hl hr hw ha =>
    obtain ⟨evs, h1, h2⟩ := ha.events
    refine over (.frame ⟨hd, (s.rbuf.drop 9).take hd.length.toNat⟩ :: evs) (by rw [h]; simp)
      (by simp only [h1, List.append_assoc]; rfl) ?_
    intro a b e c k
    have : Ev.write b (.fail e) ∈ Ev.frame ⟨hd, (s.rbuf.drop 9).take hd.length.toNat⟩ :: evs := by rw [k]; simp
    simp at this
    exact h2 _ this
  | shutdown _ h hw => exact absurd h hc
  | wantRead _ h =>
    exact i.snoc _ rfl id (by intro b e he; cases he) (fun _ => trivial) (by simp [accepted])
      (by intro b r he; cases he) (by simp [Reading])
  | wantWrite _ h =>
    exact i.snoc _ rfl id (by intro b e he; cases he) (fun _ => trivial) (by simp [accepted])
      (by intro b r he; cases he) (by simp [Reading])
  | discard _ h =>
    exact i.snoc _ rfl id (by intro b e he; cases he) (fun _ => trivial) (by simp [accepted])
      (by intro b r he; cases he) (by simp [Reading])

theorem AfterWrite.append {b : Bytes} {c : List Ev} (h : AfterWrite b c) (es : List Ev)
    (he : ∀ x ∈ es, (∃ d, x = .enqueue d) ∨ ∃ r, x = .returned r) : AfterWrite b (c ++ es) := by
  induction es generalizing c with
  | nil => simpa using h
  | cons x es ih =>
    rw [show c ++ x :: es = (c ++ [x]) ++ es by simp]
    refine ih (h.snoc x ?_ ?_ ?_) fun y hy => he y (by simp [hy])
    all_goals rcases he x (by simp) with ⟨d, rfl⟩ | ⟨r, rfl⟩
    all_goals simp [Lingers, Reading]

/-- C157, writes. After a write that failed for good, all that is done with the transport is: what had been
offered is offered again (less what has been accepted since), and only when all of that has been accepted are
there reads. There is no handshake, no shutdown, and nothing that arrives is acted upon. Missing: that there is
nothing at all. -/
theorem C157_write_partial (cfg : Cfg W) (w : W) (now : Nat) (r : ProcRes) (s : Sim W) (h : Called cfg w now r s)
    (a c : List Ev) (b : Bytes) (e : TErr) (hs : s.trace = a ++ .write b (.fail e) :: c)
    (he : e ≠ .wantReadOrWrite) : AfterWrite b c := by
  obtain ⟨s1, s2, k1, k2, k3⟩ := h.elim
  have i : FailedWrites s1 ∧ s1.st ≠ .closing := by
    refine ⟨?_, k1.not_shut.1⟩
    have : Steps cfg false (init w now) s1 ∧ FailedWrites s1 := by
      clear k2
      induction k1 with
      | refl => exact ⟨.refl _, by intro a b e c h; simp [init] at h⟩
      | @tail t u b' h1 hb st ih =>
        obtain ⟨j1, j2⟩ := ih
        cases b' with
        | true => exact absurd (hb rfl) (by simp)
        | false => exact ⟨.tail h1 hb st, st.failedWrites j1.not_shut.1 j2⟩
    exact this.2
  have key : ∀ es : List Ev, s.trace = s1.trace ++ es →
      (∀ x ∈ es, (∃ d, x = .enqueue d) ∨ ∃ r, x = .returned r) → AfterWrite b c := by
    intro es h1 h2
    rw [hs] at h1
    rcases List.append_eq_append_iff.mp h1 with ⟨u, g1, g2⟩ | ⟨u, g1, g2⟩
    · cases u with
      | nil =>
        exfalso
        rcases h2 (.write b (.fail e)) (by simp at g2; rw [← g2]; simp) with ⟨d, k⟩ | ⟨r, k⟩ <;> cases k
      | cons x u =>
        simp at g2
        obtain ⟨rfl, rfl⟩ := g2
        exact (i.1 a b e u g1 he).2.2.append es h2
    · exfalso
      rcases h2 (.write b (.fail e)) (by rw [g2]; simp) with ⟨d, k⟩ | ⟨r, k⟩ <;> cases k
  rcases k2 with ⟨rfl, -⟩ | ⟨rfl, -, -, rfl⟩
  · exact key [.returned r] (by rw [k3]) (by simp)
  · refine key ((goawayChunks .protocolError).map Ev.enqueue ++ [.returned .discard]) (by rw [k3]; simp [enq]) ?_
    intro x hx
    rcases List.mem_append.mp hx with hx | hx
    · obtain ⟨d, -, rfl⟩ := List.mem_map.mp hx; exact .inl ⟨d, rfl⟩
    · exact .inr ⟨.discard, by simpa using hx⟩

/-! ### The property is false -/

/-- The operation at a place of a trace failed for good, and there is another one later. -/
def usedAfter (fatal : Ev → Bool) (used : Ev → Bool) : List Ev → Bool
  | [] => false
  | x :: tr => (fatal x && tr.any used) || usedAfter fatal used tr

theorem usedAfter_not {fatal used : Ev → Bool} (hf : ∀ x, fatal x = true → Fatal x)
    (hu : ∀ x, used x = true → Operation x) : ∀ {tr : List Ev}, usedAfter fatal used tr = true → ¬ LeftAlone tr := by
  intro tr
  induction tr with
  | nil => simp [usedAfter]
  | cons x tr ih =>
    intro h hl
    simp only [usedAfter, Bool.or_eq_true, Bool.and_eq_true, List.any_eq_true] at h
    rcases h with ⟨h1, y, hy, h2⟩ | h
    · exact hl [] x tr rfl (hf x h1) y hy (hu y h2)
    · exact ih h fun a y b hab => hl (x :: a) y b (by simp [hab])

/-- A write that failed with TLS's protocol error. -/
def isBadWrite : Ev → Bool
  | .write _ (.fail .protocolError) => true
  | _ => false

def isWrite : Ev → Bool
  | .write _ _ => true
  | _ => false

/-- A read that failed with something other than a protocol error (TLS: SSL_ERROR_SYSCALL). -/
def isBadRead : Ev → Bool
  | .readFail .otherError => true
  | _ => false

def isHandled : Ev → Bool
  | .handled _ _ => true
  | _ => false

def isReading : Ev → Bool
  | .read _ _ => true
  | .readFail _ => true
  | _ => false

/-- C157 is false, in two ways: after a write that failed with an error of TLS, the server writes to the same
connection again; and after a read that failed because of the socket (OpenSSL's SSL_ERROR_SYSCALL), it reads from
it again, and answers what arrives. OpenSSL forbids both. -/
theorem C157_refuted :
    (∃ (r : ProcRes) (s : Sim Nat), Called exCfg 0 0 r s ∧ ¬ LeftAlone s.trace ∧
      ∃ a b c b' r', s.trace = a ++ .write b (.fail .protocolError) :: c ∧ Ev.write b' r' ∈ c) ∧
    (∃ (r : ProcRes) (s : Sim Nat), Called exCfg 0 0 r s ∧ ¬ LeftAlone s.trace ∧
      ∃ a b q o, s.trace = a ++ .readFail .otherError :: b ∧ Ev.handled q o ∈ b) := by
  have split : ∀ (f u : Ev → Bool) (tr : List Ev), usedAfter f u tr = true →
      ∃ a x b y, tr = a ++ x :: b ∧ f x = true ∧ y ∈ b ∧ u y = true := by
    intro f u tr
    induction tr with
    | nil => simp [usedAfter]
    | cons x tr ih =>
      intro h
      simp only [usedAfter, Bool.or_eq_true, Bool.and_eq_true, List.any_eq_true] at h
      rcases h with ⟨h1, y, hy, h2⟩ | h
      · exact ⟨[], x, tr, y, rfl, h1, hy, h2⟩
      · obtain ⟨a, x', b, y, rfl, h1, h2, h3⟩ := ih h
        exact ⟨x :: a, x', b, y, rfl, h1, h2, h3⟩
  constructor
  · obtain ⟨r, s, h1, h2⟩ := Shows.called (cfg := exCfg) (w := 0)
      (e := { exEnv (preface ++ exSettings ++ exGet) [36] with writes := [.wrote 36 3, .fail .protocolError] })
      (es := [{ writes := [.fail .protocolError] }])
      (p := fun r s => r == .wantWrite && usedAfter isBadWrite isWrite s.trace) (by decide +kernel)
    simp only [Bool.and_eq_true] at h2
    refine ⟨r, s, h1, usedAfter_not ?_ ?_ h2.2, ?_⟩
    · intro x hx; unfold isBadWrite at hx; split at hx
      · simp [Fatal]
      · cases hx
    · intro x hx; unfold isWrite at hx; split at hx
      · trivial
      · cases hx
    · obtain ⟨a, x, b, y, h3, h4, h5, h6⟩ := split _ _ _ h2.2
      unfold isBadWrite at h4
      split at h4
      · unfold isWrite at h6
        split at h6
        · exact ⟨_, _, _, _, _, h3, h5⟩
        · cases h6
      · cases h4
  · obtain ⟨r, s, h1, h2⟩ := Shows.called (cfg := exCfg) (w := 0)
      (e := { exEnv preface [27] with reads := [.data preface 2, .fail .otherError] })
      (es := [exEnv exGet [27, 44]])
      (p := fun r s => r == .wantRead && usedAfter isBadRead isReading s.trace &&
        usedAfter isBadRead isHandled s.trace) (by decide +kernel)
    simp only [Bool.and_eq_true] at h2
    refine ⟨r, s, h1, usedAfter_not ?_ ?_ h2.1.2, ?_⟩
    · intro x hx; unfold isBadRead at hx; split at hx
      · simp [Fatal]
      · cases hx
    · intro x hx; unfold isReading at hx; split at hx
      · trivial
      · trivial
      · cases hx
    · obtain ⟨a, x, b, y, h3, h4, h5, h6⟩ := split _ _ _ h2.2
      unfold isBadRead at h4
      split at h4
      · unfold isHandled at h6
        split at h6
        · exact ⟨_, _, _, _, h3, h5⟩
        · cases h6
      · cases h4

/-- A connection whose client closes it after a request, one on which TLS fails, and one on which what could not
be written can be written later. -/
example : (∃ r s, Called exCfg 0 0 r s ∧ (r == .discard && s.trace.contains (.readFail .connectionClosed) &&
      (handled s.trace).length == 1) = true) ∧
    (∃ r s, Called exCfg 0 0 r s ∧ (r == .discard && s.trace.contains (.readFail .protocolError) &&
      (produced s.trace).length == 88) = true) ∧
    (∃ r s, Called exCfg 0 0 r s ∧ (r == .discard && usedAfter isBadWrite isWrite s.trace &&
      usedAfter isBadWrite isReading s.trace) = true) :=
  ⟨Shows.called (e := exEnv (preface ++ exGet) [71])
      (es := [{ reads := [.fail .connectionClosed] }]) (by decide +kernel),
    Shows.called (e := exEnv (preface ++ exGet) [71])
      (es := [{ reads := [.fail .protocolError] }]) (by decide +kernel),
    Shows.called
      (e := { exEnv (preface ++ exSettings ++ exGet) [36] with writes := [.wrote 36 3, .fail .protocolError] })
      (es := [exEnv exGet [20], exEnv exGet [24]]) (by decide +kernel)⟩

end Ion.Sim
