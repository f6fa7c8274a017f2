import Verif.Lemmas.Assoc
import Verif.Model.Poller

/-! # Poller registration (C66) -/

namespace Ion.Props

/-- What can happen to an epoll poller and the descriptors it watches. `failed` says that the kernel
refuses a registration for reasons of its own (memory, limits). -/
inductive PollOp where
  | set (fd : Nat) (events : PollEvents) (failed : Bool)
  | remove (fd : Nat)
  /-- a new file gets this number -/
  | opened (fd : Nat)
  /-- the file with this number is closed -/
  | closed (fd : Nat)
deriving DecidableEq, Repr

/-- What the code and the kernel do. -/
def PollOp.run (s : EPoll × Os) : PollOp → EPoll × Os
  | .set fd events failed => s.1.set s.2 fd events failed
  | .remove fd => s.1.remove s.2 fd
  | .opened fd => (s.1, s.2.install fd)
  | .closed fd => (s.1, s.2.close fd)

/-- What the kernel does not allow: a number given out while in use, or closed while not. -/
def PollOp.Allowed (s : EPoll × Os) : PollOp → Prop
  | .opened fd => s.2.files.get fd = none
  | .closed fd => s.2.files.get fd ≠ none
  | _ => True

/-- A history and the state it leads to. -/
inductive PollHist : List PollOp → EPoll × Os → Prop
  | nil : PollHist [] ({}, {})
  | snoc (ops : List PollOp) (s : EPoll × Os) (op : PollOp) (h : PollHist ops s)
      (ha : op.Allowed s) : PollHist (ops ++ [op]) (op.run s)

/-! Specification, for one descriptor. -/

/-- Whether `set` has been called without `remove` after it. -/
def unremoved (fd : Nat) (ops : List PollOp) : Bool :=
  ops.foldl (fun d op => match op with
    | .set fd' _ _ => d || fd' == fd
    | .remove fd' => d && fd' != fd
    | _ => d) false

/-- The caller removes a descriptor from the poller, before or after closing it, before the number is
used again. -/
def Removes (ops : List PollOp) : Prop :=
  ∀ pre fd post, ops = pre ++ .opened fd :: post → unremoved fd pre = false

/-- How one operation changes whether the number is in use and which events are asked for on the file
behind it: those of the latest `set` that was not refused, until it is removed or closed. -/
def askedStep (fd : Nat) (st : Bool × Option PollEvents) : PollOp → Bool × Option PollEvents
  | .set fd' events failed => if fd' = fd && st.1 && !failed then (st.1, some events) else st
  | .remove fd' => if fd' = fd then (st.1, none) else st
  | .opened fd' => if fd' = fd then (true, none) else st
  | .closed fd' => if fd' = fd then (false, none) else st

/-- Whether the number is in use, and the events asked for. -/
def asked (fd : Nat) (ops : List PollOp) : Bool × Option PollEvents :=
  ops.foldl (askedStep fd) (false, none)

theorem asked_snoc (fd : Nat) (ops : List PollOp) (op : PollOp) :
    asked fd (ops ++ [op]) = askedStep fd (asked fd ops) op := by
  rw [asked, List.foldl_append]
  rfl

theorem unremoved_snoc (fd : Nat) (ops : List PollOp) (op : PollOp) :
    unremoved fd (ops ++ [op]) = (match op with
        | .set fd' _ _ => unremoved fd ops || fd' == fd
        | .remove fd' => unremoved fd ops && fd' != fd
        | _ => unremoved fd ops) := by
  rw [unremoved, List.foldl_append]
  rfl

theorem PollHist.created {ops : List PollOp} {s : EPoll × Os} (h : PollHist ops s) :
    s.1.created = true := by
  induction h with
  | nil => rfl
  | snoc ops s op _ _ ih =>
    cases op with
    | set fd ev failed =>
      simp only [PollOp.run, EPoll.set]
      split <;> exact ih
    | remove fd => exact ih
    | opened fd => exact ih
    | closed fd => exact ih

/-- Invariant, for one descriptor. -/
structure PollInv (ops : List PollOp) (s : EPoll × Os) (fd : Nat) : Prop where
  open_iff : s.2.files.has fd = (asked fd ops).1
  interest : s.2.interest.get fd = (asked fd ops).2.map toEpoll
  table : s.2.files.has fd = true → s.1.table.get fd = (asked fd ops).2
  unrem : s.1.table.get fd ≠ none → unremoved fd ops = true
  closed : (asked fd ops).1 = false → (asked fd ops).2 = none

theorem Removes.init {ops : List PollOp} {op : PollOp} (h : Removes (ops ++ [op])) : Removes ops := by
  intro pre fd post he
  exact h pre fd (post ++ [op]) (by simp [he])

theorem PollHist.inv {ops : List PollOp} {s : EPoll × Os} (h : PollHist ops s) (hr : Removes ops)
    (fd : Nat) : PollInv ops s fd := by
  induction h with
  | nil => exact ⟨rfl, rfl, by simp [Assoc.has, Assoc.get], by simp [Assoc.get], by simp [asked]⟩
  | snoc ops s op hh ha ih =>
    have ih := ih hr.init
    have hcr := hh.created
    obtain ⟨h1, h2, h3, h4, h5⟩ := ih
    have hst := asked_snoc fd ops
    have hun := unremoved_snoc fd ops
    cases op with
    | set fd' ev failed =>
      simp only [PollOp.run, EPoll.set, hcr, if_true]
      by_cases hfd : fd' = fd
      · subst hfd
        have e2 : unremoved fd' (ops ++ [.set fd' ev failed]) = true := by rw [hun]; simp
        rcases ho : s.2.files.has fd' with _ | _
        · -- the descriptor is not open
          have e1 : asked fd' (ops ++ [.set fd' ev failed]) = asked fd' ops := by
            rw [hst]
            simp [askedStep, ← h1, ho]
          have e3 : ∀ op, s.2.ctl op fd' (toEpoll ev) failed = (false, s.2) := by
            intro op
            simp [Os.ctl, ho]
          rw [e3]
          exact ⟨by rw [e1]; exact h1, by rw [e1]; exact h2, by simp [ho], fun _ => e2, by rw [e1]; exact h5⟩
        · have hti := h3 ho
          have hsome : s.1.table.has fd' = s.2.interest.has fd' := by
            rw [Assoc.has, Assoc.has, h2, hti]
            cases (asked fd' ops).2 <;> rfl
          have e3 : s.2.ctl (if s.1.table.has fd' then .mod else .add) fd' (toEpoll ev) failed =
              if failed then (false, s.2)
              else (true, { s.2 with interest := s.2.interest.put fd' (toEpoll ev) }) := by
            cases failed <;> cases hi : s.2.interest.has fd' <;>
              simp [Os.ctl, ho, hsome, hi]
          rw [e3]
          cases failed with
          | true =>
            have e1 : asked fd' (ops ++ [.set fd' ev true]) = asked fd' ops := by
              rw [hst]; simp [askedStep]
            exact ⟨by rw [e1]; exact h1, by rw [e1]; exact h2, fun _ => by rw [e1]; exact hti,
              fun _ => e2, by rw [e1]; exact h5⟩
          | false =>
            have e1 : asked fd' (ops ++ [.set fd' ev false]) = (true, some ev) := by
              rw [hst]; simp [askedStep, ← h1, ho]
            exact ⟨by rw [e1]; exact ho, by rw [e1]; simp, fun _ => by rw [e1]; simp, fun _ => e2, by simp [e1]⟩
      · have hfd' : fd ≠ fd' := fun x => hfd x.symm
        have e1 : asked fd (ops ++ [.set fd' ev failed]) = asked fd ops := by
          rw [hst]
          simp [askedStep, hfd]
        have e2 : unremoved fd (ops ++ [.set fd' ev failed]) = unremoved fd ops := by
          rw [hun]; simp [hfd]
        have e3 : ∀ op, ((s.2.ctl op fd' (toEpoll ev) failed).2.files = s.2.files) ∧
            (s.2.ctl op fd' (toEpoll ev) failed).2.interest.get fd = s.2.interest.get fd := by
          intro op
          simp only [Os.ctl]
          cases op <;> simp only <;> (repeat' split) <;>
            simp [Assoc.get_put_ne _ _ hfd', Assoc.get_del_ne _ hfd']
        split <;> rename_i os he
        · have := e3 (if s.1.table.has fd' then .mod else .add)
          rw [he] at this
          refine ⟨by rw [e1, this.1]; exact h1, by rw [e1, this.2]; exact h2, ?_, ?_, by rw [e1]; exact h5⟩
          · simp only
            rw [Assoc.get_put_ne _ _ hfd', e1, this.1]
            exact h3
          · simp only
            rw [Assoc.get_put_ne _ _ hfd', e2]
            exact h4
        · have := e3 (if s.1.table.has fd' then .mod else .add)
          rw [he] at this
          refine ⟨by rw [e1, this.1]; exact h1, by rw [e1, this.2]; exact h2, ?_, ?_, by rw [e1]; exact h5⟩
          · simp only [e1]
            rw [this.1]
            exact h3
          · simp only [e2]
            exact h4
    | remove fd' =>
      simp only [PollOp.run, EPoll.remove, hcr, if_true]
      by_cases hfd : fd' = fd
      · subst hfd
        have e1 : asked fd' (ops ++ [.remove fd']) = ((asked fd' ops).1, none) := by
          rw [hst]; simp [askedStep]
        have e3 : (s.2.ctl .del fd' 0 false).2.files = s.2.files := by
          simp only [Os.ctl]
          (repeat' split) <;> rfl
        refine ⟨by rw [e1, e3]; exact h1, ?_, fun _ => by rw [e1]; simp, by simp, by simp [e1]⟩
        rw [e1]
        simp only [Option.map_none]
        rcases ho : s.2.files.has fd' with _ | _
        · -- closed files are not in the interest list
          have hint : s.2.interest.get fd' = none := by
            rw [h2, h5 (by rw [← h1, ho])]
            rfl
          simp [Os.ctl, ho, hint]
        · simp only [Os.ctl, ho, Bool.not_true, Bool.false_eq_true, if_false]
          split
          · rename_i hx
            simp only [Bool.not_eq_true', Assoc.has_false_iff] at hx
            exact hx
          · simp
      · have hfd' : fd ≠ fd' := fun x => hfd x.symm
        have e1 : asked fd (ops ++ [.remove fd']) = asked fd ops := by
          rw [hst]; simp [askedStep, hfd]
        have e2 : unremoved fd (ops ++ [.remove fd']) = unremoved fd ops := by
          rw [hun]; simp [hfd]
        have e3 : (s.2.ctl .del fd' 0 false).2.files = s.2.files ∧
            (s.2.ctl .del fd' 0 false).2.interest.get fd = s.2.interest.get fd := by
          simp only [Os.ctl]
          (repeat' split) <;> simp [Assoc.get_del_ne _ hfd']
        refine ⟨by rw [e1, e3.1]; exact h1, by rw [e1, e3.2]; exact h2, ?_, ?_, by rw [e1]; exact h5⟩
        · simp only [e3.1]
          rw [Assoc.get_del_ne _ hfd', e1]
          exact h3
        · simp only
          rw [Assoc.get_del_ne _ hfd', e2]
          exact h4
    | opened fd' =>
      simp only [PollOp.run, Os.install]
      have e2 : unremoved fd (ops ++ [.opened fd']) = unremoved fd ops := by rw [hun]
      by_cases hfd : fd' = fd
      · subst hfd
        have e1 : asked fd' (ops ++ [.opened fd']) = (true, none) := by rw [hst]; simp [askedStep]
        have hun' : unremoved fd' ops = false := hr ops fd' [] rfl
        have htab : s.1.table.get fd' = none := by
          rcases ht : s.1.table.get fd' with _ | v
          · rfl
          · have := h4 (by simp [ht])
            rw [hun'] at this
            cases this
        have hint : s.2.interest.get fd' = none := by
          rw [h2, h5 (by rw [← h1]; exact (Assoc.has_false_iff _ _).2 ha)]
          rfl
        exact ⟨by rw [e1]; simp [Assoc.has], by rw [e1]; exact hint, fun _ => by rw [e1]; exact htab,
          by rw [e2]; exact h4, by simp [e1]⟩
      · have hfd' : fd ≠ fd' := fun x => hfd x.symm
        have e1 : asked fd (ops ++ [.opened fd']) = asked fd ops := by
          rw [hst]; simp [askedStep, hfd]
        have e3 : (s.2.files.put fd' s.2.next).has fd = s.2.files.has fd := by
          rw [Assoc.has, Assoc.has, Assoc.get_put_ne _ _ hfd']
        exact ⟨by rw [e1]; simpa [e3] using h1, by rw [e1]; exact h2, by rw [e1]; simpa [e3] using h3,
          by rw [e2]; exact h4, by rw [e1]; exact h5⟩
    | closed fd' =>
      have e2 : unremoved fd (ops ++ [.closed fd']) = unremoved fd ops := by rw [hun]
      obtain ⟨file, hfile⟩ : ∃ file, s.2.files.get fd' = some file := by
        rcases hx : s.2.files.get fd' with _ | v
        · exact absurd hx ha
        · exact ⟨v, rfl⟩
      simp only [PollOp.run, Os.close, hfile]
      by_cases hfd : fd' = fd
      · subst hfd
        have e1 : asked fd' (ops ++ [.closed fd']) = (false, none) := by rw [hst]; simp [askedStep]
        exact ⟨by rw [e1]; simp [Assoc.has], by rw [e1]; simp, by simp [Assoc.has],
          by rw [e2]; exact h4, by simp [e1]⟩
      · have hfd' : fd ≠ fd' := fun x => hfd x.symm
        have e1 : asked fd (ops ++ [.closed fd']) = asked fd ops := by
          rw [hst]; simp [askedStep, hfd]
        have e3 : (s.2.files.del fd').has fd = s.2.files.has fd := by
          rw [Assoc.has, Assoc.has, Assoc.get_del_ne _ hfd']
        exact ⟨by rw [e1]; simpa [e3] using h1, by rw [e1]; simpa [Assoc.get_del_ne _ hfd'] using h2,
          by rw [e1]; simpa [e3] using h3, by rw [e2]; exact h4, by rw [e1]; exact h5⟩

/-- C66 as stated fails: if a registered descriptor is closed without being removed, and its number is
used again, the poller believes the new file registered while the kernel does not know it; registering
it then fails. -/
theorem C66_refuted : ∃ ops s, PollHist ops s ∧
    s.1.table.get 5 = some .read ∧ s.2.interest.get 5 = none ∧ s.2.files.get 5 ≠ none ∧
    (s.1.set s.2 5 .read false).2.interest.get 5 = none := by
  have h0 := PollHist.nil
  have h1 := PollHist.snoc _ _ (.opened 5) h0 (by simp only [PollOp.Allowed]; decide)
  have h2 := PollHist.snoc _ _ (.set 5 .read false) h1 trivial
  have h3 := PollHist.snoc _ _ (.closed 5) h2 (by simp only [PollOp.Allowed]; decide)
  have h4 := PollHist.snoc _ _ (.opened 5) h3 (by simp only [PollOp.Allowed]; decide)
  exact ⟨_, _, h4, by decide, by decide, by decide, by decide⟩

/-- C66, for callers that remove a descriptor before its number is used again (as the server does,
`C60_descriptors`): after any history, the kernel watches each descriptor for exactly the events of the latest
accepted `set` (if it was not removed or closed since), the poller's table says the same for every
descriptor in use, and a `set` on a descriptor in use takes effect unless the kernel refuses it for
reasons of its own. Missing for the full claim: other callers, for whom it fails (`C66_refuted`). -/
theorem C66_agrees_partial {ops : List PollOp} {s : EPoll × Os} (h : PollHist ops s)
    (hr : Removes ops) (fd : Nat) :
    (s.2.files.get fd ≠ none ↔ (asked fd ops).1 = true) ∧
    s.2.interest.get fd = (asked fd ops).2.map toEpoll ∧
    (s.2.files.get fd ≠ none → s.1.table.get fd = (asked fd ops).2) ∧
    (s.2.files.get fd ≠ none → ∀ events,
      (s.1.set s.2 fd events false).2.interest.get fd = some (toEpoll events) ∧
      (s.1.set s.2 fd events false).1.table.get fd = some events) := by
  have hi := h.inv hr fd
  have ho : s.2.files.get fd ≠ none ↔ s.2.files.has fd = true := by
    rw [Assoc.has_iff]
    rcases s.2.files.get fd with _ | v <;> simp
  refine ⟨by rw [ho, hi.open_iff], hi.interest, fun hx => hi.table (ho.1 hx), fun hx events => ?_⟩
  have hx := ho.1 hx
  have h' := PollHist.snoc _ _ (.set fd events false) h trivial
  have hr' : Removes (ops ++ [.set fd events false]) := by
    intro pre fd' post he
    rcases List.eq_nil_or_concat post with hp | ⟨post', x, hp⟩
    · subst hp
      have := List.append_inj_right' he rfl
      cases this
    · rw [List.concat_eq_append] at hp
      subst hp
      rw [show pre ++ PollOp.opened fd' :: (post' ++ [x]) = (pre ++ PollOp.opened fd' :: post') ++ [x] by
        simp] at he
      exact hr pre fd' post' (List.append_inj' he rfl).1
  have hi' := h'.inv hr' fd
  have ha : asked fd (ops ++ [.set fd events false]) = (true, some events) := by
    rw [asked_snoc]
    simp [askedStep, ← hi.open_iff, hx]
  constructor
  · have := hi'.interest
    rw [ha] at this
    exact this
  · have := hi'.table (by rw [hi'.open_iff, ha])
    rw [ha] at this
    exact this

/-- A history with a number used again after the descriptor was removed. -/
example : ∃ ops s, PollHist ops s ∧ Removes ops ∧ s.2.interest.get 5 = some 5 ∧
    asked 5 ops = (true, some 3) ∧ ops.length = 6 := by
  have h0 := PollHist.nil
  have h1 := PollHist.snoc _ _ (.opened 5) h0 (by simp only [PollOp.Allowed]; decide)
  have h2 := PollHist.snoc _ _ (.set 5 .read false) h1 trivial
  have h3 := PollHist.snoc _ _ (.closed 5) h2 (by simp only [PollOp.Allowed]; decide)
  have h4 := PollHist.snoc _ _ (.remove 5) h3 trivial
  have h5 := PollHist.snoc _ _ (.opened 5) h4 (by simp only [PollOp.Allowed]; decide)
  have h6 := PollHist.snoc _ _ (.set 5 3 false) h5 trivial
  refine ⟨_, _, h6, ?_, by decide, by decide, rfl⟩
  intro pre fd post he
  simp only [List.nil_append, List.cons_append] at he
  rcases pre with _ | ⟨a, _ | ⟨b, _ | ⟨c, _ | ⟨d, _ | ⟨e, _ | ⟨f, pre⟩⟩⟩⟩⟩⟩ <;>
    simp at he
  · obtain ⟨rfl, _⟩ := he
    rfl
  · obtain ⟨rfl, rfl, rfl, rfl, rfl, _⟩ := he
    decide

/-- `fromEpoll` as a function of the four bits. -/
def fromBits (b1 b2 b3 b4 : Bool) : PollEvents :=
  let r : PollEvents := 0
  let r := if b1 then r ||| 1 else r
  let r := if b2 then r ||| 2 else r
  let r := if b4 then r ||| 4 else r
  if b3 then r ||| 8 else r

/-- `toEpoll` as a function of the two bits. -/
def toBits (b1 b2 : Bool) : UInt32 :=
  let r : UInt32 := 0
  let r := if b1 then r ||| 1 else r
  if b2 then r ||| 4 else r

theorem fromBits_spec : ∀ b1 b2 b3 b4, hasEvent (fromBits b1 b2 b3 b4) .read = b1 ∧
    hasEvent (fromBits b1 b2 b3 b4) .write = b2 ∧ hasEvent (fromBits b1 b2 b3 b4) .error = b3 ∧
    hasEvent (fromBits b1 b2 b3 b4) .hangup = b4 := by decide

theorem toBits_spec : ∀ b1 b2, (toBits b1 b2 &&& 0x01 != 0) = b1 ∧ (toBits b1 b2 &&& 0x04 != 0) = b2 ∧
    toBits b1 b2 &&& ~~~0x05 = 0 := by decide

/-- C66, bits: an event reported by the kernel is reported by the poller with exactly the corresponding
bits, for every bit pattern; the events asked for become exactly the corresponding kernel bits. -/
theorem C66_bits (bits : UInt32) (events : PollEvents) :
    (hasEvent (fromEpoll bits) .read = (bits &&& 0x01 != 0) ∧
     hasEvent (fromEpoll bits) .write = (bits &&& 0x04 != 0) ∧
     hasEvent (fromEpoll bits) .error = (bits &&& 0x08 != 0) ∧
     hasEvent (fromEpoll bits) .hangup = (bits &&& 0x10 != 0)) ∧
    (((toEpoll events &&& 0x01 != 0) = (events &&& 1 != 0)) ∧
     ((toEpoll events &&& 0x04 != 0) = (events &&& 2 != 0)) ∧
     toEpoll events &&& ~~~0x05 = 0) :=
  ⟨fromBits_spec _ _ _ _, toBits_spec _ _⟩

/-- What the epoll poller reports is what `epoll_wait` returned, event by event; the event buffer, which
`epoll_wait` never overruns, is never read past its end; it is doubled when it was full and else stays. -/
theorem C66_reports (p : EPoll) (events : List (Nat × UInt32)) (hne : events ≠ [])
    (hfit : events.length ≤ p.buffer) :
    ∃ out p', p.poll (.ready events) = .ok (.ok out, p') ∧
      (events.length = p.buffer → p'.buffer = 2 * p.buffer) ∧ (events.length < p.buffer → p'.buffer = p.buffer) ∧
      p'.table = p.table ∧ p'.created = p.created ∧ out = events.map fun e => (e.1, fromEpoll e.2) := by
  have h0 : ¬events.length = 0 := by simpa using hne
  simp only [EPoll.poll]
  rw [if_neg h0, if_neg (by omega)]
  refine ⟨_, _, rfl, fun h => ?_, fun h => ?_, ?_, ?_, rfl⟩
  · rw [if_pos h]
    exact Nat.mul_comm _ _
  · rw [if_neg (by omega)]
  · split <;> rfl
  · split <;> rfl

/-- A new poller has room for 64 events, so it is doubled at the 64th. -/
theorem C66_room (events : List (Nat × UInt32)) (h : events.length = 64) :
    ∃ out p', ({} : EPoll).poll (.ready events) = .ok (.ok out, p') ∧ p'.buffer = 128 := by
  obtain ⟨out, p', h1, h2, -⟩ := C66_reports {} events (by intro h0; rw [h0] at h; cases h) (by rw [h]; exact Nat.le_refl _)
  exact ⟨out, p', h1, h2 h⟩

/-- Two events, in a buffer of two: the buffer grows. -/
example : ({ buffer := 2 } : EPoll).poll (.ready [(5, 0x11), (6, 0x04)]) =
    .ok (.ok [(5, 5), (6, 2)], { buffer := 4 }) := by decide

/-- A call that reports nothing: a timeout, an interruption and a failure are told apart, and leave the
poller as it is. -/
theorem C66_errors (p : EPoll) (eintr : Bool) :
    p.poll (.ready []) = .ok (.error .timeout, p) ∧
    p.poll (.fail eintr) = .ok (.error (if eintr = true then .interruptedBySignal else .error), p) :=
  ⟨rfl, rfl⟩

/-- Operations on the poller for other systems (`none`: `remove`), newest first. -/
def ppollRun : List (Nat × Option PollEvents) → PPoll
  | [] => {}
  | (fd, some events) :: ops => (ppollRun ops).set fd events
  | (fd, none) :: ops => (ppollRun ops).remove fd

/-- The poller for other systems: the table holds, for every descriptor, the events of the latest `set`
if no `remove` followed. -/
theorem C66_poll_table (ops : List (Nat × Option PollEvents)) (fd : Nat) :
    (ppollRun ops).table.get fd = (ops.find? (fun op => op.1 == fd)).bind Prod.snd := by
  induction ops with
  | nil => rfl
  | cons op ops ih =>
    obtain ⟨k, v⟩ := op
    rw [List.find?_cons]
    by_cases hk : k = fd
    · subst hk
      cases v <;> simp [ppollRun, PPoll.set, PPoll.remove]
    · have hk' : fd ≠ k := fun x => hk x.symm
      have hb : (k == fd) = false := by simp [hk]
      cases v <;>
        simp [ppollRun, PPoll.set, PPoll.remove, hb, Assoc.get_put_ne _ _ hk', Assoc.get_del_ne _ hk', ih]

example : (ppollRun [(6, none), (5, some 3), (6, some 1), (5, some 1)]).table.get 5 = some 3 := by decide

/-- The poller for other systems asks `poll` about each descriptor of its table, and reports for each
the bits `poll` returned; errors as the epoll poller. -/
theorem C66_poll_reports (p : PPoll) (eintr : Bool) (n : Nat) (revents : Nat → UInt32) (fd : Nat) :
    (∀ b, (fd, b) ∈ p.request ↔ ∃ ev, (fd, ev) ∈ p.table ∧ b = toEpoll ev) ∧
    p.poll (.error eintr) = .error (if eintr = true then .interruptedBySignal else .error) ∧
    p.poll (.ok (0, revents)) = .error .timeout ∧
    (n ≠ 0 → ∃ out, p.poll (.ok (n, revents)) = .ok out ∧
      ∀ b, ((fd, b) ∈ out ↔ (∃ ev, (fd, ev) ∈ p.table) ∧ b = fromEpoll (revents fd))) := by
  refine ⟨?_, rfl, rfl, ?_⟩
  · intro b
    simp only [PPoll.request, List.mem_map, Prod.exists, Prod.mk.injEq]
    constructor
    · rintro ⟨k, ev, hm, rfl, rfl⟩; exact ⟨ev, hm, rfl⟩
    · rintro ⟨ev, hm, rfl⟩; exact ⟨fd, ev, hm, rfl, rfl⟩
  · intro h
    refine ⟨_, by rw [PPoll.poll, if_neg h], ?_⟩
    intro b
    simp only [PPoll.request, List.map_map, List.mem_map, Prod.exists, Function.comp_apply, Prod.mk.injEq]
    constructor
    · rintro ⟨k, ev, hm, rfl, rfl⟩; exact ⟨⟨ev, hm⟩, rfl⟩
    · rintro ⟨⟨ev, hm⟩, rfl⟩; exact ⟨fd, ev, hm, rfl, rfl⟩

example : ({ table := [(5, 3), (6, 1)] } : PPoll).poll (.ok (1, fun fd => if fd = 5 then 0x11 else 0)) =
    .ok [(5, 5), (6, 0)] := by decide

end Ion.Props
