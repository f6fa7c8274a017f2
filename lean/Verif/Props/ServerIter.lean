import Verif.Props.ServerEvents

/-! # Iterations, watching for writability, and writes that fail (C62, C94–C96) -/

namespace Ion.Sim
variable {W : Type}
open Spec

/-! ### C96 -/

/-- A call in a state with unsent octets, in which the transport accepts nothing. -/
theorem process_stuck (cfg : Cfg W) (s : Sim W) (env : Env) (hs : s.st ≠ .awaitingHandshake)
    (hb : s.wbuf ≠ []) (e : TErr) (he : env.writes.headD (.fail .wantReadOrWrite) = .fail e) :
    ∃ s', s.process cfg env = .ok (.wantWrite, s') ∧ s'.wbuf = s.wbuf ∧ s'.st ≠ .awaitingHandshake ∧
      s'.trace = s.trace ++ [.write s.wbuf (.fail e), .returned .wantWrite] ∧ s'.world = s.world := by
  have hf : ∃ s1, ({ s with hs := env.hs, reads := env.reads, writes := env.writes } : Sim W).flush = .ok s1 ∧
      s1.wbuf = s.wbuf ∧ s1.st ≠ .awaitingHandshake ∧ s1.trace = s.trace ++ [.write s.wbuf (.fail e)] ∧
      s1.world = s.world := by
    rw [flush, if_neg hb]
    simp only [he]
    cases e <;> simp [emit, updateState, hs]
  obtain ⟨s1, h1, h2, h3, h4, h5⟩ := hf
  refine ⟨s1.emit (.returned .wantWrite), ?_, h2, h3, by simp [emit, h4], h5⟩
  rw [process]
  simp only [budget, loop]
  rw [iter, if_neg (by exact hs), turn, h1]
  have h2' : s1.wbuf ≠ [] := by rw [h2]; exact hb
  simp [h2']

/-- Calls of `process()`, all of which say "want write". -/
inductive WantsWrite (cfg : Cfg W) : List Env → Sim W → Sim W → Prop
  | nil (s : Sim W) : WantsWrite cfg [] s s
  | cons (env : Env) (envs : List Env) (s s1 s2 : Sim W) (h : s.process cfg env = .ok (.wantWrite, s1))
      (hs : WantsWrite cfg envs s1 s2) : WantsWrite cfg (env :: envs) s s2

/-- The transport's error for the first write of a call, if it fails. -/
def Fails (env : Env) (e : TErr) : Prop := env.writes.headD (.fail .wantReadOrWrite) = .fail e

/-- C96, what a failing write leads to: as long as something is unsent and writes fail (for good or not),
every call tries to write the same octets again, does nothing else, makes no progress in the sense of C48,
and says "want write". -/
theorem C96_stuck_partial (cfg : Cfg W) (w : W) (now : Nat) (s : Sim W) (h : InUse cfg w now s) (rest : Bytes)
    (hne : rest ≠ []) (hr : produced s.trace = accepted s.trace ++ rest) (envs : List (Env × TErr))
    (hf : ∀ x ∈ envs, Fails x.1 x.2) :
    ∃ s', WantsWrite cfg (envs.map Prod.fst) s s' ∧
      s'.trace = s.trace ++ envs.flatMap (fun x => [.write rest (.fail x.2), .returned .wantWrite]) ∧
      lastProgress now s'.trace = lastProgress now s.trace := by
  obtain ⟨p, evs, post, i⟩ := h.steps.inv_false
  have hb : s.wbuf = rest := by
    have := i.acc
    rw [hr] at this
    exact (List.append_cancel_left this).symm
  have hst : s.st ≠ .awaitingHandshake := by
    intro hs
    have h0 := h.steps.replied
    have h1 := (h0.silent (h0.before (.inl hs))).2.2.2
    rw [h1] at hr
    have := congrArg List.length hr
    simp at this
    exact hne (List.length_eq_zero_iff.mp (by omega))
  clear h i hr
  suffices hx : ∃ s', WantsWrite cfg (envs.map Prod.fst) s s' ∧
      s'.trace = s.trace ++ envs.flatMap (fun x => [.write rest (.fail x.2), .returned .wantWrite]) by
    obtain ⟨s', h1, h2⟩ := hx
    refine ⟨s', h1, h2, ?_⟩
    rw [h2, lastProgress_append]
    clear h1 h2 hf
    generalize lastProgress now s.trace = t
    induction envs with
    | nil => rfl
    | cons x envs ih => simpa [lastProgress] using ih
  induction envs generalizing s with
  | nil => exact ⟨s, .nil s, by simp⟩
  | cons x envs ih =>
    obtain ⟨s1, h1, h2, h3, h4, -⟩ := process_stuck cfg s x.1 hst (by rw [hb]; exact hne) x.2 (hf x (by simp))
    obtain ⟨s2, h5, h6⟩ := ih s1 (fun y hy => hf y (by simp [hy])) (h2.trans hb) h3
    refine ⟨s2, .cons _ _ _ _ _ h1 h5, ?_⟩
    rw [h6, h4, hb]
    simp

/-- C96, "a connection whose transport failed for good is given up at once and not used again", refuted:
after a write has failed for good, any number of further calls write to the transport again, fail again,
and say "want write". -/
theorem C96_refuted : ∃ s : Sim Nat, InUse exCfg 0 0 s ∧ (∃ b, Ev.write b (.fail .otherError) ∈ s.trace) ∧
    ∀ n, ∃ s', WantsWrite exCfg (List.replicate n { writes := [.fail .otherError] }) s s' ∧
      (writeAttempts s'.trace).length = (writeAttempts s.trace).length + n := by
  obtain ⟨r, s, h1, h2⟩ := Shows.called (cfg := exCfg) (w := 0)
    (e := { exEnv (preface ++ exSettings ++ exGet) [36] with writes := [.wrote 36 3, .fail .otherError] })
    (es := []) (p := fun r s => r == .wantWrite && (s.trace.any fun e => match e with
      | .write _ (.fail .otherError) => true
      | _ => false) && decide (accepted s.trace ≠ produced s.trace)) (by decide +kernel)
  simp only [Bool.and_eq_true, beq_iff_eq, List.any_eq_true, decide_eq_true_eq] at h2
  obtain ⟨⟨rfl, e, he, hw⟩, hne⟩ := h2
  have hu : InUse exCfg 0 0 s := h1.inUse (by decide)
  refine ⟨s, hu, ?_, fun n => ?_⟩
  · split at hw
    · exact ⟨_, he⟩
    · cases hw
  · obtain ⟨p, evs, post, i⟩ := hu.steps.inv_false
    obtain ⟨s', k1, k2, -⟩ := C96_stuck_partial exCfg 0 0 s hu s.wbuf (by
      intro h0
      have := i.acc
      rw [h0, List.append_nil] at this
      exact hne this.symm) i.acc (List.replicate n ({ writes := [.fail .otherError] }, .otherError))
      (by
        intro x hx
        rw [(List.mem_replicate.mp hx).2]
        rfl)
    refine ⟨s', by simpa using k1, ?_⟩
    rw [k2, writeAttempts_append, List.length_append]
    congr 1
    clear k1 k2
    induction n with
    | zero => rfl
    | succ n ih => simpa [List.replicate_succ, writeAttempts] using ih

/-- C96, after a write failed for good: the connection never waits for input again, and is given up as soon
as nothing is unsent. Missing: that it is given up although something is unsent. -/
theorem C96_given_up_partial (cfg : Cfg W) (w : W) (now : Nat) (r : ProcRes) (s : Sim W)
    (h : Called cfg w now r s) (b : Bytes) (e : TErr) (he : e ≠ .wantReadOrWrite)
    (hm : Ev.write b (.fail e) ∈ s.trace) :
    r = .discard ∨ (r = .wantWrite ∧ accepted s.trace ≠ produced s.trace) :=
  C85_given_up cfg w now r s h _ hm (by cases e <;> simp [Ender] at he ⊢)

end Ion.Sim

namespace Ion.Server
variable {W : Type}

/-! ### C94 -/

/-- Events handled one after the other, each to its end. -/
inductive Handles (cfg : Cfg W) : List PollEv → Server W → Server W → Prop
  | nil (s : Server W) : Handles cfg [] s s
  | cons (ev : PollEv) (evs : List PollEv) (s s1 s2 : Server W) (h : s.handleEvent cfg ev = .ok s1)
      (hs : Handles cfg evs s1 s2) : Handles cfg (ev :: evs) s s2

theorem handles_iff (cfg : Cfg W) (evs : List PollEv) (s s' : Server W) :
    handleEvents cfg evs s = .ok s' ↔ Handles cfg evs s s' := by
  constructor
  · intro h
    induction evs generalizing s with
    | nil => cases h; exact .nil _
    | cons ev evs ih =>
      rw [handleEvents] at h
      obtain ⟨s1, h1, h2⟩ := Outcome.bind_eq_ok.1 h
      exact .cons _ _ _ _ _ h1 (ih _ h2)
  · intro h
    induction h with
    | nil s => rfl
    | cons ev evs s s1 s2 h _ ih => rw [handleEvents, h]; exact ih

/-- C94: an iteration first reaps idle connections, then waits, and handles each event that was reported, in
order and to its end; a poll that fails or times out leads to nothing. Then it has taken note of the last
`stop`, if there was any. -/
theorem C94_iteration {cfg : Cfg W} {s : Server W} (h : Serves cfg s) (hc : s.poller.created = true)
    (it : Iter) (s' : Server W) :
    s.iteration cfg it = .ok s' ↔ ∃ s1, Handles cfg (it.poll.getD []) (s.reapIdle it.now) s1 ∧
      s'.conns = s1.conns ∧ s'.os = s1.os ∧ s'.poller = s1.poller ∧ s'.world = s1.world ∧
      s'.listener = s1.listener ∧ s'.terminated = (s1.terminated || !it.stops.isEmpty) ∧
      s'.reason = it.stops.getLast?.getD s1.reason := by
  have hstop : ∀ (l : List StopReason) (s1 : Server W), l.foldl stop s1 =
      { s1 with terminated := s1.terminated || !l.isEmpty, reason := l.getLast?.getD s1.reason } := by
    intro l
    induction l with
    | nil => intro s1; simp
    | cons r l ih =>
      intro s1
      rw [List.foldl_cons, ih]
      simp only [stop]
      cases l with
      | nil => simp
      | cons x l => simp [List.getLast?_cons]
  have hext : ∀ s1 : Server W, (s'.conns = s1.conns ∧ s'.os = s1.os ∧ s'.poller = s1.poller ∧
      s'.world = s1.world ∧ s'.listener = s1.listener ∧
      s'.terminated = (s1.terminated || !it.stops.isEmpty) ∧
      s'.reason = it.stops.getLast?.getD s1.reason) ↔ it.stops.foldl stop s1 = s' := by
    intro s1
    rw [hstop]
    cases s'
    cases s1
    simp only [Server.mk.injEq]
    constructor
    · rintro ⟨rfl, rfl, rfl, rfl, rfl, rfl, rfl⟩
      exact ⟨rfl, rfl, rfl, rfl, rfl, rfl, rfl⟩
    · rintro ⟨rfl, rfl, rfl, rfl, rfl, rfl, rfl⟩
      exact ⟨rfl, rfl, rfl, rfl, rfl, rfl, rfl⟩
  simp only [hext]
  rw [iteration]
  simp only [(reap_same h.inv it.now).2.2, hc, if_true]
  rcases hp : it.poll with _ | evs
  · simp only [Option.getD_none]
    constructor
    · intro hx
      cases hx
      exact ⟨_, .nil _, rfl⟩
    · rintro ⟨s1, h1, rfl⟩
      cases h1
      rfl
  · simp only [Option.getD_some]
    constructor
    · intro hx
      obtain ⟨s1, h1, h2⟩ := Outcome.bind_eq_ok.1 hx
      cases h2
      exact ⟨s1, (handles_iff _ _ _ _).1 h1, rfl⟩
    · rintro ⟨s1, h1, rfl⟩
      rw [(handles_iff _ _ _ _).2 h1]
      rfl

/-- C94, exceptions: one that leaves an iteration was thrown while one of the reported events was handled,
all events before having been handled to their end. -/
theorem C94_exception {cfg : Cfg W} {s : Server W} {it : Iter} {e : ServerExn}
    (h : s.iteration cfg it = .err e) : ∃ pre ev post s1, it.poll = some (pre ++ ev :: post) ∧
      Handles cfg pre (s.reapIdle it.now) s1 ∧ s1.handleEvent cfg ev = .err e := by
  have key : ∀ (evs : List PollEv) (s : Server W), handleEvents cfg evs s = .err e →
      ∃ pre ev post s1, evs = pre ++ ev :: post ∧ Handles cfg pre s s1 ∧ s1.handleEvent cfg ev = .err e := by
    intro evs
    induction evs with
    | nil => intro s h; cases h
    | cons ev evs ih =>
      intro s h
      rw [handleEvents] at h
      rcases hx : s.handleEvent cfg ev with s1 | e' | u
      · rw [hx] at h
        obtain ⟨pre, ev', post, s2, rfl, h2, h3⟩ := ih s1 h
        exact ⟨ev :: pre, ev', post, s2, rfl, .cons _ _ _ _ _ hx h2, h3⟩
      · rw [hx] at h
        cases h
        exact ⟨[], ev, evs, s, rfl, .nil _, hx⟩
      · rw [hx] at h
        cases h
  rw [iteration] at h
  simp only at h
  split at h
  · cases h
  · rename_i evs he
    have hp : it.poll = some evs := by
      split at he
      · exact he
      · cases he
    rcases hx : handleEvents cfg evs (s.reapIdle it.now) with s1 | e' | u
    · rw [hx] at h; cases h
    · rw [hx] at h
      cases h
      obtain ⟨pre, ev, post, s1, rfl, h2, h3⟩ := key _ _ hx
      exact ⟨pre, ev, post, s1, hp, h2, h3⟩
    · rw [hx] at h; cases h

/-- An iteration that handles three events: a client connects, sends its request, and gets the response. -/
example : (match (begin 0 3 true false).iteration Sim.exCfg
      { poll := some (exEvents.take 3), stops := [.signal] } with
    | .ok s => s.conns.map Prod.fst == [5, 6] && s.world == 1 && s.terminated
    | _ => false) = true := by decide +kernel

/-! ### C62 for iterations -/

theorem EvStep.closed_mono {cfg : Cfg W} {s s' : Server W} {ev : PollEv} (hi : Inv s)
    (hs : EvStep cfg s ev s') {f : Nat} (hf : f ∈ s.os.closed) : f ∈ s'.os.closed := by
  obtain ⟨h1, h2, h3⟩ := (hi.closed f).1 hf
  refine ((hs.inv hi).closed f).2 ⟨h1, Nat.lt_of_lt_of_le h2 (hs.next_le hi), fun fd c hc he => ?_⟩
  rcases hs.conns hi hc with h | ⟨_, h, _⟩ | ⟨_, c1, r, h4, h5, _⟩
  · exact h3 _ _ h he
  · omega
  · exact h3 _ _ h4 (h5.symm.trans he)

theorem Handles.closed {cfg : Cfg W} {evs : List PollEv} {s s' : Server W} (h : Handles cfg evs s s') :
    Inv s → ∀ f ∈ s.os.closed, f ∈ s'.os.closed := by
  induction h with
  | nil s => exact fun _ _ hf => hf
  | cons ev evs s s1 s2 he _ ih =>
    intro hi f hf
    exact ih ((hi.step he).inv hi) f ((hi.step he).closed_mono hi hf)

/-- C62, for an iteration: after one in whose course a connection is found idle for more than five seconds,
its socket is closed. -/
theorem C62_iteration {cfg : Cfg W} {s0 s s' : Server W} (h0 : Serves cfg s0) {fd t0 : Nat} {w : W}
    {c0 c : Conn W} (hc0 : s0.conns.get fd = some c0) (hn : c0.sim = Sim.init w t0)
    (hr : Reach cfg anyEv s0 s) (hc : s.conns.get fd = some c) (hf : c.file = c0.file)
    {it : Iter} (hit : s.iteration cfg it = .ok s')
    (hidle : Sim.lastProgress t0 c.sim.trace + 5 * 10 ^ 9 < it.now fd) :
    c.file ∈ s'.os.closed ∧ ∀ fd' c', s'.conns.get fd' = some c' → c'.file ≠ c.file := by
  have hs : Serves cfg s := h0.reach hr
  have h1 := ((C62_reap h0 hc0 hn hr hc hf it.now).1 hidle).2.2
  have hi' : Inv s' := (iteration_reach (P := anyEv) (fun _ _ _ _ => trivial) hit).inv hs.inv
  have h2 : c.file ∈ s'.os.closed := by
    obtain ⟨s1, evs, h3, rfl⟩ := iteration_ok hit
    have h4 := ((handles_iff _ _ _ _).1 h3).closed (hs.inv.reap it.now) _ h1
    clear h3 hit hi'
    generalize it.stops = l
    induction l generalizing s1 with
    | nil => exact h4
    | cons r l ih => exact ih (s1.stop r) h4
  exact ⟨h2, fun fd' c' hx => ((hi'.closed _).1 h2).2.2 _ _ hx⟩

/-! ### C95 -/

/-- C95: what the kernel watches a connection for after `process()` was called. If that wants to write: for
reading and writing. If it does not, and the event reported writability: for reading only. Otherwise: for
what it was watched for before. -/
theorem C95_watched {cfg : Cfg W} {s s' : Server W} (h : ServesWell cfg s) {ev : PollEv} (hev : registers ev)
    {c : Conn W} (hc : s.conns.get ev.fd = some c) (he : s.handleEvent cfg ev = .ok s')
    (hn1 : hasEvent ev.events .error = false) (hn2 : hasEvent ev.events .hangup = false) {r : ProcRes}
    {sim : Sim W} (hrw : hasEvent ev.events .read = true ∨ hasEvent ev.events .write = true)
    (hp : ({ c.sim with world := s.world } : Sim W).process cfg ev.env = .ok (r, sim)) :
    (r = .wantWrite → s'.os.interest.get ev.fd = some (epollIn ||| epollOut)) ∧
    (r = .wantRead → hasEvent ev.events .write = true → s'.os.interest.get ev.fd = some epollIn) ∧
    (r = .wantRead → hasEvent ev.events .write = false →
      s'.os.interest.get ev.fd = s.os.interest.get ev.fd) := by
  have hi := h.serves.inv
  have hcr := h.watched.created
  have hb := hi.before hc
  have hbs := before_same s ev
  have hl : ev.fd ≠ s.listener := by
    intro hx
    rw [hx, hi.notListener] at hc
    cases hc
  have hu : Inv ((s.before ev).updated ev.fd c sim) := hb.putSim (by rw [hbs.1]; exact hc) _ _
  have hx : ((s.before ev).updated ev.fd c sim).conns.get ev.fd = some { c with sim } := by simp [updated]
  have hbi : (s.before ev).os.interest.get ev.fd =
      if hasEvent ev.events .write = true then some epollIn else s.os.interest.get ev.fd := by
    rw [before]
    split
    · rw [hi.pollSet_eq (by rw [hi.isOpen hc]; simp), hcr, hev.1]
      simp only [Bool.not_false, Bool.and_self, if_true, Assoc.get_put_self]
      decide
    · rfl
  rw [handleEvent, if_neg hl, handleConnection] at he
  simp only [hc, hn1, hn2] at he
  rw [if_neg (by simp), if_neg (by rcases hrw with h3 | h3 <;> simp [h3])] at he
  rw [show (if hasEvent ev.events .write = true then s.pollSet ev.fd .read ev.ctlFails1 else s) =
    s.before ev from rfl, hbs.2.1, hp] at he
  refine ⟨?_, ?_, ?_⟩
  · rintro rfl
    simp only [Outcome.ok.injEq] at he
    rw [← he]
    have := hu.pollSet_eq (fd := ev.fd) (by rw [hu.isOpen hx]; simp) (.read ||| .write) ev.ctlFails2
    rw [show ({ (s.before ev) with conns := (s.before ev).conns.put ev.fd { c with sim }, world := sim.world } :
      Server W) = (s.before ev).updated ev.fd c sim from rfl, this]
    have hcr' : ((s.before ev).updated ev.fd c sim).poller.created = true := by
      simp only [updated]
      rw [hbs.2.2.2.2.2]
      exact hcr
    rw [hcr', hev.2]
    simp only [Bool.not_false, Bool.and_self, if_true, Assoc.get_put_self]
    decide
  · rintro rfl hw
    simp only [Outcome.ok.injEq] at he
    rw [← he]
    simpa [hw] using hbi
  · rintro rfl hw
    simp only [Outcome.ok.injEq] at he
    rw [← he]
    simpa [hw] using hbi

/-- The response to a request does not fit at first: the connection is watched for both; when the rest is
sent, for reading only. -/
example : ∃ s, ServesWell Sim.exCfg s ∧ s.os.interest.get 5 = some (epollIn ||| epollOut) ∧
    ∃ s', s.handleEvent Sim.exCfg { fd := 5, events := .write, env := { writes := [.wrote 9 4] } } = .ok s' ∧
      s'.os.interest.get 5 = some epollIn := by
  obtain ⟨s, h1, h2⟩ := Shows.well (cfg := Sim.exCfg) (w := 0) (listener := 3) (evs := exEvents.take 3)
    (p := fun s => decide (s.os.interest.get 5 = some (epollIn ||| epollOut)) &&
      match s.handleEvent Sim.exCfg { fd := 5, events := .write, env := { writes := [.wrote 9 4] } } with
      | .ok s' => decide (s'.os.interest.get 5 = some epollIn)
      | _ => false) (by decide +kernel) (by simp [exEvents, exAccept, exRead, registers])
  simp only [Bool.and_eq_true, decide_eq_true_eq] at h2
  refine ⟨s, h1, h2.1, ?_⟩
  have h3 := h2.2
  split at h3
  · exact ⟨_, ‹_›, by simpa using h3⟩
  · cases h3

end Ion.Server
