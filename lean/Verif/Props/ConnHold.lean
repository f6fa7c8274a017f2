import Verif.Props.ConnTotal

/-! # How long a client can hold the server and its connection (C103, C104) -/

namespace Ion
namespace Sim
open Spec
variable {W : Type}

/-- A frame of nine octets that means nothing to the server: type 10, without payload. -/
def exIdle : Bytes := [0, 0, 0, 10, 0, 0, 0, 0, 0]

def exIdleFrame : FrameReader := ⟨⟨0, 10, 0, 0⟩, []⟩

/-- The connection waits for a frame, has no input and no output. -/
structure Quiet (s : Sim W) : Prop where
  st : s.st = .awaitingFrame
  rbuf : s.rbuf = []
  wbuf : s.wbuf = []

/-- The frame arrives, and nothing else until it has been acted on. -/
def idleReads (t : Nat) : List ReadRes := [.data exIdle t, .fail .wantReadOrWrite]

/-- The connection after it has acted on the frame. -/
def afterIdle (s : Sim W) (t : Nat) (rs : List ReadRes) : Sim W :=
  let trace := s.trace ++ [.read exIdle t] ++ [.readFail .wantReadOrWrite] ++ [.frame exIdleFrame]
  { s with reads := rs, last := t, trace }

theorem idle_iter (cfg : Cfg W) (s : Sim W) (h : Quiet s) (t : Nat) (rs : List ReadRes)
    (hr : s.reads = idleReads t ++ rs) :
    s.iter cfg = .ok (none, s.afterIdle t rs) := by
  obtain ⟨st, rbuf, wbuf, dec, enc, last, world, hs, reads, writes, trace⟩ := s
  obtain ⟨h1, h2, h3⟩ := h
  simp only at h1 h2 h3 hr
  subst h1 h2 h3 hr
  have hp : FrameHeader.parse (ε := Stop) exIdle = .ok ⟨0, 10, 0, 0⟩ := by decide +kernel
  have hl : exIdle.length = 9 := rfl
  simp [iter, turn, flush, fill, fillLoop, idleReads, tempReadBufferSize, maxReadBufferSize, readFailed, emit,
    dispatch, frameCase, tryReadFrame, hp, hl, maxFrameSize, processFrame, discardProcessed, afterIdle,
    exIdleFrame, bind, Outcome.bind]

/-- `n` times the frame, each as soon as the one before has been acted on. -/
def idles (t : Nat) : Nat → List ReadRes
  | 0 => []
  | n + 1 => idleReads t ++ idles t n

theorem idles_available (t n : Nat) : available (idles t n) = 9 * n := by
  induction n with
  | zero => rfl
  | succ n ih =>
    simp only [idles, idleReads, List.cons_append, List.nil_append, available, ih, exIdle, List.length_cons,
      List.length_nil]
    omega

theorem wait_loop (cfg : Cfg W) (fuel : Nat) (s : Sim W) (h : Quiet s) (hr : s.reads = []) :
    s.loop cfg (fuel + 1) = .ok (.wantRead, { s with trace := s.trace ++ [.readFail .wantReadOrWrite] }) := by
  obtain ⟨st, rbuf, wbuf, dec, enc, last, world, hs, reads, writes, trace⟩ := s
  obtain ⟨h1, h2, h3⟩ := h
  simp only at h1 h2 h3 hr
  subst h1 h2 h3 hr
  simp [loop, iter, turn, flush, fill, fillLoop, tempReadBufferSize, maxReadBufferSize, readFailed, emit,
    dispatch, frameCase, tryReadFrame, bind, Outcome.bind]

theorem idle_loop (cfg : Cfg W) (t n : Nat) : ∀ (fuel : Nat) (s : Sim W), Quiet s → s.reads = idles t n →
    n < fuel → ∃ s', s.loop cfg fuel = .ok (.wantRead, s') ∧ Quiet s' ∧
      (frames s'.trace).length = (frames s.trace).length + n ∧ handled s'.trace = handled s.trace ∧
      (n ≠ 0 → s'.last = t) := by
  induction n with
  | zero =>
    intro fuel s hq hr hf
    obtain ⟨f, rfl⟩ : ∃ f, fuel = f + 1 := ⟨fuel - 1, by omega⟩
    obtain ⟨st, rbuf, wbuf, dec, enc, last, world, hs, reads, writes, trace⟩ := s
    obtain ⟨h1, h2, h3⟩ := hq
    simp only at h1 h2 h3 hr
    subst h1 h2 h3 hr
    refine ⟨_, wait_loop cfg f _ ⟨rfl, rfl, rfl⟩ rfl, ⟨rfl, rfl, rfl⟩, ?_, ?_, by simp⟩
    · simp [frames]
    · simp [handled]
  | succ n ih =>
    intro fuel s hq hr hf
    obtain ⟨f, rfl⟩ : ∃ f, fuel = f + 1 := ⟨fuel - 1, by omega⟩
    have hi := idle_iter cfg s hq t (idles t n) hr
    obtain ⟨s', h1, h2, h3, h4, h5⟩ := ih f (s.afterIdle t (idles t n)) ⟨hq.st, hq.rbuf, hq.wbuf⟩ rfl (by omega)
    refine ⟨s', ?_, h2, ?_, ?_, ?_⟩
    · rw [loop, hi]
      exact h1
    · rw [h3]
      simp [frames, afterIdle]
      omega
    · rw [h4]
      simp [handled, afterIdle]
    · intro _
      by_cases hn : n = 0
      · subst hn
        cases f with
        | zero => omega
        | succ f =>
          have := h1.symm.trans (wait_loop cfg f _ ⟨hq.st, hq.rbuf, hq.wbuf⟩ rfl)
          simp only [Outcome.ok.injEq, Prod.mk.injEq, true_and] at this
          rw [this]
          rfl
      · exact h5 hn

theorem idle_process (cfg : Cfg W) (s : Sim W) (hq : Quiet s) (t n : Nat) :
    ∃ s', s.process cfg { reads := idles t n } = .ok (.wantRead, s') ∧ Quiet s' ∧
      (frames s'.trace).length = (frames s.trace).length + n ∧ handled s'.trace = handled s.trace ∧
      (n ≠ 0 → s'.last = t) := by
  obtain ⟨s', h1, h2, h3, h4, h5⟩ := idle_loop cfg t n
    (budget { s with hs := .fail .wantReadOrWrite, reads := idles t n, writes := [] })
    { s with hs := .fail .wantReadOrWrite, reads := idles t n, writes := [] } ⟨hq.st, hq.rbuf, hq.wbuf⟩ rfl
    (by simp only [budget, idles_available]; omega)
  refine ⟨s'.emit (.returned .wantRead), ?_, ⟨h2.st, h2.rbuf, h2.wbuf⟩, ?_, ?_, h5⟩
  · rw [process]
    simp only [h1]
    rfl
  · simpa [emit, frames] using h3
  · simpa [emit, handled] using h4

/-- C103, "one call of process() does a bounded amount of work, so that a client cannot hold up the others",
refuted: whatever the application, a connection that waits for frames may act on any number of them in one
call, if the client sends each while the one before is being acted on. -/
theorem C103_refuted (cfg : Cfg W) (s : Sim W) (hq : Quiet s) (n : Nat) :
    ∃ env s', s.process cfg env = .ok (.wantRead, s') ∧
      (frames s'.trace).length = (frames s.trace).length + n := by
  obtain ⟨s', h1, -, h3, -⟩ := idle_process cfg s hq 0 n
  exact ⟨_, s', h1, h3⟩

/-- The length of the wire form of frames is fixed by their payloads. -/
theorem framesWire_length_eq {fs : List Frame} {w : Bytes} (h : FramesWire fs w) :
    w.length = (fs.map fun f => 9 + f.payload.length).sum := by
  induction h with
  | nil => rfl
  | cons f fs w ws hf hs ih =>
    obtain ⟨len, sid, h1, h2, rfl, -⟩ := hf
    simp only [List.map_cons, List.sum_cons, ← ih, List.length_append, List.length_cons, List.length_nil]
    omega

theorem sum_ge_nine (fs : List Frame) : 9 * fs.length ≤ (fs.map fun f => 9 + f.payload.length).sum := by
  induction fs with
  | nil => simp
  | cons f fs ih => simp only [List.length_cons, List.map_cons, List.sum_cons]; omega

/-- C103, what holds: the frames one call acts on are paid for by the octets that were buffered when it began
and those read during the call, nine octets each at least. -/
theorem C103_paid_partial {cfg : Cfg W} {w : W} {now : Nat} {calls : List Call} {s s' : Sim W} {env : Env}
    {r : ProcRes} (h : run cfg calls (init w now) = .ok s) (hp : s.process cfg env = .ok (r, s')) :
    ∃ new, s'.trace = s.trace ++ new ∧ 9 * (frames new).length ≤ s.rbuf.length + (received new).length := by
  obtain ⟨new, hn⟩ := (process_steps' cfg hp).trace_mono
  refine ⟨new, hn, ?_⟩
  have h' : run cfg (calls ++ [.process env]) (init w now) = .ok s' := by
    rw [run_append, h]; simp [Sim.run, call, hp]
  obtain ⟨passed, evs, post, i⟩ := Inv.steps (run_steps cfg calls h) (Inv.init cfg w true now)
  obtain ⟨passed', evs', post', i'⟩ := Inv.steps (run_steps cfg _ h') (Inv.init cfg w true now)
  have hr := i.recv
  have hr' := i'.recv
  rw [hn, frames_append, received_append] at hr'
  cases passed' with
  | false =>
    rw [if_neg (by simp)] at hr'
    have := (List.append_eq_nil_iff.mp hr'.1).2
    simp [this]
  | true =>
    rw [if_pos rfl] at hr'
    obtain ⟨v', h1', h2'⟩ := hr'
    have l1 := framesWire_length_eq h1'
    have l2 := congrArg List.length h2'
    simp only [List.map_append, List.sum_append, List.length_append] at l1 l2
    have l3 := sum_ge_nine ((frames new).map asFrame)
    rw [List.length_map] at l3
    cases passed with
    | false =>
      rw [if_neg (by simp)] at hr
      rw [hr.2] at l2
      omega
    | true =>
      rw [if_pos rfl] at hr
      obtain ⟨v, h1, h2⟩ := hr
      have k1 := framesWire_length_eq h1
      have k2 := congrArg List.length h2
      simp only [List.length_append] at k2
      omega

/-- A call that acts on two frames. -/
example : ∃ s' r, run exCfg [] (init 0 0) = .ok (init 0 0) ∧
    (init 0 0).process exCfg (exEnv (clientPreface ++ exSettings ++ exGet) [36]) = .ok (r, s') ∧
    (frames s'.trace).length = 2 := by
  have : (match (init 0 0).process exCfg (exEnv (clientPreface ++ exSettings ++ exGet) [36]) with
    | .ok (_, s') => decide ((frames s'.trace).length = 2)
    | _ => false) = true := by decide +kernel
  rcases hp : (init 0 0).process exCfg (exEnv (clientPreface ++ exSettings ++ exGet) [36]) with ⟨r, s'⟩ | _ | _
  · rw [hp] at this; exact ⟨s', r, rfl, rfl, by simpa using this⟩
  · rw [hp] at this; simp at this
  · rw [hp] at this; simp at this

/-- C104, "a client that makes no requests does not keep its connection", refuted: whatever the application,
a client whose preface has been read can keep its connection for ever by sending a frame that means nothing
every four seconds: `process()` never gives the connection up, it has never timed out when the next frame
comes, and no handler is called. -/
theorem C104_refuted (cfg : Cfg W) (s : Sim W) (hq : Quiet s) (t : Nat) (ht : s.last = t) :
    ∃ (f : Nat → Sim W) (env : Nat → Env), f 0 = s ∧
      ∀ i, (f i).process cfg (env i) = .ok (.wantRead, f (i + 1)) ∧ handled (f i).trace = handled s.trace ∧
        (f i).last = t + 4000000000 * i ∧
        ∀ now, now ≤ t + 4000000000 * (i + 1) → (f i).hasTimedOut now = false := by
  have step : ∀ (i : Nat) (x : { x : Sim W // Quiet x }), ∃ y : { y : Sim W // Quiet y },
      x.1.process cfg { reads := idles (t + 4000000000 * (i + 1)) 1 } = .ok (.wantRead, y.1) ∧
      handled y.1.trace = handled x.1.trace ∧ y.1.last = t + 4000000000 * (i + 1) := by
    intro i x
    obtain ⟨y, h1, h2, -, h4, h5⟩ := idle_process cfg x.1 x.2 (t + 4000000000 * (i + 1)) 1
    exact ⟨⟨y, h2⟩, h1, h4, h5 (by omega)⟩
  let g : Nat → { x : Sim W // Quiet x } := fun i =>
    Nat.rec ⟨s, hq⟩ (fun i x => Classical.choose (step i x)) i
  have hg : ∀ i, (g i).1.process cfg { reads := idles (t + 4000000000 * (i + 1)) 1 } = .ok (.wantRead, (g (i + 1)).1) ∧
      handled (g (i + 1)).1.trace = handled (g i).1.trace ∧ (g (i + 1)).1.last = t + 4000000000 * (i + 1) :=
    fun i => Classical.choose_spec (step i (g i))
  have hl : ∀ i, (g i).1.last = t + 4000000000 * i ∧ handled (g i).1.trace = handled s.trace := by
    intro i
    induction i with
    | zero => exact ⟨ht, rfl⟩
    | succ i ih => exact ⟨(hg i).2.2, (hg i).2.1.trans ih.2⟩
  refine ⟨fun i => (g i).1, fun i => { reads := idles (t + 4000000000 * (i + 1)) 1 }, rfl, ?_⟩
  intro i
  refine ⟨(hg i).1, (hl i).2, (hl i).1, ?_⟩
  intro now hn
  simp only [hasTimedOut, (hl i).1, idleTimeout]
  rw [decide_eq_false_iff_not]
  omega

/-- A connection that has read preface and SETTINGS is quiet. -/
example : ∃ r s, Called exCfg 0 0 r s ∧ Quiet s ∧ s.last = 3 := by
  obtain ⟨r, s, h1, h2⟩ : ∃ r s, Called exCfg 0 0 r s ∧
      (s.st == .awaitingFrame && s.rbuf == [] && s.wbuf == [] && s.last == 3) = true :=
    Shows.called (e := exEnv (clientPreface ++ exSettings) [36]) (es := []) (by decide +kernel)
  simp only [Bool.and_eq_true, beq_iff_eq] at h2
  exact ⟨r, s, h1, ⟨h2.1.1.1, h2.1.1.2, h2.1.2⟩, h2.2⟩

/-- C104, what holds: a client that has sent nothing and taken nothing since clock value `t` has timed out five
seconds later; whatever calls were made in between, none of them having made progress. -/
theorem C104_silent_partial {cfg : Cfg W} {w : W} {now : Nat} {calls more : List Call} {s s' : Sim W}
    (h : run cfg calls (init w now) = .ok s) (hm : run cfg more s = .ok s') {new : List Ev}
    (hn : s'.trace = s.trace ++ new)
    (hq : ∀ e ∈ new, (∀ t, e ≠ .handshake t) ∧ (∀ b t, e ≠ .read b t) ∧ ∀ n b t, e ≠ .write n (.wrote b t))
    (t : Nat) (ht : s.last + 5 * 10 ^ 9 < t) : s'.hasTimedOut t = true := by
  have h' : run cfg (calls ++ more) (init w now) = .ok s' := by rw [run_append, h]; exact hm
  rw [C48_idle h']
  have hl := (run_steps cfg calls h).last
  rw [hn, lastProgress_append, ← hl]
  suffices hs : ∀ (es : List Ev) (x : Nat), (∀ e ∈ es, (∀ t, e ≠ .handshake t) ∧ (∀ b t, e ≠ .read b t) ∧
      ∀ n b t, e ≠ .write n (.wrote b t)) → lastProgress x es = x by
    rw [hs new s.last hq]; exact ht
  intro es
  induction es with
  | nil => intro x _; rfl
  | cons e es ih =>
    intro x hx
    have h1 := hx e (List.mem_cons_self ..)
    have h2 := ih x fun e he => hx e (List.mem_cons_of_mem _ he)
    cases e with
    | handshake t => exact absurd rfl (h1.1 t)
    | read b t => exact absurd rfl (h1.2.1 b t)
    | write n r =>
      cases r with
      | wrote b t => exact absurd rfl (h1.2.2 n b t)
      | fail e => simpa [lastProgress] using h2
    | _ => simpa [lastProgress] using h2

/-- A call in which the client sends nothing. -/
example : ∃ calls s s', run exCfg calls (init 0 0) = .ok s ∧
    run exCfg [.process {}] s = .ok s' ∧
    s'.trace = s.trace ++ [.readFail .wantReadOrWrite, .returned .wantRead] := by
  obtain ⟨calls, s, h1, h2⟩ : ∃ calls s, run exCfg calls (init 0 0) = .ok s ∧
      (s.st == .awaitingFrame && s.rbuf == [] && s.wbuf == []) = true :=
    Shows.run (e := exEnv (clientPreface ++ exSettings) [36]) (es := []) (by decide +kernel)
  simp only [Bool.and_eq_true, beq_iff_eq] at h2
  have hw := wait_loop exCfg (budget { s with hs := .fail .wantReadOrWrite, reads := [], writes := [] } - 1)
    { s with hs := .fail .wantReadOrWrite, reads := [], writes := [] } ⟨h2.1.1, h2.1.2, h2.2⟩ rfl
  rw [Nat.sub_add_cancel (by simp [budget])] at hw
  refine ⟨calls, s, { s with
    hs := .fail .wantReadOrWrite
    reads := []
    writes := []
    trace := s.trace ++ [.readFail .wantReadOrWrite] ++ [.returned .wantRead] }, h1, ?_, by simp⟩
  simp only [Sim.run, call, process, hw]
  rfl

end Sim
end Ion
