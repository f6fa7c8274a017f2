import Verif.Props.ServerIter
import Verif.Props.ConnHold

/-!
# A full server (C135)

The server keeps at most 128 connections and turns further clients away (C59); idle connections are closed (C62).
C135 asks whether clients that make no requests can keep others out.
-/

namespace Ion
namespace Server
open Sim
variable {W : Type}

/-- All places are taken, by connections that wait for a frame, have nothing to send, and have made progress at
`t` or later. -/
structure Held (cfg : Cfg W) (t : Nat) (s : Server W) : Prop where
  serves : Serves cfg s
  polls : s.poller.created = true
  runs : s.terminated = false
  full : s.conns.length = 128
  quiet : ∀ fd c, s.conns.get fd = some c → Quiet c.sim ∧ t ≤ c.sim.last

/-- The same clients are connected, on the same sockets, and no handler was called for them. -/
def SameClients (s s' : Server W) : Prop :=
  ∀ fd c, s.conns.get fd = some c → ∃ c', s'.conns.get fd = some c' ∧ c'.file = c.file ∧
    handled c'.sim.trace = handled c.sim.trace

theorem SameClients.trans {a b c : Server W} (h : SameClients a b) (h' : SameClients b c) : SameClients a c := by
  intro fd x hx
  obtain ⟨y, h1, h2, h3⟩ := h fd x hx
  obtain ⟨z, h4, h5, h6⟩ := h' fd y h1
  exact ⟨z, h4, h5.trans h2, h6.trans h3⟩

/-- An iteration at one time with one event. -/
def at_ (t : Nat) (ev : PollEv) : Iter := { now := fun _ => t, poll := some [ev] }

/-- A frame without meaning comes from a client. -/
def nudge (fd t : Nat) : PollEv := exRead fd { reads := idles t 1 }

/-- A new client comes, on this descriptor. -/
def comes (listener fd t : Nat) : PollEv := { fd := listener, events := .read, accept := .client fd true true t }

theorem reap_none (s : Server W) (now : Nat → Nat) (h : ∀ e ∈ s.conns, e.2.sim.hasTimedOut (now e.1) = false) :
    s.reapIdle now = s := by
  rw [reapIdle]
  generalize hl : s.conns = l at h
  clear hl
  induction l with
  | nil => rfl
  | cons e l ih =>
    rw [List.foldl_cons, reapOne, h e (List.mem_cons_self ..)]
    exact ih fun x hx => h x (List.mem_cons_of_mem _ hx)

theorem Held.reap {cfg : Cfg W} {t : Nat} {s : Server W} (h : Held cfg t s) {now : Nat} (hn : now ≤ t + 5 * 10 ^ 9) :
    s.reapIdle (fun _ => now) = s := by
  apply reap_none
  intro e he
  have := (h.quiet e.1 e.2 (Assoc.mem_get h.serves.inv.sorted he)).2
  rw [Sim.hasTimedOut, decide_eq_false_iff_not, idleTimeout]
  omega

theorem Held.iteration {cfg : Cfg W} {t : Nat} {s s' : Server W} (h : Held cfg t s) {now : Nat}
    (hn : now ≤ t + 5 * 10 ^ 9) {ev : PollEv} (he : s.handleEvent cfg ev = .ok s') :
    s.iteration cfg (at_ now ev) = .ok s' := by
  rw [Server.iteration]
  simp only [at_, h.reap hn, h.polls, if_true, handleEvents, he, List.foldl_nil, bind, Outcome.bind]

/-- A client nudges the server: it keeps its place. -/
theorem Held.nudge {cfg : Cfg W} {t : Nat} {s : Server W} (h : Held cfg t s) {fd now : Nat} {c : Conn W}
    (hc : s.conns.get fd = some c) (hn : t ≤ now) (hn' : now ≤ t + 5 * 10 ^ 9) :
    ∃ s' c', s.iteration cfg (at_ now (nudge fd now)) = .ok s' ∧ Held cfg t s' ∧ SameClients s s' ∧
      s'.os = s.os ∧ s'.conns.get fd = some c' ∧ c'.sim.last = now ∧ s'.listener = s.listener ∧
      ∀ fd', fd' ≠ fd → s'.conns.get fd' = s.conns.get fd' := by
  have hl : fd ≠ s.listener := by
    rintro rfl
    rw [h.serves.inv.notListener] at hc
    cases hc
  obtain ⟨hq, -⟩ := h.quiet fd c hc
  obtain ⟨sim, h1, h2, -, h4, h5⟩ := idle_process cfg ({ c.sim with world := s.world } : Sim W)
    ⟨hq.st, hq.rbuf, hq.wbuf⟩ now 1
  have he : s.handleEvent cfg (Server.nudge fd now) =
      .ok { s with conns := s.conns.put fd { c with sim }, world := sim.world } := by
    rw [handleEvent, if_neg (by exact hl), handleConnection]
    simp only at h1
    simp only [Server.nudge, exRead, hc, show hasEvent PollEvents.read .error = false from rfl,
      show hasEvent PollEvents.read .hangup = false from rfl, show hasEvent PollEvents.read .read = true from rfl,
      show hasEvent PollEvents.read .write = false from rfl]
    simp [h1]
  have hi := h.iteration hn' he
  refine ⟨_, { c with sim }, hi, ⟨?_, h.polls, h.runs, ?_, ?_⟩, ?_, rfl, Assoc.get_put_self _ _ _, h5 (by decide), rfl,
    fun fd' hne => Assoc.get_put_ne _ _ hne⟩
  · exact h.serves.reach (iteration_reach (P := anyEv) (fun _ _ _ _ => trivial) hi)
  · show (s.conns.put fd _).length = 128
    rw [Assoc.length_put_of_get h.serves.inv.sorted hc, h.full]
  · intro fd' c' hx
    by_cases hf : fd' = fd
    · subst hf
      rw [show (s.conns.put fd' { c with sim }).get fd' = some { c with sim } from Assoc.get_put_self _ _ _] at hx
      cases hx
      exact ⟨h2, by rw [show sim.last = now from h5 (by decide)]; exact hn⟩
    · rw [show (s.conns.put fd { c with sim }).get fd' = s.conns.get fd' from Assoc.get_put_ne _ _ hf] at hx
      exact h.quiet fd' c' hx
  · intro fd' c' hx
    by_cases hf : fd' = fd
    · subst hf
      rw [hc] at hx
      cases hx
      exact ⟨_, Assoc.get_put_self _ _ _, rfl, h4⟩
    · exact ⟨c', (Assoc.get_put_ne _ _ hf).trans hx, rfl, rfl⟩

theorem run_cons {cfg : Cfg W} {s s' : Server W} {it : Iter} (hr : s.terminated = false)
    (h : s.iteration cfg it = .ok s') (its : List Iter) : run cfg (it :: its) s = run cfg its s' := by
  rw [run, hr]
  simp [h]

/-- Clients nudge the server one after the other. -/
theorem Held.nudges {cfg : Cfg W} {t now : Nat} (hn : t ≤ now) (hn' : now ≤ t + 5 * 10 ^ 9) (rest : List Iter) :
    ∀ (fds : List Nat) {s : Server W}, Held cfg t s → (∀ fd ∈ fds, s.conns.get fd ≠ none) →
      ∃ s', run cfg (fds.map (fun fd => at_ now (Server.nudge fd now)) ++ rest) s = run cfg rest s' ∧ Held cfg t s' ∧
        SameClients s s' ∧ s'.os = s.os ∧ s'.listener = s.listener ∧
        ∀ fd c', s'.conns.get fd = some c' → (fd ∈ fds → c'.sim.last = now) ∧
          (fd ∉ fds → s.conns.get fd = some c') := by
  intro fds
  induction fds with
  | nil => intro s h _; exact ⟨s, rfl, h, fun fd c hc => ⟨c, hc, rfl, rfl⟩, rfl, rfl, by simp⟩
  | cons fd fds ih =>
    intro s h hm
    obtain ⟨c, hc⟩ := Option.ne_none_iff_exists'.1 (hm fd (List.mem_cons_self ..))
    obtain ⟨s1, c1, h1, h2, h3, h4, h5, h6, h7, h8⟩ := h.nudge hc hn hn'
    obtain ⟨s2, k1, k2, k3, k4, k5, k6⟩ := ih h2 (fun fd' hf => by
      by_cases he : fd' = fd
      · subst he; simp [h5]
      · rw [h8 fd' he]; exact hm fd' (List.mem_cons_of_mem _ hf))
    refine ⟨s2, ?_, k2, h3.trans k3, k4.trans h4, k5.trans h7, fun fd' c' hx => ⟨fun hf => ?_, fun hf => ?_⟩⟩
    · rw [List.map_cons, List.cons_append, run_cons h.runs h1, k1]
    · by_cases hf' : fd' ∈ fds
      · exact (k6 fd' c' hx).1 hf'
      · have := (k6 fd' c' hx).2 hf'
        rcases List.mem_cons.1 hf with rfl | hf
        · rw [h5] at this
          cases this
          exact h6
        · exact absurd hf hf'
    · rw [List.mem_cons, not_or] at hf
      rw [← h8 fd' hf.1]
      exact (k6 fd' c' hx).2 hf.2

/-- Each client sends a frame without meaning, then a new one comes. -/
def turn (listener : Nat) (fds : List Nat) (fd now : Nat) : List Iter :=
  fds.map (fun fd => at_ now (nudge fd now)) ++ [at_ now (comes listener fd now)]

theorem Held.turn {cfg : Cfg W} {t : Nat} {s : Server W} (h : Held cfg t s) {fd : Nat} (hf : s.os.files.get fd = none) :
    ∃ s', run cfg (turn s.listener (s.conns.map (·.1)) fd (t + 5 * 10 ^ 9)) s = .running s' ∧
      Held cfg (t + 5 * 10 ^ 9) s' ∧ SameClients s s' ∧ s'.listener = s.listener ∧ s'.os.files.get fd = none ∧
      s'.os.closed = s.os.next :: s.os.closed := by
  have hkeys : ∀ fd, fd ∈ s.conns.map (·.1) ↔ s.conns.get fd ≠ none := by
    intro fd
    rw [List.mem_map]
    constructor
    · rintro ⟨e, he, rfl⟩
      rw [Assoc.mem_get h.serves.inv.sorted he]
      simp
    · intro hx
      obtain ⟨c, hc⟩ := Option.ne_none_iff_exists'.1 hx
      exact ⟨(fd, c), Assoc.get_mem hc, rfl⟩
  obtain ⟨s1, h1, h2, h3, h4, h5, h6⟩ := h.nudges (now := t + 5 * 10 ^ 9) (by omega) (Nat.le_refl _)
    [at_ (t + 5 * 10 ^ 9) (comes s.listener fd (t + 5 * 10 ^ 9))] (s.conns.map (·.1)) fun fd hm => (hkeys fd).1 hm
  have hlast : ∀ fd c, s1.conns.get fd = some c → Quiet c.sim ∧ t + 5 * 10 ^ 9 ≤ c.sim.last := by
    intro fd c hc
    refine ⟨(h2.quiet fd c hc).1, ?_⟩
    by_cases hm : fd ∈ s.conns.map (·.1)
    · exact Nat.le_of_eq ((h6 fd c hc).1 hm).symm
    · have := (h6 fd c hc).2 hm
      rw [hkeys, this] at hm
      simp at hm
  obtain ⟨s2, k1, k2, -⟩ := C59_accept h2.serves (ev := comes s.listener fd (t + 5 * 10 ^ 9)) (fd := fd)
    (now := t + 5 * 10 ^ 9) h5.symm rfl (by rw [h4]; exact hf)
  obtain ⟨k2, k3, -, k5, -, k7⟩ := k2 h2.full
  have hi := h2.iteration (Nat.le_refl _) k1
  have hev : handleEvents cfg [comes s.listener fd (t + 5 * 10 ^ 9)] s1 = .ok s2 := by
    simp [handleEvents, k1, bind, Outcome.bind]
  have hreach := iteration_reach (P := anyEv) (fun _ _ _ _ => trivial) hi
  have hr : s2.terminated = false := (events_terminated _ h2.serves.inv hev).trans h2.runs
  refine ⟨s2, ?_, ⟨h2.serves.reach hreach, by rw [k3]; exact h2.polls, hr, by rw [k2]; exact h2.full,
    by rw [k2]; exact hlast⟩, ?_, ?_, ?_, ?_⟩
  · rw [Server.turn, h1, run_cons h2.runs hi, run, hr]
    simp
  · intro fd c hc
    obtain ⟨c', h⟩ := h3 fd c hc
    exact ⟨c', by rw [k2]; exact h⟩
  · exact (h2.serves.inv.step k1).terminated.2.1.trans h5
  · rw [k5, h4]; exact hf
  · rw [k7, h4]

/-- C135, holding: 128 clients that send one frame without meaning each every five seconds keep all others out
for ever. Every turn, a client that comes is closed at once. -/
theorem C135_hold {cfg : Cfg W} {t : Nat} {s : Server W} (h : Held cfg t s) {fd : Nat}
    (hf : s.os.files.get fd = none) :
    ∃ f : Nat → Server W, f 0 = s ∧ ∀ k,
      run cfg (turn s.listener ((f k).conns.map (·.1)) fd (t + (k + 1) * (5 * 10 ^ 9))) (f k) = .running (f (k + 1)) ∧
      (f (k + 1)).os.closed = (f k).os.next :: (f k).os.closed ∧
      (f k).conns.length = 128 ∧ SameClients s (f k) := by
  let P := fun k (x : Server W) => Held cfg (t + k * (5 * 10 ^ 9)) x ∧ SameClients s x ∧ x.listener = s.listener ∧
    x.os.files.get fd = none
  have step : ∀ k (x : {x // P k x}), ∃ y : {x // P (k + 1) x},
      run cfg (turn s.listener (x.1.conns.map (·.1)) fd (t + (k + 1) * (5 * 10 ^ 9))) x.1 = .running y.1 ∧
      y.1.os.closed = x.1.os.next :: x.1.os.closed := by
    rintro k ⟨x, h1, h2, h3, h4⟩
    obtain ⟨y, k1, k2, k3, k4, k5, k6⟩ := h1.turn h4
    have ht : t + k * (5 * 10 ^ 9) + 5 * 10 ^ 9 = t + (k + 1) * (5 * 10 ^ 9) := by omega
    rw [ht] at k1 k2
    rw [h3] at k1 k4
    exact ⟨⟨y, k2, h2.trans k3, k4, k5⟩, k1, k6⟩
  let f : (k : Nat) → {x // P k x} := fun k => Nat.rec
    ⟨s, by simpa using h, fun fd c hc => ⟨c, hc, rfl, rfl⟩, rfl, hf⟩ (fun k x => Classical.choose (step k x)) k
  refine ⟨fun k => (f k).1, rfl, fun k => ?_⟩
  obtain ⟨h1, h2⟩ := Classical.choose_spec (step k (f k))
  exact ⟨h1, h2, (f k).2.1.full, (f k).2.2.1⟩

theorem reap_filter {s : Server W} (hi : Inv s) (now : Nat → Nat) :
    (s.reapIdle now).conns = s.conns.filter fun e => !e.2.sim.hasTimedOut (now e.1) := by
  refine Assoc.ext (hi.reap now).sorted (hi.sorted.filter _) fun fd => ?_
  rw [reap_get hi]
  cases hc : s.conns.get fd with
  | none =>
    cases hx : Assoc.get (s.conns.filter fun e => !e.2.sim.hasTimedOut (now e.1)) fd with
    | none => rfl
    | some c =>
      have := Assoc.mem_get hi.sorted (List.mem_filter.1 (Assoc.get_mem hx)).1
      rw [hc] at this
      cases this
  | some c =>
    cases ht : c.sim.hasTimedOut (now fd) with
    | false =>
      simp only [ht, Bool.false_eq_true, if_false]
      exact (Assoc.mem_get (m := s.conns.filter fun e => !e.2.sim.hasTimedOut (now e.1)) (hi.sorted.filter _)
        (List.mem_filter.2 ⟨Assoc.get_mem hc, by simp [ht]⟩)).symm
    | true =>
      simp only [ht, if_true]
      cases hx : Assoc.get (s.conns.filter fun e => !e.2.sim.hasTimedOut (now e.1)) fd with
      | none => rfl
      | some c' =>
        obtain ⟨h1, h2⟩ := List.mem_filter.1 (Assoc.get_mem hx)
        have := Assoc.mem_get hi.sorted h1
        rw [hc] at this
        cases this
        simp [ht] at h2

/-- C135, room: if a place is free, or one of the connections has made no progress for more than five seconds,
a client that comes gets a connection in the iteration that finds it. -/
theorem C135_room_partial {cfg : Cfg W} {s : Server W} (h : Serves cfg s) (hp : s.poller.created = true)
    {it : Iter} {ev : PollEv} {fd now : Nat} (hi : it.poll = some [ev]) (hl : ev.fd = s.listener)
    (ha : ev.accept = .client fd true true now) (hf : (s.reapIdle it.now).os.files.get fd = none)
    (hroom : s.conns.length < 128 ∨
      ∃ s0 fd0 t0 w c0 c, Serves cfg s0 ∧ s0.conns.get fd0 = some c0 ∧ c0.sim = Sim.init w t0 ∧
        Reach cfg anyEv s0 s ∧ s.conns.get fd0 = some c ∧ c.file = c0.file ∧
        Sim.lastProgress t0 c.sim.trace + 5 * 10 ^ 9 < it.now fd0) :
    ∃ s' file w, s.iteration cfg it = .ok s' ∧ s'.conns.get fd = some ⟨file, Sim.init w now⟩ ∧
      s'.os.files.get fd = some file ∧ file ∉ s'.os.closed := by
  have hinv := h.inv
  have hr : Serves cfg (s.reapIdle it.now) := h.reach (.reap s it.now .start)
  have hlen : (s.reapIdle it.now).conns.length < 128 := by
    rw [reap_filter hinv]
    rcases hroom with hlt | ⟨s0, fd0, t0, w, c0, c, k1, k2, k3, k4, k5, k6, k7⟩
    · exact Nat.lt_of_le_of_lt (List.length_filter_le _ _) hlt
    · have hgone := ((C62_reap k1 k2 k3 k4 k5 k6 it.now).1 k7).1
      have hle : s.conns.length ≤ 128 := hinv.len
      refine Nat.lt_of_lt_of_le (List.length_filter_lt_length_iff_exists.2 ⟨(fd0, c), Assoc.get_mem k5, ?_⟩) hle
      intro hx
      rw [reap_get hinv, k5] at hgone
      simp only [Bool.not_eq_true'] at hx
      simp [hx] at hgone
  obtain ⟨s1, h1, -, h2⟩ := C59_accept hr (ev := ev) (hl.trans (reap_same hinv it.now).2.1.symm) ha hf
  obtain ⟨h3, h4, -, -⟩ := h2 hlen
  have hiter : s.iteration cfg it = .ok (it.stops.foldl stop s1) := by
    rw [Server.iteration]
    simp only [(reap_same hinv it.now).2.2, hp, hi, if_true, handleEvents, h1, bind, Outcome.bind]
  have hstop : ∀ (l : List StopReason) (x : Server W), (l.foldl stop x).conns = x.conns ∧ (l.foldl stop x).os = x.os := by
    intro l
    induction l with
    | nil => exact fun x => ⟨rfl, rfl⟩
    | cons a l ih => exact fun x => ih (stop x a)
  refine ⟨_, _, _, hiter, by rw [(hstop _ _).1]; exact h3,
    by rw [(hstop _ _).2]; exact h4, ?_⟩
  rw [(hstop _ _).2]
  exact fun hx => (((hr.inv.step h1).inv hr.inv).closed _ |>.1 hx).2.2 fd _ h3 rfl

/-! ### A server held -/

/-- 128 clients connect and send preface and SETTINGS. -/
def exCrowd : List PollEv :=
  (List.range 128).flatMap fun i => [exAccept (i + 4), exRead (i + 4) (exEnv (clientPreface ++ exSettings) [36])]

instance (s : Sim W) : Decidable (Quiet s) :=
  decidable_of_iff (s.st = .awaitingFrame ∧ s.rbuf = [] ∧ s.wbuf = [])
    ⟨fun h => ⟨h.1, h.2.1, h.2.2⟩, fun h => ⟨h.st, h.rbuf, h.wbuf⟩⟩

set_option maxRecDepth 100000 in
theorem exCrowd_held : ∃ s, Held exCfg 0 s ∧ s.os.files.get 200 = none := by
  have : Shows exCfg 0 3 exCrowd fun s => s.poller.created && !s.terminated && s.conns.length == 128 &&
      s.conns.all (fun e => decide (Quiet e.2.sim)) && (s.os.files.get 200).isNone := by decide +kernel
  obtain ⟨s, h1, h2⟩ := this.serves
  simp only [Bool.and_eq_true, Bool.not_eq_true', beq_iff_eq, List.all_eq_true, decide_eq_true_eq,
    Option.isNone_iff_eq_none] at h2
  exact ⟨s, ⟨h1, h2.1.1.1.1, h2.1.1.1.2, h2.1.1.2, fun fd c hc => ⟨h2.1.2 _ (Assoc.get_mem hc), Nat.zero_le _⟩⟩, h2.2⟩

/-- C135 is false: a server that has started can be held full for ever by clients that make no request. -/
theorem C135_refuted : ∃ (f : Nat → Server Nat) (its : Nat → List Iter), Serves exCfg (f 0) ∧ ∀ k,
    run exCfg (its k) (f k) = .running (f (k + 1)) ∧
    (∃ ev, (its k).getLast?.bind (·.poll) = some [ev] ∧ ev.fd = (f 0).listener ∧
      ∃ fd now, ev.accept = .client fd true true now ∧ (k + 1) * (5 * 10 ^ 9) = now) ∧
    (f (k + 1)).os.closed = (f k).os.next :: (f k).os.closed ∧
    (f k).conns.length = 128 ∧ SameClients (f 0) (f k) := by
  obtain ⟨s, h1, h2⟩ := exCrowd_held
  obtain ⟨f, rfl, h4⟩ := C135_hold h1 h2
  refine ⟨f, fun k => _, h1.serves, fun k => ⟨(h4 k).1, ?_, (h4 k).2⟩⟩
  exact ⟨comes (f 0).listener 200 (0 + (k + 1) * (5 * 10 ^ 9)), by simp [turn, at_], rfl, _, _, rfl, by omega⟩

/-- The hypotheses of `C135_room_partial`: the server is full, and more than five seconds after all clients fell silent a client that comes
gets a connection; after five seconds it does not. -/
def exComes (now : Nat) : Iter := at_ now (comes 3 200 now)

set_option maxRecDepth 100000 in
example : ∃ s, Serves exCfg s ∧ (s.poller.created && s.conns.length == 128 && s.listener == 3 &&
    ((s.reapIdle (exComes 5000000004).now).os.files.get 200).isNone &&
    (match s.iteration exCfg (exComes 5000000004) with
      | .ok s' => s'.conns.map Prod.fst == [200]
      | _ => false) &&
    (match s.iteration exCfg (exComes 5000000003) with
      | .ok s' => s'.conns.length == 128 && s'.os.closed == [129]
      | _ => false)) = true :=
  Shows.serves (w := 0) (listener := 3) (evs := exCrowd) (by decide +kernel)

end Server
end Ion
