import Verif.Props.ServerFull

/-!
# Silent clients leave on time (C139)

C62 says what one round of `reap_idle_connections` does. C139 adds time: the loop goes round at least once per poll
timeout and the time its own work takes, so a connection stays at most that much longer than five seconds after its
last progress.
-/

namespace Ion
namespace Server
open Sim
variable {W : Type}

/-- `POLL_TIMEOUT` (lib/http2_server.cpp:17) in nanoseconds: the argument of `poll` (lib/http2_server.cpp:132). -/
def pollTimeout : Nat := 25 * 10 ^ 6

/-- What the transport reports, it reports at `b` or later. -/
structure EnvFrom (b : Nat) (env : Env) : Prop where
  hs : ∀ t, env.hs = .done t → b ≤ t
  reads : ∀ bs t, ReadRes.data bs t ∈ env.reads → b ≤ t
  writes : ∀ n t, WriteRes.wrote n t ∈ env.writes → b ≤ t

/-- What happens in an iteration happens at `b` or later. -/
structure IterFrom (b : Nat) (it : Iter) : Prop where
  asked : ∀ fd, b ≤ it.now fd
  events : ∀ evs, it.poll = some evs → ∀ ev ∈ evs,
    EnvFrom b ev.env ∧ ∀ fd nb tr t, ev.accept = .client fd nb tr t → b ≤ t

/-- The server goes round its loop: from state `s` at time `b` to state `s'` at time `b'`, both at the top of the
loop. Each iteration calls `poll` once, which returns after at most the poll timeout; everything else in an
iteration takes at most `work`. -/
inductive Rounds (cfg : Cfg W) (work : Nat) : Nat → Server W → Nat → Server W → Prop
  | start (b : Nat) (s : Server W) : Rounds cfg work b s b s
  | round {b b1 b2 : Nat} {s s1 s2 : Server W} (h : Rounds cfg work b s b1 s1) (it : Iter) (hf : IterFrom b1 it)
      (hi : s1.iteration cfg it = .ok s2) (polls returns : Nat) (h1 : b1 ≤ polls) (h2 : polls ≤ returns)
      (h3 : returns ≤ b2) (hp : returns ≤ polls + pollTimeout) (hw : (polls - b1) + (b2 - returns) ≤ work) :
      Rounds cfg work b s b2 s2

/-- Progress was made at `b` or later, or is as it was. -/
structure LastFrom (b l : Nat) (s : Sim W) : Prop where
  last : s.last = l ∨ b ≤ s.last
  hs : ∀ t, s.hs = .done t → b ≤ t
  reads : ∀ bs t, ReadRes.data bs t ∈ s.reads → b ≤ t
  writes : ∀ n t, WriteRes.wrote n t ∈ s.writes → b ≤ t

theorem LastFrom.same {b l : Nat} {s s' : Sim W} (h : LastFrom b l s) (h1 : s'.last = s.last) (h2 : s'.hs = s.hs)
    (h3 : s'.reads = s.reads) (h4 : s'.writes = s.writes) : LastFrom b l s' :=
  ⟨by rw [h1]; exact h.last, by rw [h2]; exact h.hs, by rw [h3]; exact h.reads, by rw [h4]; exact h.writes⟩

theorem LastFrom.flush {b l : Nat} {s s' : Sim W} (h : LastFrom b l s) (hf : s.flush = .ok s') :
    LastFrom b l s' := by
  rw [Sim.flush] at hf
  split at hf
  · cases hf; exact h
  · have ht : ∀ n t, WriteRes.wrote n t ∈ s.writes.tail → b ≤ t :=
      fun n t hm => h.writes n t (List.mem_of_mem_tail hm)
    simp only at hf
    split at hf
    · cases hf; exact ⟨h.last, h.hs, h.reads, ht⟩
    · cases hf; exact ⟨h.last, h.hs, h.reads, ht⟩
    · rename_i n t hr
      split at hf
      · cases hf
      · cases hf
        refine ⟨.inr (h.writes n t ?_), h.hs, h.reads, ht⟩
        cases hs : s.writes with
        | nil => rw [hs] at hr; cases hr
        | cons x xs => rw [hs] at hr; simp only [List.headD_cons] at hr; rw [hr]; exact List.mem_cons_self ..

theorem readFailed_same (s : Sim W) (e : TErr) : (s.readFailed e).last = s.last ∧ (s.readFailed e).hs = s.hs ∧
    (s.readFailed e).writes = s.writes := by
  cases e <;> exact ⟨rfl, rfl, rfl⟩

theorem LastFrom.fillLoop {b l : Nat} (rs : List ReadRes) : ∀ {s : Sim W}, LastFrom b l { s with reads := rs } →
    LastFrom b l (Sim.fillLoop rs s) := by
  induction rs with
  | nil =>
    intro s h
    rw [Sim.fillLoop]
    split
    · exact h
    · have := readFailed_same s .wantReadOrWrite
      exact h.same this.1 this.2.1 rfl this.2.2
  | cons r rs ih =>
    intro s h
    simp only [Sim.fillLoop]
    have ht : ∀ bs t, ReadRes.data bs t ∈ rs → b ≤ t := fun bs t hm => h.reads bs t (List.mem_cons_of_mem _ hm)
    split
    · exact h
    · split
      · rename_i e
        have := readFailed_same s e
        have hx : LastFrom b l ({ s with reads := rs } : Sim W) := ⟨h.last, h.hs, ht, h.writes⟩
        exact hx.same this.1 this.2.1 rfl this.2.2
      · rename_i bs t
        exact ih ⟨.inr (h.reads bs t (List.mem_cons_self ..)), h.hs, ht, h.writes⟩

theorem LastFrom.tryRead {cfg : Cfg W} {b l : Nat} {s s' : Sim W} {r : Bool} (h : LastFrom b l s)
    (hf : s.tryReadFrame cfg = .ok (r, s')) : LastFrom b l s' := by
  rw [Sim.tryReadFrame] at hf
  split at hf
  · cases hf; exact h
  · obtain ⟨hd, h1, h2⟩ := Outcome.bind_eq_ok.1 hf
    split at h2
    · cases h2; exact h.same rfl rfl rfl rfl
    · simp only at h2
      split at h2
      · cases h2; exact h
      · obtain ⟨s1, h3, h4⟩ := Outcome.bind_eq_ok.1 h2
        cases h4
        obtain ⟨-, a, b, c, d⟩ := (processFrame_ok h3).rbuf
        exact h.same a b c d

theorem LastFrom.frameCase {cfg : Cfg W} {b l : Nat} {s s' : Sim W} {r : Option ProcRes} (h : LastFrom b l s)
    (hf : s.frameCase cfg = .ok (r, s')) : LastFrom b l s' := by
  rw [Sim.frameCase] at hf
  obtain ⟨⟨again, s1⟩, h1, h2⟩ := Outcome.bind_eq_ok.1 hf
  have := h.tryRead h1
  simp only at h2
  split at h2 <;> cases h2 <;> exact this

theorem LastFrom.dispatch {cfg : Cfg W} {b l : Nat} {s s' : Sim W} {r : Option ProcRes} (h : LastFrom b l s)
    (hf : s.dispatch cfg = .ok (r, s')) : LastFrom b l s' := by
  rw [Sim.dispatch] at hf
  split at hf
  · rw [Sim.readPreface] at hf
    split at hf
    · rename_i s1 h1
      split at h1
      · cases h1
      · split at h1
        · cases h1
        · cases h1
          refine LastFrom.frameCase ?_ hf
          exact h.same rfl rfl rfl rfl
    · rename_i s1 h1
      cases hf
      split at h1
      · cases h1; exact h
      · split at h1 <;> cases h1
    · rename_i s1 h1
      cases hf
      split at h1
      · cases h1
      · split at h1 <;> cases h1
        exact h
  · exact h.frameCase hf
  · cases hf; exact h.same rfl rfl rfl rfl
  · cases hf
    rw [Sim.close]
    split
    · exact h
    · exact h.same rfl rfl rfl rfl
  · cases hf; exact h
  · cases hf; exact h.same rfl rfl rfl rfl

theorem LastFrom.turn {cfg : Cfg W} {b l : Nat} {s s' : Sim W} {r : Option ProcRes} (h : LastFrom b l s)
    (hf : s.turn cfg = .ok (r, s')) : LastFrom b l s' := by
  rw [Sim.turn] at hf
  obtain ⟨s1, h1, h2⟩ := Outcome.bind_eq_ok.1 hf
  have h3 := h.flush h1
  split at h2
  · cases h2; exact h3
  · exact LastFrom.dispatch (LastFrom.fillLoop s1.reads (s := s1) h3) h2

theorem LastFrom.iter {cfg : Cfg W} {b l : Nat} {s s' : Sim W} {r : Option ProcRes} (h : LastFrom b l s)
    (hf : s.iter cfg = .ok (r, s')) : LastFrom b l s' := by
  rw [Sim.iter] at hf
  split at hf
  · rw [Sim.handleHandshake] at hf
    split at hf
    · rename_i r1 s1 h1
      cases hf
      split at h1 <;> cases h1 <;> exact h
    · rename_i s1 h1
      split at h1
      · rename_i t ht
        cases h1
        refine LastFrom.turn ?_ hf
        exact ⟨.inr (h.hs t ht), h.hs, h.reads, h.writes⟩
      · cases h1
      · cases h1
  · exact h.turn hf

theorem LastFrom.loop {cfg : Cfg W} {b l : Nat} (n : Nat) : ∀ {s s' : Sim W} {r : ProcRes}, LastFrom b l s →
    s.loop cfg n = .ok (r, s') → LastFrom b l s' := by
  induction n with
  | zero => intro s s' r _ h; cases h
  | succ n ih =>
    intro s s' r h hf
    rw [Sim.loop] at hf
    obtain ⟨⟨r1, s1⟩, h1, h2⟩ := Outcome.bind_eq_ok.1 hf
    have h3 := h.iter h1
    simp only at h2
    split at h2
    · cases h2; exact h3
    · exact ih h3 h2

/-- A call leaves the time of the last progress, or sets it to a time at which the transport reported something. -/
theorem process_last {cfg : Cfg W} {b : Nat} {env : Env} {s s' : Sim W} {r : ProcRes} (he : EnvFrom b env)
    (h : s.process cfg env = .ok (r, s')) : s'.last = s.last ∨ b ≤ s'.last := by
  rw [Sim.process] at h
  obtain ⟨⟨r1, s1⟩, h1, h2⟩ := Outcome.bind_eq_ok.1 h
  cases h2
  have := LastFrom.loop _ (b := b) (l := s.last) ?_ h1
  · exact this.last
  · exact ⟨.inl rfl, he.hs, he.reads, he.writes⟩

/-- No connection made its last progress more than five seconds before `b`. -/
def Recent (b : Nat) (s : Server W) : Prop := ∀ fd c, s.conns.get fd = some c → b ≤ c.sim.last + 5 * 10 ^ 9

theorem Recent.reap {b : Nat} {s : Server W} (hi : Inv s) {now : Nat → Nat} (h : ∀ fd, b ≤ now fd) :
    Recent b (s.reapIdle now) := by
  intro fd c hc
  rw [reap_get hi] at hc
  split at hc
  · split at hc
    · cases hc
    · rename_i ht
      cases hc
      have := h fd
      simp [hasTimedOut, idleTimeout] at ht
      omega
  · cases hc

theorem Recent.event {cfg : Cfg W} {b : Nat} {s s' : Server W} {ev : PollEv} (h : Recent b s)
    (hs : EvStep cfg s ev s') (he : EnvFrom b ev.env)
    (ha : ∀ fd nb tr t, ev.accept = .client fd nb tr t → b ≤ t) : Recent b s' := by
  intro fd c hc
  cases hs with
  | accepted fd' now hl hacc hf hlen =>
    rw [(pollSet_conns _ _ _ _).1] at hc
    simp only [Assoc.get_put] at hc
    split at hc
    · cases hc
      exact Nat.le_trans (ha _ _ _ _ hacc) (Nat.le_add_right ..)
    · exact h fd c hc
  | processed c' r sim hl hx hg hr hp =>
    have hu : ∀ c, ((s.before ev).updated ev.fd c' sim).conns.get fd = some c → b ≤ c.sim.last + 5 * 10 ^ 9 := by
      intro c hc
      simp only [updated, Assoc.get_put] at hc
      split at hc
      · cases hc
        have h3 := h _ _ hx
        rcases process_last he hp with h4 | h4
        · rw [h4]; exact h3
        · exact Nat.le_trans h4 (Nat.le_add_right ..)
      · rw [(before_same s ev).1] at hc
        exact h fd c hc
    cases r with
    | wantRead => exact hu c hc
    | wantWrite =>
      simp only [after] at hc
      rw [(pollSet_conns _ _ _ _).1] at hc
      exact hu c hc
    | discard =>
      simp only [after, dropped, Assoc.get_del] at hc
      split at hc
      · cases hc
      · exact hu c hc
  | gone c' hl hx hg =>
    simp only [dropped, Assoc.get_del] at hc
    split at hc
    · cases hc
    · exact h fd c hc
  | _ => exact h fd c hc

theorem Recent.events {cfg : Cfg W} {b : Nat} (evs : List PollEv) : ∀ {s s' : Server W}, Inv s → Recent b s →
    (∀ ev ∈ evs, EnvFrom b ev.env ∧ ∀ fd nb tr t, ev.accept = .client fd nb tr t → b ≤ t) →
    handleEvents cfg evs s = .ok s' → Recent b s' := by
  induction evs with
  | nil => intro s s' _ h _ he; cases he; exact h
  | cons ev evs ih =>
    intro s s' hi h hf he
    rw [handleEvents] at he
    obtain ⟨s1, h1, h2⟩ := Outcome.bind_eq_ok.1 he
    have hs := hi.step h1
    have hf1 := hf ev (List.mem_cons_self ..)
    exact ih (hs.inv hi) (h.event hs hf1.1 hf1.2) (fun x hx => hf x (List.mem_cons_of_mem _ hx)) h2

theorem Recent.stops {b : Nat} (l : List StopReason) : ∀ {s : Server W}, Recent b s → Recent b (l.foldl stop s) := by
  induction l with
  | nil => intro s h; exact h
  | cons x l ih => intro s h; exact ih (s := s.stop x) h

theorem Recent.iteration {cfg : Cfg W} {b : Nat} {s s' : Server W} {it : Iter} (hi : Inv s) (hf : IterFrom b it)
    (h : s.iteration cfg it = .ok s') : Recent b s' := by
  have hr := Recent.reap hi hf.asked
  rw [Server.iteration] at h
  simp only at h
  split at h
  · cases h
    exact Recent.stops _ hr
  · rename_i evs he
    obtain ⟨s1, h1, h2⟩ := Outcome.bind_eq_ok.1 h
    cases h2
    split at he
    · exact Recent.stops _ (Recent.events evs (hi.reap _) hr (hf.events evs he) h1)
    · cases he

theorem Rounds.reach {cfg : Cfg W} {work b b' : Nat} {s s' : Server W} (h : Rounds cfg work b s b' s') :
    Reach cfg anyEv s s' := by
  induction h with
  | start => exact .start
  | round h it hf hi polls returns h1 h2 h3 hp hw ih =>
    exact ih.trans (iteration_reach (fun _ _ _ _ => trivial) hi)

/-- The socket of a connection is closed, or the connection is still there, on the same descriptor. -/
theorem Reach.here {cfg : Cfg W} {P : PollEv → Prop} {s0 s : Server W} (h0 : Inv s0) {fd : Nat} {c0 : Conn W}
    (hc0 : s0.conns.get fd = some c0) (h : Reach cfg P s0 s) :
    c0.file < s.os.next ∧ ∀ fd' c, s.conns.get fd' = some c → c.file = c0.file → fd' = fd := by
  induction h with
  | start => exact ⟨(h0.lt _ _ hc0).2, fun fd' c hc hf => h0.inj _ _ _ _ hc hc0 hf⟩
  | reap s now hr ih =>
    refine (reap_induct (P := fun s => c0.file < s.os.next ∧
      ∀ fd' c, s.conns.get fd' = some c → c.file = c0.file → fd' = fd) now ?_ (hr.inv h0) ih).2
    intro s fd' c hi hp hc ht
    refine ⟨hp.1, fun fd'' c' hx => ?_⟩
    simp only [Server.dropped, Assoc.get_del] at hx
    split at hx
    · cases hx
    · exact hp.2 fd'' c' hx
  | event s s' ev hr hp he ih =>
    have hi := hr.inv h0
    have hs := hi.step he
    refine ⟨Nat.lt_of_lt_of_le ih.1 (hs.next_le hi), fun fd' c hc hf => ?_⟩
    rcases hs.conns hi hc with h | ⟨_, h, _⟩ | ⟨_, c1, r, h1, h2, _⟩
    · exact ih.2 fd' c h hf
    · have := ih.1
      omega
    · exact ih.2 fd' c1 h1 (h2.symm.trans hf)
  | stop s r hr ih => exact ih

/-- C139: while the loop goes round, having done so at least once, the last progress of each connection was at most
five seconds, the poll timeout and the time an iteration's own work takes ago. -/
theorem C139_recent {cfg : Cfg W} {work b b' : Nat} {s s' : Server W} (hs : Serves cfg s)
    (h : Rounds cfg work b s b' s') (hn : b < b') {fd : Nat} {c : Conn W} (hc : s'.conns.get fd = some c) :
    b' ≤ c.sim.last + 5 * 10 ^ 9 + 25 * 10 ^ 6 + work := by
  cases h with
  | start => omega
  | round h it hf hi polls returns h1 h2 h3 hp hw =>
    have := Recent.iteration (h.reach.inv hs.inv) hf hi fd c hc
    rw [pollTimeout] at hp
    omega

/-- C139, for a client: take a connection created at clock value `t0`, and let the loop go round at least once, until
`b'`. Then its socket is closed, or the connection is still there and its last progress (or its creation) was at most
five seconds, 25 milliseconds and the time an iteration's own work takes ago. -/
theorem C139_leaves {cfg : Cfg W} {work b b' : Nat} {s0 s s' : Server W} (h0 : Serves cfg s0) {fd t0 : Nat} {w : W}
    {c0 : Conn W} (hc0 : s0.conns.get fd = some c0) (hi : c0.sim = Sim.init w t0) (hr : Reach cfg anyEv s0 s)
    (h : Rounds cfg work b s b' s') (hn : b < b') :
    c0.file ∈ s'.os.closed ∨
    ∃ c, s'.conns.get fd = some c ∧ c.file = c0.file ∧
      b' ≤ lastProgress t0 c.sim.trace + 5 * 10 ^ 9 + 25 * 10 ^ 6 + work := by
  have hr' := hr.trans h.reach
  have hinv := hr'.inv h0.inv
  obtain ⟨h1, h2⟩ := hr'.here h0.inv hc0
  by_cases hx : ∃ c, s'.conns.get fd = some c ∧ c.file = c0.file
  · obtain ⟨c, hc, hf⟩ := hx
    refine .inr ⟨c, hc, hf, ?_⟩
    have h3 := C139_recent (h0.reach hr) h hn hc
    obtain ⟨ws, ha⟩ := (hr'.since h0.inv hc0 (hi ▸ Alone.init cfg w t0)).2 c hc hf
    have h4 := (ha ([], s'.world)).steps.last
    rw [show lastProgress t0 c.sim.trace = c.sim.last from h4.symm]
    exact h3
  · refine .inl ((hinv.closed _).2 ⟨(h0.inv.lt _ _ hc0).1, h1, fun fd' c hc hf => hx ⟨c, ?_, hf⟩⟩)
    rw [← h2 fd' c hc hf]
    exact hc

/-- Rounds in which nothing happens and `poll` waits for its whole timeout. -/
theorem idleRounds (cfg : Cfg W) {s : Server W} (hi : Inv s) (b n : Nat) :
    ∃ s', Rounds cfg 0 b s (b + n * pollTimeout) s' ∧
      ∀ fd c, s'.conns.get fd = some c → s.conns.get fd = some c := by
  induction n with
  | zero => exact ⟨s, by simpa using Rounds.start b s, fun _ _ h => h⟩
  | succ n ih =>
    obtain ⟨s', h1, h2⟩ := ih
    have hi' := h1.reach.inv hi
    refine ⟨s'.reapIdle fun _ => b + n * pollTimeout, .round h1 { now := fun _ => b + n * pollTimeout }
      ⟨fun _ => Nat.le_refl _, fun evs h => by cases h⟩ ?_ (b + n * pollTimeout) (b + (n + 1) * pollTimeout)
      (Nat.le_refl _) (by rw [Nat.succ_mul]; omega) (Nat.le_refl _) (by rw [Nat.succ_mul]; omega) (by omega), ?_⟩
    · rw [Server.iteration]
      simp only [ite_self, List.foldl_nil]
      rfl
    · intro fd c hc
      rw [reap_get hi'] at hc
      cases hx : s'.conns.get fd with
      | none => rw [hx] at hc; cases hc
      | some c' =>
        rw [hx] at hc
        simp only at hc
        split at hc
        · cases hc
        · cases hc; exact h2 fd _ hx

/-- A client connects at time 0 and stays silent; after 202 rounds its socket is closed. -/
example : ∃ s s', (begin 0 3 true false).handleEvent exCfg (exAccept 5) = .ok s ∧
    s.conns.get 5 = some ⟨1, Sim.init 0 0⟩ ∧ Rounds exCfg 0 0 s (0 + 202 * pollTimeout) s' ∧ 1 ∈ s'.os.closed := by
  have hb : Serves exCfg (begin 0 3 true false) := ⟨0, 3, true, false, .start⟩
  obtain ⟨s, h1, -, h2⟩ := C59_accept hb (ev := exAccept 5) (fd := 5) (now := 0) rfl rfl (by decide +kernel)
  obtain ⟨h3, -, -, -⟩ := h2 (by decide +kernel)
  have hs : Serves exCfg s := hb.reach (.event _ _ _ .start trivial h1)
  obtain ⟨s', h4, h5⟩ := idleRounds exCfg hs.inv 0 202
  refine ⟨s, s', h1, h3, h4, ?_⟩
  rcases C139_leaves hs h3 rfl .start h4 (by decide) with h6 | ⟨c, h6, h7, h8⟩
  · exact h6
  · have := C139_recent hs h4 (by decide) h6
    have h9 := h5 5 c h6
    rw [h3] at h9
    cases h9
    simp [pollTimeout, Sim.init] at this

end Server
end Ion
