import Verif.Lemmas.ConnReplay
import Verif.Lemmas.Server
import Verif.Spec.Server
import Verif.Props.ConnTotal

/-! # The server (C59–C64, C78–C81) -/

namespace Ion.Server
variable {W : Type}

/-! ### Histories -/

theorem Reach.inv {cfg : Cfg W} {P : PollEv → Prop} {s0 s : Server W} (h0 : Inv s0)
    (h : Reach cfg P s0 s) : Inv s := by
  induction h with
  | start => exact h0
  | reap s now _ ih => exact ih.reap now
  | event s s' ev _ _ he ih => exact (ih.step he).inv ih
  | stop s r _ ih => exact ih.stop r

theorem Serves.inv {cfg : Cfg W} {s : Server W} (h : Serves cfg s) : Inv s := by
  obtain ⟨w, l, c, f, h⟩ := h
  exact h.inv (Inv.begin _ _ _ _)

theorem Reach.weaken {cfg : Cfg W} {P Q : PollEv → Prop} {s0 s : Server W} (hpq : ∀ ev, P ev → Q ev)
    (h : Reach cfg P s0 s) : Reach cfg Q s0 s := by
  induction h with
  | start => exact .start
  | reap s now _ ih => exact .reap s now ih
  | event s s' ev _ hp he ih => exact .event s s' ev ih (hpq _ hp) he
  | stop s r _ ih => exact .stop s r ih

theorem ServesWell.serves {cfg : Cfg W} {s : Server W} (h : ServesWell cfg s) : Serves cfg s := by
  obtain ⟨w, l, h⟩ := h
  exact ⟨w, l, _, _, h.weaken fun _ _ => trivial⟩

theorem Reach.trans {cfg : Cfg W} {P : PollEv → Prop} {s0 s1 s : Server W} (h1 : Reach cfg P s0 s1)
    (h : Reach cfg P s1 s) : Reach cfg P s0 s := by
  induction h with
  | start => exact h1
  | reap s now _ ih => exact .reap s now ih
  | event s s' ev _ hp he ih => exact .event s s' ev ih hp he
  | stop s r _ ih => exact .stop s r ih

theorem events_reach {cfg : Cfg W} {P : PollEv → Prop} (evs : List PollEv) :
    ∀ {s s' : Server W}, (∀ ev ∈ evs, P ev) → handleEvents cfg evs s = .ok s' → Reach cfg P s s' := by
  induction evs with
  | nil =>
    intro s s' _ h
    cases h
    exact .start
  | cons ev evs ih =>
    intro s s' hp h
    rw [handleEvents] at h
    obtain ⟨s1, h1, h2⟩ := Outcome.bind_eq_ok.1 h
    exact (Reach.event s s1 ev .start (hp ev (by simp)) h1).trans
      (ih (fun e he => hp e (List.mem_cons_of_mem _ he)) h2)

theorem stops_reach {cfg : Cfg W} {P : PollEv → Prop} (rs : List StopReason) (s : Server W) :
    Reach cfg P s (rs.foldl stop s) := by
  induction rs generalizing s with
  | nil => exact .start
  | cons r rs ih => exact (Reach.stop s r .start).trans (ih _)

theorem iteration_reach {cfg : Cfg W} {P : PollEv → Prop} {s s' : Server W} {it : Iter}
    (hp : ∀ evs, it.poll = some evs → ∀ ev ∈ evs, P ev)
    (h : s.iteration cfg it = .ok s') : Reach cfg P s s' := by
  rw [iteration] at h
  simp only at h
  split at h
  · cases h
    exact (Reach.reap s it.now .start).trans (stops_reach _ _)
  · rename_i evs he
    obtain ⟨s1, h1, h2⟩ := Outcome.bind_eq_ok.1 h
    cases h2
    refine Reach.trans ?_ (stops_reach _ _)
    refine (Reach.reap s it.now .start).trans ?_
    split at he
    · exact events_reach evs (hp evs he) h1
    · cases he

/-- Every state `start` gets to is one of the states between events the theorems below are about. -/
theorem run_reach {cfg : Cfg W} {P : PollEv → Prop} (its : List Iter) :
    ∀ {s s' : Server W}, (∀ it ∈ its, ∀ evs, it.poll = some evs → ∀ ev ∈ evs, P ev) →
      (run cfg its s = .running s' ∨ ∃ unused, run cfg its s = .returned s' unused) →
      Reach cfg P s s' := by
  induction its with
  | nil =>
    intro s s' _ h
    rw [run] at h
    split at h
    · rcases h with h | ⟨_, h⟩ <;> cases h
      exact .start
    · rcases h with h | ⟨_, h⟩ <;> cases h
      exact .start
  | cons it its ih =>
    intro s s' hp h
    rw [run] at h
    split at h
    · rcases h with h | ⟨_, h⟩ <;> cases h
      exact .start
    · rcases hi : s.iteration cfg it with s1 | e | u
      · simp only [hi] at h
        exact (iteration_reach (hp it (by simp)) hi).trans
          (ih (fun x hx => hp x (List.mem_cons_of_mem _ hx)) h)
      · simp only [hi] at h
        rcases h with h | ⟨_, h⟩ <;> cases h
      · simp only [hi] at h
        rcases h with h | ⟨_, h⟩ <;> cases h

theorem listener_dropped (s : Server W) (fd file : Nat) : (s.dropped fd file).listener = s.listener := rfl

/-! ### C59 -/

theorem distinct_le {V : Type} (l : List Nat) : ∀ (m : Assoc V), Assoc.Sorted m → l.Nodup →
    (∀ k ∈ l, m.get k ≠ none) → l.length ≤ m.length := by
  induction l with
  | nil => intros; exact Nat.zero_le _
  | cons k l ih =>
    intro m hm hl hk
    rw [List.nodup_cons] at hl
    obtain ⟨v, hv⟩ : ∃ v, m.get k = some v := by
      rcases hx : m.get k with _ | v
      · exact absurd hx (hk k (by simp))
      · exact ⟨v, rfl⟩
    have := ih (m.del k) (hm.del k) hl.2 (fun k' hk' => by
      have hne : k' ≠ k := by
        rintro rfl
        exact hl.1 hk'
      rw [Assoc.get_del_ne _ hne]
      exact hk k' (List.mem_cons_of_mem _ hk'))
    have := Assoc.length_del_of_get hm hv
    simp only [List.length_cons]
    omega

/-- C59: at any point between events, at most 128 client sockets are open. -/
theorem C59_limit {cfg : Cfg W} {s : Server W} (h : Serves cfg s) (fds : List Nat) (hd : fds.Nodup)
    (ho : ∀ fd ∈ fds, fd ≠ s.listener ∧ s.os.files.get fd ≠ none) : fds.length ≤ 128 := by
  have hi := h.inv
  refine Nat.le_trans (distinct_le fds s.conns hi.sorted hd fun fd hfd => ?_) hi.len
  obtain ⟨hn, hf⟩ := ho fd hfd
  rcases hx : s.os.files.get fd with _ | f
  · exact absurd hx hf
  · rcases (hi.files fd f).1 hx with ⟨h1, _⟩ | ⟨c, hc, _⟩
    · exact absurd h1 hn
    · simp [hc]

/-- C59: a client that connects while 128 are connected is accepted and closed at once; connections, poller,
world and open descriptors stay as they are. Below the limit it gets a connection. -/
theorem C59_accept {cfg : Cfg W} {s : Server W} (h : Serves cfg s) {ev : PollEv} {fd now : Nat}
    (hl : ev.fd = s.listener) (ha : ev.accept = .client fd true true now)
    (hf : s.os.files.get fd = none) :
    ∃ s', s.handleEvent cfg ev = .ok s' ∧
      (s.conns.length = 128 →
        s'.conns = s.conns ∧ s'.poller = s.poller ∧ s'.world = s.world ∧
        (∀ fd', s'.os.files.get fd' = s.os.files.get fd') ∧ s'.os.interest = s.os.interest ∧
        s'.os.closed = s.os.next :: s.os.closed) ∧
      (s.conns.length < 128 →
        s'.conns.get fd = some ⟨s.os.next, Sim.init s.world now⟩ ∧
        s'.os.files.get fd = some s.os.next ∧ s'.os.closed = s.os.closed ∧
        ∀ fd', fd' ≠ fd → s'.conns.get fd' = s.conns.get fd') := by
  have hi := h.inv
  have ho : s.os.files.has fd = false := (Assoc.has_false_iff _ _).2 hf
  by_cases hlen : s.conns.length < 128
  · have he : s.handleEvent cfg ev = .ok (Server.pollSet
        { s with conns := s.conns.put fd ⟨s.os.next, Sim.init s.world now⟩, os := s.os.install fd }
        fd .read ev.ctlFails1) := by
      rw [handleEvent, if_pos hl, handleIncoming, if_pos (by exact hlen), establishConn]
      simp [ha, tryAccept, ho, Os.install]
    refine ⟨_, he, fun hx => by omega, fun _ => ?_⟩
    have hacc := hi.accept hf hlen (Sim.init s.world now)
    rw [hacc.pollSet_eq (by simp [Os.install])]
    split
    · refine ⟨by simp, by simp [Os.install], rfl, fun fd' hne => ?_⟩
      exact Assoc.get_put_ne _ _ hne
    · refine ⟨by simp, by simp [Os.install], rfl, fun fd' hne => ?_⟩
      exact Assoc.get_put_ne _ _ hne
  · have he : s.handleEvent cfg ev = .ok { s with os := (s.os.install fd).close fd } := by
      rw [handleEvent, if_pos hl, handleIncoming, if_neg (by exact hlen)]
      simp [ha, tryAccept, ho]
    refine ⟨_, he, fun _ => ?_, fun hx => absurd hx hlen⟩
    have hint : s.os.interest.get fd = none := by
      rw [hi.table]
      rcases hx : s.poller.table.get fd with _ | v
      · rfl
      · rcases hi.reg fd (by simp [hx]) with hr | hr
        · rw [(hi.files fd 0).2 (.inl ⟨hr, rfl⟩)] at hf
          cases hf
        · rcases hy : s.conns.get fd with _ | c
          · exact absurd hy hr
          · rw [hi.isOpen hy] at hf
            cases hf
    refine ⟨rfl, rfl, rfl, fun fd' => ?_, ?_, ?_⟩
    · simp only [Os.install, Os.close, Assoc.get_put_self, Assoc.get_del, Assoc.get_put]
      split
      · rename_i hx
        rw [hx, hf]
      · rfl
    · simp [Os.install, Os.close, Assoc.del_of_get_none hint]
    · simp [Os.install, Os.close]

/-! ### C60 -/

/-- C60, ownership: at any point between events, a client descriptor is open exactly if the server keeps a
connection for it, and it is that connection's own socket (not another one under the same number); no
descriptor was closed that was not open; every client socket the kernel ever handed out is either the
socket of a connection or was closed, once; the listener is open; every descriptor registered with the
kernel is the listener or has a connection, and the poller's table agrees with the kernel's. -/
theorem C60_descriptors {cfg : Cfg W} {s : Server W} (h : Serves cfg s) :
    (∀ fd f, fd ≠ s.listener →
      (s.os.files.get fd = some f ↔ ∃ c, s.conns.get fd = some c ∧ c.file = f)) ∧
    s.os.bad = 0 ∧ s.os.closed.Nodup ∧
    (∀ f, 0 < f → f < s.os.next →
      (f ∈ s.os.closed ↔ ¬∃ fd c, s.conns.get fd = some c ∧ c.file = f)) ∧
    s.os.files.get s.listener = some 0 ∧
    (∀ fd, s.os.interest.get fd ≠ none → fd = s.listener ∨ ∃ c, s.conns.get fd = some c) ∧
    ∀ fd, s.os.interest.get fd = (s.poller.table.get fd).map toEpoll := by
  have hi := h.inv
  refine ⟨fun fd f hn => ?_, hi.bad, hi.closedOnce, fun f h1 h2 => ?_,
    (hi.files _ _).2 (.inl ⟨rfl, rfl⟩), fun fd hx => ?_, hi.table⟩
  · rw [hi.files]
    simp [hn]
  · rw [hi.closed]
    constructor
    · rintro ⟨_, _, h3⟩ ⟨fd, c, hc, he⟩
      exact h3 fd c hc he
    · intro hx
      exact ⟨h1, h2, fun fd c hc he => hx ⟨fd, c, hc, he⟩⟩
  · rcases hi.reg fd (by
      rw [hi.table] at hx
      rcases ht : s.poller.table.get fd with _ | v
      · simp [ht] at hx
      · simp) with hr | hr
    · exact .inl hr
    · right
      rcases hc : s.conns.get fd with _ | c
      · exact absurd hc hr
      · exact ⟨c, rfl⟩

/-- Closing a descriptor that is not open is counted. -/
example : ((((({} : Os).install 3).install 5).close 5).close 5).bad = 1 ∧
    ((({} : Os).install 3).close 4).bad = 1 ∧ ((({} : Os).install 3).close 3).bad = 0 := by decide

/-! ### Each connection by itself -/

/-- The connection behaves as the only connection of some application: one whose handlers work on the
worlds `ws` (those the shared world went through) and from then on as they always do, starting at some
clock value. -/
def Alone (cfg : Cfg W) (sim : Sim W) (t : Nat) : Prop :=
  ∃ ws : List W, ∀ rest, Sim.InUse (Sim.replay cfg) (Sim.feed ws rest) t (sim.reworld rest)

theorem Alone.init (cfg : Cfg W) (w : W) (t : Nat) : Alone cfg (Sim.init w t) t :=
  ⟨[], fun _ => .new⟩

theorem Alone.called {cfg : Cfg W} {sim sim' : Sim W} {w : W} {t : Nat} {env : Env} {r : ProcRes}
    (h : Alone cfg sim t)
    (hp : ({ sim with world := w } : Sim W).process cfg env = .ok (r, sim')) :
    ∃ ws : List W, ∀ rest, Sim.Called (Sim.replay cfg) (Sim.feed ws rest) t r (sim'.reworld rest) := by
  obtain ⟨ws, h⟩ := h
  obtain ⟨ws', h'⟩ := Sim.rep_process cfg env _ _ hp
  refine ⟨ws ++ ws', fun rest => ⟨sim.reworld (Sim.feed ws' rest), env, ?_, h' rest⟩⟩
  have := h (Sim.feed ws' rest)
  rwa [← Sim.feed_append] at this

theorem Alone.process {cfg : Cfg W} {sim sim' : Sim W} {w : W} {t : Nat} {env : Env} {r : ProcRes}
    (h : Alone cfg sim t)
    (hp : ({ sim with world := w } : Sim W).process cfg env = .ok (r, sim')) (hr : r ≠ .discard) :
    Alone cfg sim' t := by
  obtain ⟨ws, h⟩ := h
  obtain ⟨ws', h'⟩ := Sim.rep_process cfg env _ _ hp
  refine ⟨ws ++ ws', fun rest => .step (sim.reworld (Sim.feed ws' rest)) _ env r ?_ (h' rest) hr⟩
  have := h (Sim.feed ws' rest)
  rwa [← Sim.feed_append] at this

/-- The connections after an event: the one concerned, or an old one. -/
theorem EvStep.conns {cfg : Cfg W} {s s' : Server W} {ev : PollEv} (hi : Inv s)
    (hs : EvStep cfg s ev s')
    {fd : Nat} {c : Conn W} (hc : s'.conns.get fd = some c) :
    s.conns.get fd = some c ∨
    (s.conns.get fd = none ∧ c.file = s.os.next ∧ ∃ now, c.sim = Sim.init s.world now) ∨
    (fd = ev.fd ∧ ∃ c0 r, s.conns.get fd = some c0 ∧ c.file = c0.file ∧ r ≠ .discard ∧
      ({ c0.sim with world := s.world } : Sim W).process cfg ev.env = .ok (r, c.sim)) := by
  cases hs with
  | again hl ha => exact .inl hc
  | accepted fd' now hl ha hf hlen =>
    rw [(pollSet_conns _ _ _ _).1] at hc
    simp only [Assoc.get_put] at hc
    split at hc
    · rename_i hfd
      cases hc
      rcases hx : s.conns.get fd with _ | c
      · exact .inr (.inl ⟨rfl, rfl, now, rfl⟩)
      · rw [← hfd, hi.isOpen hx] at hf
        cases hf
    · exact .inl hc
  | overflow fd' now tr hl ha hf hlen => exact .inl hc
  | unknown hl hx => exact .inl hc
  | gone c' hl hx he =>
    simp only [dropped, Assoc.get_del] at hc
    split at hc
    · cases hc
    · exact .inl hc
  | quiet c' hl hx he hr => exact .inl hc
  | processed c' r sim hl hx he hr hp =>
    have hu : ∀ c, ((s.before ev).updated ev.fd c' sim).conns.get fd = some c →
        s.conns.get fd = some c ∨ (fd = ev.fd ∧ c = { c' with sim }) := by
      intro c h
      simp only [updated, Assoc.get_put] at h
      split at h
      · cases h
        exact .inr ⟨by assumption, rfl⟩
      · rw [(before_same s ev).1] at h
        exact .inl h
    cases r with
    | wantRead =>
      rcases hu c hc with h | ⟨h1, h2⟩
      · exact .inl h
      · subst h2
        exact .inr (.inr ⟨h1, c', .wantRead, by rw [h1]; exact hx, rfl, by simp, hp⟩)
    | wantWrite =>
      simp only [after] at hc
      rw [(pollSet_conns _ _ _ _).1] at hc
      rcases hu c hc with h | ⟨h1, h2⟩
      · exact .inl h
      · subst h2
        exact .inr (.inr ⟨h1, c', .wantWrite, by rw [h1]; exact hx, rfl, by simp, hp⟩)
    | discard =>
      simp only [after, dropped, Assoc.get_del] at hc
      split at hc
      · cases hc
      · rename_i hne
        rcases hu c hc with h | ⟨h1, h2⟩
        · exact .inl h
        · exact absurd h1 hne

theorem Reach.alone {cfg : Cfg W} {P : PollEv → Prop} {s0 s : Server W} (h0 : Inv s0)
    (h00 : s0.conns = []) (h : Reach cfg P s0 s) :
    ∀ fd c, s.conns.get fd = some c → ∃ t, Alone cfg c.sim t := by
  induction h with
  | start =>
    intro fd c hc
    rw [h00] at hc
    simp [Assoc.get] at hc
  | reap s now hr ih =>
    refine (reap_induct (P := fun s => ∀ fd c, s.conns.get fd = some c → ∃ t, Alone cfg c.sim t) now
      ?_ (hr.inv h0) ih).2
    intro s fd c hi hp hc ht fd' c' hx
    simp only [dropped, Assoc.get_del] at hx
    split at hx
    · cases hx
    · exact hp fd' c' hx
  | event s s' ev hr hp he ih =>
    intro fd c hc
    have hi := hr.inv h0
    rcases (hi.step he).conns hi hc with h | ⟨_, _, now, h⟩ | ⟨_, c0, r, h1, _, h2, h3⟩
    · exact ih fd c h
    · exact ⟨now, by rw [h]; exact .init _ _ _⟩
    · obtain ⟨t, ht⟩ := ih fd c0 h1
      exact ⟨t, ht.process h3 h2⟩
  | stop s r hr ih => exact ih

theorem begin_conns (w : W) (listener : Nat) (created fails : Bool) :
    (begin w listener created fails).conns = [] := (pollSet_conns _ _ _ _).1

theorem Serves.alone {cfg : Cfg W} {s : Server W} (h : Serves cfg s) {fd : Nat} {c : Conn W}
    (hc : s.conns.get fd = some c) : ∃ t, Alone cfg c.sim t := by
  obtain ⟨w, l, cr, f, h⟩ := h
  exact h.alone (Inv.begin _ _ _ _) (begin_conns _ _ _ _) fd c hc

/-- C80: whatever the other connections do, each connection of a server does what a connection alone could
do: anything that holds of the trace of every connection that is alone, for every application and every
transport, holds of every connection of every server. -/
theorem C80_alone (Q : List Ev → Prop)
    (hq : ∀ (V : Type) (cfg : Cfg V) (v : V) (now : Nat) (sim : Sim V),
      Sim.InUse cfg v now sim → Q sim.trace)
    {cfg : Cfg W} {s : Server W} (h : Serves cfg s) {fd : Nat} {c : Conn W}
    (hc : s.conns.get fd = some c) : Q c.sim.trace := by
  obtain ⟨t, ws, ha⟩ := h.alone hc
  exact hq (List W × W) (Sim.replay cfg) _ t (c.sim.reworld ([], s.world)) (ha ([], s.world))

/-- C80, for a call: the trace and the result of `process()` for an event. -/
theorem C80_call (Q : ProcRes → List Ev → Prop)
    (hq : ∀ (V : Type) (cfg : Cfg V) (v : V) (now : Nat) (r : ProcRes) (sim : Sim V),
      Sim.Called cfg v now r sim → Q r sim.trace)
    {cfg : Cfg W} {s : Server W} (h : Serves cfg s) {fd : Nat} {c : Conn W}
    (hc : s.conns.get fd = some c) {env : Env} {r : ProcRes} {sim : Sim W}
    (hp : ({ c.sim with world := s.world } : Sim W).process cfg env = .ok (r, sim)) :
    Q r sim.trace := by
  obtain ⟨t, ha⟩ := h.alone hc
  obtain ⟨ws, hw⟩ := ha.called hp
  exact hq (List W × W) (Sim.replay cfg) _ t r (sim.reworld ([], s.world)) (hw ([], s.world))

/-! ### C61 -/

/-- C61: handling an event leaves every other connection as it was: same state, same open socket, watched
for the same events. -/
theorem C61_isolated {cfg : Cfg W} {s s' : Server W} (h : Serves cfg s) {ev : PollEv}
    (he : s.handleEvent cfg ev = .ok s') {fd : Nat} {c : Conn W} (hc : s.conns.get fd = some c)
    (hne : fd ≠ ev.fd) :
    s'.conns.get fd = some c ∧ s'.os.files.get fd = some c.file ∧
      s'.os.interest.get fd = s.os.interest.get fd := by
  have hi := h.inv
  have hs := hi.step he
  have hi' := hs.inv hi
  suffices hk : s'.conns.get fd = some c ∧ s'.os.interest.get fd = s.os.interest.get fd from
    ⟨hk.1, hi'.isOpen hk.1, hk.2⟩
  have hset : ∀ (s : Server W) fd' events fails, Inv s → fd ≠ fd' → s.os.files.get fd' ≠ none →
      (s.pollSet fd' events fails).os.interest.get fd = s.os.interest.get fd := by
    intro s fd' events fails hi hn ho
    rw [hi.pollSet_eq ho]
    split
    · exact Assoc.get_put_ne _ _ hn
    · rfl
  cases hs with
  | again hl ha => exact ⟨hc, rfl⟩
  | accepted fd' now hl ha hf hlen =>
    have hn : fd ≠ fd' := by
      rintro rfl
      rw [hi.isOpen hc] at hf
      cases hf
    constructor
    · rw [(pollSet_conns _ _ _ _).1]
      simp only
      rw [Assoc.get_put_ne _ _ hn]
      exact hc
    · rw [hset _ _ _ _ (hi.accept hf hlen _) hn (by simp [Os.install])]
      rfl
  | overflow fd' now tr hl ha hf hlen =>
    have hn : fd ≠ fd' := by
      rintro rfl
      rw [hi.isOpen hc] at hf
      cases hf
    refine ⟨hc, ?_⟩
    simp only [Os.install, Os.close, Assoc.get_put_self]
    exact Assoc.get_del_ne _ hn
  | unknown hl hx => exact ⟨hc, rfl⟩
  | gone c' hl hx hg =>
    simp only [dropped]
    rw [Assoc.get_del_ne _ hne, Assoc.get_del_ne _ hne]
    exact ⟨hc, rfl⟩
  | quiet c' hl hx hg hr => exact ⟨hc, rfl⟩
  | processed c' r sim hl hx hg hr hp =>
    have hb := hi.before hx
    have hbi : (s.before ev).os.interest.get fd = s.os.interest.get fd := by
      rw [before]
      split
      · exact hset _ _ _ _ hi hne (by rw [hi.isOpen hx]; simp)
      · rfl
    have hu : Inv ((s.before ev).updated ev.fd c' sim) :=
      hb.putSim (by rw [(before_same s ev).1]; exact hx) _ _
    have huc : ((s.before ev).updated ev.fd c' sim).conns.get fd = some c := by
      simp only [updated]
      rw [Assoc.get_put_ne _ _ hne, (before_same s ev).1]
      exact hc
    cases r with
    | wantRead => exact ⟨huc, hbi⟩
    | wantWrite =>
      simp only [after]
      constructor
      · rw [(pollSet_conns _ _ _ _).1]
        exact huc
      · rw [hset _ _ _ _ hu hne]
        · exact hbi
        · have hx' : ((s.before ev).updated ev.fd c' sim).conns.get ev.fd =
              some { c' with sim } := by simp [updated]
          have := hu.isOpen hx'
          rw [this]
          simp
    | discard =>
      simp only [after, dropped]
      rw [Assoc.get_del_ne _ hne, Assoc.get_del_ne _ hne]
      exact ⟨huc, hbi⟩

/-- C61: an event for a descriptor that is neither the listener nor a connection has no effect. -/
theorem C61_unknown (cfg : Cfg W) (s : Server W) (ev : PollEv) (hl : ev.fd ≠ s.listener)
    (hc : s.conns.get ev.fd = none) : s.handleEvent cfg ev = .ok s := by
  rw [handleEvent, if_neg hl, handleConnection]
  simp only [hc]

/-! ### C62 -/

/-- Whether a map entry survives reaping. -/
theorem reap_get {s : Server W} (h : Inv s) (now : Nat → Nat) (fd : Nat) :
    (s.reapIdle now).conns.get fd =
      match s.conns.get fd with
      | some c => if c.sim.hasTimedOut (now fd) then none else some c
      | none => none := by
  have key : ∀ (l : Assoc (Conn W)) (s : Server W), Assoc.Sorted l → Inv s →
      (∀ fd c, (fd, c) ∈ l → s.conns.get fd = some c) →
      (l.foldl (reapOne now) s).conns.get fd =
        match Assoc.get l fd with
        | some c => if c.sim.hasTimedOut (now fd) then none else some c
        | none => s.conns.get fd := by
    intro l
    induction l with
    | nil => intro s _ _ _; rfl
    | cons e l ih =>
      obtain ⟨k, c⟩ := e
      intro s hl hi hm
      have hc := hm k c (by simp)
      have hl' := hl
      rw [Assoc.Sorted, List.pairwise_cons] at hl
      have hnot : Assoc.get l k = none := by
        rcases hg : Assoc.get l k with _ | v
        · rfl
        · have := hl.1 _ (Assoc.get_mem hg)
          simp only at this
          omega
      rw [List.foldl_cons]
      by_cases ht : c.sim.hasTimedOut (now k) = true
      · have e : reapOne now s (k, c) = s.dropped k c.file := by
          simp only [reapOne, ht, if_true]
          exact remove_erase (hi.isOpen hc)
        rw [e, ih _ hl.2 (hi.dropped hc)]
        · simp only [Assoc.get]
          by_cases hk : fd = k
          · subst hk
            simp [hnot, ht, dropped]
          · simp only [hk, if_false, dropped]
            rw [Assoc.get_del_ne _ hk]
        · intro fd' c' hx
          have hlt := hl.1 _ hx
          simp only at hlt
          simp only [dropped]
          rw [Assoc.get_del_ne _ (by omega)]
          exact hm _ _ (List.mem_cons_of_mem _ hx)
      · have e : reapOne now s (k, c) = s := by simp [reapOne, ht]
        rw [e, ih _ hl.2 hi fun fd' c' hx => hm _ _ (List.mem_cons_of_mem _ hx)]
        simp only [Assoc.get]
        by_cases hk : fd = k
        · subst hk
          simp [hnot, ht, hc]
        · simp [hk]
  have := key s.conns s h.sorted h (fun _ _ hx => Assoc.mem_get h.sorted hx)
  rw [reapIdle, this]
  rcases s.conns.get fd with _ | c <;> rfl

end Ion.Server
