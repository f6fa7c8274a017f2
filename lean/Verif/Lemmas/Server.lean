import Verif.Lemmas.Assoc
import Verif.Model.Server

/-! # The server: invariant and single steps -/

namespace Ion.Server
variable {W : Type}

/-- What holds between events. -/
structure Inv (s : Server W) : Prop where
  sorted : Assoc.Sorted s.conns
  files : ∀ fd f, s.os.files.get fd = some f ↔
    (fd = s.listener ∧ f = 0) ∨ ∃ c, s.conns.get fd = some c ∧ c.file = f
  notListener : s.conns.get s.listener = none
  bad : s.os.bad = 0
  next : 0 < s.os.next
  lt : ∀ fd c, s.conns.get fd = some c → 0 < c.file ∧ c.file < s.os.next
  inj : ∀ fd fd' c c', s.conns.get fd = some c → s.conns.get fd' = some c' → c.file = c'.file →
    fd = fd'
  closedOnce : s.os.closed.Nodup
  closed : ∀ f, f ∈ s.os.closed ↔
    (0 < f ∧ f < s.os.next ∧ ∀ fd c, s.conns.get fd = some c → c.file ≠ f)
  table : ∀ fd, s.os.interest.get fd = (s.poller.table.get fd).map toEpoll
  reg : ∀ fd, s.poller.table.get fd ≠ none → fd = s.listener ∨ s.conns.get fd ≠ none
  len : s.conns.length ≤ 128

theorem Inv.isOpen {s : Server W} (h : Inv s) {fd : Nat} {c : Conn W} (hc : s.conns.get fd = some c) :
    s.os.files.get fd = some c.file := (h.files _ _).2 (.inr ⟨c, hc, rfl⟩)

/-- The state after a connection is dropped. -/
def dropped (s : Server W) (fd : Nat) (file : Nat) : Server W :=
  { s with
    conns := s.conns.del fd
    poller := { s.poller with table := s.poller.table.del fd }
    os := { s.os with
      files := s.os.files.del fd, closed := file :: s.os.closed,
      interest := s.os.interest.del fd } }

theorem Inv.interest_created {s : Server W} (_ : Inv s) (fd : Nat) :
    (s.os.interest.del fd).del fd = s.os.interest.del fd :=
  Assoc.del_of_get_none (by simp)

theorem remove_erase {s : Server W} {fd file : Nat} (h : s.os.files.get fd = some file) :
    (s.pollRemove fd).erase fd = s.dropped fd file := by
  have ho : s.os.files.has fd = true := (Assoc.has_iff _ _).2 ⟨_, h⟩
  simp only [pollRemove, EPoll.remove, erase, dropped]
  cases hc : s.poller.created with
  | false => simp [Os.close, h]
  | true =>
    simp only [if_true, Os.ctl, ho, Bool.not_true, Bool.false_eq_true, if_false]
    rcases hi : s.os.interest.has fd with _ | _
    · simp [Os.close, h]
    · simp only [Bool.not_true, Bool.false_eq_true, if_false, Os.close, h]
      rw [Assoc.del_of_get_none (m := s.os.interest.del fd) (by simp)]

theorem erase_remove {s : Server W} {fd file : Nat} (h : s.os.files.get fd = some file) :
    (s.erase fd).pollRemove fd = s.dropped fd file := by
  simp only [pollRemove, EPoll.remove, erase, dropped, Os.close, h]
  cases hc : s.poller.created with
  | false => simp
  | true => simp [Os.ctl, Assoc.has]

theorem Inv.dropped {s : Server W} (h : Inv s) {fd : Nat} {c : Conn W}
    (hc : s.conns.get fd = some c) : Inv (s.dropped fd c.file) := by
  have hne : fd ≠ s.listener := by
    rintro rfl
    rw [h.notListener] at hc
    cases hc
  have hold : ∀ fd' c', (s.conns.del fd).get fd' = some c' → fd' ≠ fd ∧ s.conns.get fd' = some c' := by
    intro fd' c' hx
    rw [Assoc.get_del] at hx
    split at hx
    · cases hx
    · exact ⟨by assumption, hx⟩
  refine ⟨h.sorted.del _, ?_, ?_, h.bad, h.next, ?_, ?_, ?_, ?_, ?_, ?_, ?_⟩
  · intro fd' f
    simp only [Server.dropped, Assoc.get_del]
    by_cases hf : fd' = fd
    · simp [hf, hne]
    · simp only [hf, if_false]
      exact h.files fd' f
  · simp only [Server.dropped, Assoc.get_del]
    rw [h.notListener]
    simp
  · intro fd' c' hx
    exact h.lt _ _ (hold _ _ hx).2
  · intro fd1 fd2 c1 c2 h1 h2
    exact h.inj _ _ _ _ (hold _ _ h1).2 (hold _ _ h2).2
  · simp only [Server.dropped, List.nodup_cons]
    refine ⟨fun hx => ?_, h.closedOnce⟩
    exact ((h.closed _).1 hx).2.2 _ _ hc rfl
  · intro f
    simp only [Server.dropped, List.mem_cons]
    rw [h.closed]
    constructor
    · rintro (hx | ⟨h1, h2, h3⟩)
      · subst hx
        refine ⟨(h.lt _ _ hc).1, (h.lt _ _ hc).2, fun fd' c' hx he => ?_⟩
        obtain ⟨hn, hx⟩ := hold _ _ hx
        exact hn (h.inj _ _ _ _ hx hc he)
      · exact ⟨h1, h2, fun fd' c' hx => h3 _ _ (hold _ _ hx).2⟩
    · rintro ⟨h1, h2, h3⟩
      by_cases hf : f = c.file
      · exact .inl hf
      · refine .inr ⟨h1, h2, fun fd' c' hx => ?_⟩
        by_cases hfd : fd' = fd
        · subst hfd
          rw [hc] at hx
          cases hx
          exact fun e => hf e.symm
        · exact h3 fd' c' (by rw [Assoc.get_del_ne _ hfd]; exact hx)
  · intro fd'
    simp only [Server.dropped, Assoc.get_del]
    split
    · rfl
    · exact h.table fd'
  · intro fd' hx
    simp only [Server.dropped, Assoc.get_del] at hx ⊢
    split at hx
    · exact absurd rfl hx
    · rename_i hn
      simp only [hn, if_false]
      exact h.reg fd' hx
  · exact Nat.le_trans (Assoc.length_del_le _ _) h.len

/-- The effect of `poller.set` on an open descriptor. -/
theorem Inv.pollSet_eq {s : Server W} (h : Inv s) {fd : Nat} (ho : s.os.files.get fd ≠ none)
    (events : PollEvents) (fails : Bool) :
    s.pollSet fd events fails =
      if s.poller.created && !fails then
        { s with
          poller := { s.poller with table := s.poller.table.put fd events }
          os := { s.os with interest := s.os.interest.put fd (toEpoll events) } }
      else s := by
  have ho : s.os.files.has fd = true := by
    rcases hx : s.os.files.get fd with _ | v
    · exact absurd hx ho
    · exact (Assoc.has_iff _ _).2 ⟨_, hx⟩
  have ht : s.poller.table.has fd = s.os.interest.has fd := by
    rw [Assoc.has, Assoc.has, h.table fd]
    cases s.poller.table.get fd <;> rfl
  simp only [pollSet, EPoll.set]
  cases hc : s.poller.created <;> cases fails <;> cases hi : s.os.interest.has fd <;>
    simp [Os.ctl, ho, ht, hi]

theorem Inv.pollSet {s : Server W} (h : Inv s) {fd : Nat}
    (hk : fd = s.listener ∨ s.conns.get fd ≠ none) (events : PollEvents) (fails : Bool) :
    Inv (s.pollSet fd events fails) := by
  have ho : s.os.files.get fd ≠ none := by
    rcases hk with hk | hk
    · rw [(h.files fd 0).2 (.inl ⟨hk, rfl⟩)]
      simp
    · rcases hx : s.conns.get fd with _ | c
      · exact absurd hx hk
      · rw [h.isOpen hx]
        simp
  rw [h.pollSet_eq ho]
  split
  · refine ⟨h.sorted, h.files, h.notListener, h.bad, h.next, h.lt, h.inj, h.closedOnce, h.closed, ?_,
      ?_, h.len⟩
    · intro fd'
      simp only [Assoc.get_put]
      split
      · rfl
      · exact h.table fd'
    · intro fd' hx
      simp only [Assoc.get_put] at hx
      split at hx
      · rename_i he
        rw [he]
        exact hk
      · exact h.reg fd' hx
  · exact h

theorem Inv.putSim {s : Server W} (h : Inv s) {fd : Nat} {c : Conn W} (hc : s.conns.get fd = some c)
    (sim : Sim W) (w : W) :
    Inv { s with conns := s.conns.put fd { c with sim }, world := w } := by
  have hget : ∀ fd' c', (s.conns.put fd { c with sim }).get fd' = some c' →
      ∃ c'', s.conns.get fd' = some c'' ∧ c''.file = c'.file := by
    intro fd' c' hx
    rw [Assoc.get_put] at hx
    split at hx
    · rename_i he
      cases hx
      exact ⟨c, by rw [he]; exact hc, rfl⟩
    · exact ⟨c', hx, rfl⟩
  have hget' : ∀ fd' c'', s.conns.get fd' = some c'' →
      ∃ c', (s.conns.put fd { c with sim }).get fd' = some c' ∧ c'.file = c''.file := by
    intro fd' c'' hx
    rw [Assoc.get_put]
    split
    · rename_i he
      rw [he, hc] at hx
      cases hx
      exact ⟨_, rfl, rfl⟩
    · exact ⟨c'', hx, rfl⟩
  have hne : fd ≠ s.listener := by
    rintro rfl
    rw [h.notListener] at hc
    cases hc
  refine ⟨h.sorted.put _ _, ?_, ?_, h.bad, h.next, ?_, ?_, h.closedOnce, ?_, h.table, ?_, ?_⟩
  · intro fd' f
    rw [h.files]
    refine or_congr_right ?_
    constructor
    · rintro ⟨c', h1, h2⟩
      obtain ⟨c'', h3, h4⟩ := hget' _ _ h1
      exact ⟨c'', h3, by rw [h4, h2]⟩
    · rintro ⟨c', h1, h2⟩
      obtain ⟨c'', h3, h4⟩ := hget _ _ h1
      exact ⟨c'', h3, by rw [h4, h2]⟩
  · simp only
    rw [Assoc.get_put_ne _ _ (fun x => hne x.symm)]
    exact h.notListener
  · intro fd' c' hx
    obtain ⟨c'', h3, h4⟩ := hget _ _ hx
    rw [← h4]
    exact h.lt _ _ h3
  · intro fd1 fd2 c1 c2 h1 h2 he
    obtain ⟨c1', h3, h4⟩ := hget _ _ h1
    obtain ⟨c2', h5, h6⟩ := hget _ _ h2
    exact h.inj _ _ _ _ h3 h5 (by rw [h4, h6, he])
  · intro f
    rw [h.closed]
    refine and_congr_right fun _ => and_congr_right fun _ => ?_
    constructor
    · intro hx fd' c' h1
      obtain ⟨c'', h3, h4⟩ := hget _ _ h1
      rw [← h4]
      exact hx _ _ h3
    · intro hx fd' c' h1
      obtain ⟨c'', h3, h4⟩ := hget' _ _ h1
      rw [← h4]
      exact hx _ _ h3
  · intro fd' hx
    rcases h.reg fd' hx with hr | hr
    · exact .inl hr
    · right
      simp only [Assoc.get_put]
      split
      · simp
      · exact hr
  · simp only
    rw [Assoc.length_put_of_get h.sorted hc]
    exact h.len

/-- A new client gets a connection. -/
theorem Inv.accept {s : Server W} (h : Inv s) {fd : Nat} (hf : s.os.files.get fd = none)
    (hlen : s.conns.length < 128) (sim : Sim W) :
    Inv { s with conns := s.conns.put fd ⟨s.os.next, sim⟩, os := s.os.install fd } := by
  have hne : fd ≠ s.listener := by
    rintro rfl
    rw [(h.files s.listener 0).2 (.inl ⟨rfl, rfl⟩)] at hf
    cases hf
  have hnc : s.conns.get fd = none := by
    rcases hx : s.conns.get fd with _ | c
    · rfl
    · rw [h.isOpen hx] at hf
      cases hf
  have hold : ∀ fd' c', (s.conns.put fd ⟨s.os.next, sim⟩).get fd' = some c' →
      (fd' = fd ∧ c'.file = s.os.next) ∨ (fd' ≠ fd ∧ s.conns.get fd' = some c') := by
    intro fd' c' hx
    rw [Assoc.get_put] at hx
    split at hx
    · cases hx
      exact .inl ⟨by assumption, rfl⟩
    · exact .inr ⟨by assumption, hx⟩
  have hnew : ∀ fd' c', s.conns.get fd' = some c' →
      (s.conns.put fd ⟨s.os.next, sim⟩).get fd' = some c' := by
    intro fd' c' hx
    rw [Assoc.get_put_ne]
    · exact hx
    · rintro rfl
      rw [hnc] at hx
      cases hx
  refine ⟨h.sorted.put _ _, ?_, ?_, h.bad, Nat.succ_pos _, ?_, ?_, h.closedOnce, ?_, h.table, ?_, ?_⟩
  · intro fd' f
    simp only [Os.install, Assoc.get_put]
    by_cases hx : fd' = fd
    · subst hx
      simp [hne, eq_comm]
    · simp only [hx, if_false]
      exact h.files fd' f
  · simp only
    rw [Assoc.get_put_ne _ _ (fun x => hne x.symm)]
    exact h.notListener
  · intro fd' c' hx
    simp only [Os.install]
    have := h.next
    rcases hold _ _ hx with ⟨_, h1⟩ | ⟨_, h1⟩
    · rw [h1]
      omega
    · have := h.lt _ _ h1
      omega
  · intro fd1 fd2 c1 c2 h1 h2 he
    rcases hold _ _ h1 with ⟨h3, h4⟩ | ⟨h3, h4⟩ <;> rcases hold _ _ h2 with ⟨h5, h6⟩ | ⟨h5, h6⟩
    · rw [h3, h5]
    · have := h.lt _ _ h6
      omega
    · have := h.lt _ _ h4
      omega
    · exact h.inj _ _ _ _ h4 h6 he
  · intro f
    simp only [Os.install]
    rw [h.closed]
    constructor
    · rintro ⟨h1, h2, h3⟩
      refine ⟨h1, by omega, fun fd' c' hx => ?_⟩
      rcases hold _ _ hx with ⟨_, h4⟩ | ⟨_, h4⟩
      · omega
      · exact h3 _ _ h4
    · rintro ⟨h1, h2, h3⟩
      have : f ≠ s.os.next := by
        rintro rfl
        exact h3 fd ⟨s.os.next, sim⟩ (by simp) rfl
      exact ⟨h1, by omega, fun fd' c' hx => h3 _ _ (hnew _ _ hx)⟩
  · intro fd' hx
    rcases h.reg fd' hx with hr | hr
    · exact .inl hr
    · right
      simp only [Assoc.get_put]
      split
      · simp
      · exact hr
  · exact Nat.le_trans (Assoc.length_put_le _ _ _) hlen

/-- A client is accepted and closed at once. -/
theorem Inv.overflow {s : Server W} (h : Inv s) {fd : Nat} (hf : s.os.files.get fd = none) :
    Inv { s with os := (s.os.install fd).close fd } := by
  have hi : s.os.interest.get fd = none := by
    rw [h.table]
    rcases hx : s.poller.table.get fd with _ | v
    · rfl
    · rcases h.reg fd (by simp [hx]) with hr | hr
      · rw [(h.files fd 0).2 (.inl ⟨hr, rfl⟩)] at hf
        cases hf
      · rcases hy : s.conns.get fd with _ | c
        · exact absurd hy hr
        · rw [h.isOpen hy] at hf
          cases hf
  have hos : (s.os.install fd).close fd =
      { s.os with files := (s.os.files.put fd s.os.next).del fd, closed := s.os.next :: s.os.closed,
                  next := s.os.next + 1 } := by
    simp [Os.install, Os.close, Assoc.del_of_get_none hi]
  rw [hos]
  refine ⟨h.sorted, ?_, h.notListener, h.bad, Nat.succ_pos _, ?_, h.inj, ?_, ?_, h.table, h.reg, h.len⟩
  · intro fd' f
    simp only [Assoc.get_del, Assoc.get_put]
    by_cases hx : fd' = fd
    · simp only [hx, if_true]
      rw [← h.files fd f, hf]
    · simp only [hx, if_false]
      exact h.files fd' f
  · intro fd' c' hx
    have := h.lt _ _ hx
    simp only
    omega
  · simp only [List.nodup_cons]
    refine ⟨fun hx => ?_, h.closedOnce⟩
    have := ((h.closed _).1 hx).2.1
    omega
  · intro f
    simp only [List.mem_cons]
    rw [h.closed]
    have hn := h.next
    constructor
    · rintro (hx | ⟨h1, h2, h3⟩)
      · subst hx
        refine ⟨h.next, by omega, fun fd' c' hx => ?_⟩
        have := h.lt _ _ hx
        omega
      · exact ⟨h1, by omega, h3⟩
    · rintro ⟨h1, h2, h3⟩
      by_cases hx : f = s.os.next
      · exact .inl hx
      · exact .inr ⟨h1, by omega, h3⟩

theorem Inv.begin (w : W) (listener : Nat) (created fails : Bool) :
    Inv (begin w listener created fails) := by
  have h : Inv (
      { listener, world := w, poller := { created }, os := Os.install {} listener } : Server W) := by
    refine ⟨List.Pairwise.nil, ?_, rfl, rfl, by simp [Os.install], ?_, ?_, List.nodup_nil, ?_, ?_, ?_,
      Nat.zero_le _⟩
    · intro fd f
      simp only [Os.install, Assoc.get_put, Assoc.get]
      by_cases hx : fd = listener
      · simp [hx, eq_comm]
      · simp [hx]
    · intro fd c hx
      simp [Assoc.get] at hx
    · intro fd _ c _ hx
      simp [Assoc.get] at hx
    · intro f
      simp [Os.install]
      omega
    · intro fd
      rfl
    · intro fd hx
      simp [Assoc.get] at hx
  exact h.pollSet (.inl rfl) _ _

/-- The state before `process()` is called (lib/http2_server.cpp:98-101). -/
def before (s : Server W) (ev : PollEv) : Server W :=
  if hasEvent ev.events .write then s.pollSet ev.fd .read ev.ctlFails1 else s

/-- The state after `process()` returned (the connection and the world). -/
def updated (s : Server W) (fd : Nat) (c : Conn W) (sim : Sim W) : Server W :=
  { s with conns := s.conns.put fd { c with sim }, world := sim.world }

/-- The state after the result was acted on (lib/http2_server.cpp:104-117). -/
def after (s : Server W) (ev : PollEv) (c : Conn W) (sim : Sim W) (r : ProcRes) : Server W :=
  match r with
  | .wantWrite => ((s.before ev).updated ev.fd c sim).pollSet ev.fd (.read ||| .write) ev.ctlFails2
  | .wantRead => (s.before ev).updated ev.fd c sim
  | .discard => ((s.before ev).updated ev.fd c sim).dropped ev.fd c.file

/-- What an event can do. -/
inductive EvStep (cfg : Cfg W) (s : Server W) (ev : PollEv) : Server W → Prop
  | again (hl : ev.fd = s.listener) (ha : ev.accept = .again) : EvStep cfg s ev s
  | accepted (fd now : Nat) (hl : ev.fd = s.listener) (ha : ev.accept = .client fd true true now)
      (hf : s.os.files.get fd = none) (hlen : s.conns.length < 128) :
      EvStep cfg s ev (Server.pollSet
        { s with conns := s.conns.put fd ⟨s.os.next, Sim.init s.world now⟩, os := s.os.install fd }
        fd .read ev.ctlFails1)
  | overflow (fd now : Nat) (transport : Bool) (hl : ev.fd = s.listener)
      (ha : ev.accept = .client fd true transport now)
      (hf : s.os.files.get fd = none) (hlen : ¬s.conns.length < 128) :
      EvStep cfg s ev { s with os := (s.os.install fd).close fd }
  | unknown (hl : ev.fd ≠ s.listener) (hc : s.conns.get ev.fd = none) : EvStep cfg s ev s
  | gone (c : Conn W) (hl : ev.fd ≠ s.listener) (hc : s.conns.get ev.fd = some c)
      (he : hasEvent ev.events .error = true ∨ hasEvent ev.events .hangup = true) :
      EvStep cfg s ev (s.dropped ev.fd c.file)
  | quiet (c : Conn W) (hl : ev.fd ≠ s.listener) (hc : s.conns.get ev.fd = some c)
      (he : hasEvent ev.events .error = false ∧ hasEvent ev.events .hangup = false)
      (hr : hasEvent ev.events .read = false ∧ hasEvent ev.events .write = false) : EvStep cfg s ev s
  | processed (c : Conn W) (r : ProcRes) (sim : Sim W) (hl : ev.fd ≠ s.listener)
      (hc : s.conns.get ev.fd = some c)
      (he : hasEvent ev.events .error = false ∧ hasEvent ev.events .hangup = false)
      (hr : hasEvent ev.events .read = true ∨ hasEvent ev.events .write = true)
      (hp : ({ c.sim with world := s.world } : Sim W).process cfg ev.env = .ok (r, sim)) :
      EvStep cfg s ev (s.after ev c sim r)

theorem pollSet_conns (s : Server W) (fd : Nat) (events : PollEvents) (fails : Bool) :
    (s.pollSet fd events fails).conns = s.conns ∧ (s.pollSet fd events fails).world = s.world ∧
    (s.pollSet fd events fails).listener = s.listener ∧
    (s.pollSet fd events fails).terminated = s.terminated ∧
    (s.pollSet fd events fails).reason = s.reason ∧
    (s.pollSet fd events fails).poller.created = s.poller.created := by
  simp only [pollSet, EPoll.set]
  split <;> simp

theorem Inv.before {s : Server W} (h : Inv s) {ev : PollEv} {c : Conn W}
    (hc : s.conns.get ev.fd = some c) : Inv (s.before ev) := by
  rw [Server.before]
  split
  · exact h.pollSet (.inr (by simp [hc])) _ _
  · exact h

theorem before_same (s : Server W) (ev : PollEv) :
    (s.before ev).conns = s.conns ∧ (s.before ev).world = s.world ∧
    (s.before ev).listener = s.listener ∧ (s.before ev).terminated = s.terminated ∧
    (s.before ev).reason = s.reason ∧ (s.before ev).poller.created = s.poller.created := by
  rw [before]
  split
  · exact pollSet_conns _ _ _ _
  · simp

theorem Inv.step {cfg : Cfg W} {s s' : Server W} {ev : PollEv} (h : Inv s)
    (he : s.handleEvent cfg ev = .ok s') : EvStep cfg s ev s' := by
  rw [handleEvent] at he
  by_cases hl : ev.fd = s.listener
  · rw [if_pos hl, handleIncoming] at he
    by_cases hlen : s.conns.length < 128
    · rw [if_pos (by exact hlen), establishConn] at he
      rcases ha : ev.accept with fd | _ | _
      · rename_i nb tr now
        simp only [ha, tryAccept] at he
        by_cases ho : s.os.files.has fd = true
        · simp [ho] at he
        · have hf : s.os.files.get fd = none := by
            rw [← Assoc.has_false_iff]
            simpa using ho
          simp only [ho] at he
          cases nb with
          | false => simp at he
          | true =>
            simp only [Bool.not_true, Bool.false_eq_true, if_false, Outcome.bind_ok] at he
            cases tr with
            | false => simp at he
            | true =>
              simp only [Bool.not_true, Bool.false_eq_true, if_false] at he
              cases he
              exact .accepted fd now hl ha hf hlen
      · simp only [ha, tryAccept, Outcome.bind_ok] at he
        cases he
        exact .again hl ha
      · simp only [ha, tryAccept, Outcome.bind_err] at he
        cases he
    · rw [if_neg (by exact hlen)] at he
      rcases ha : ev.accept with fd | _ | _
      · rename_i nb tr now
        simp only [ha, tryAccept] at he
        by_cases ho : s.os.files.has fd = true
        · simp [ho] at he
        · have hf : s.os.files.get fd = none := by
            rw [← Assoc.has_false_iff]
            simpa using ho
          simp only [ho] at he
          cases nb with
          | false => simp at he
          | true =>
            simp only [Bool.not_true, Bool.false_eq_true, if_false, Outcome.bind_ok] at he
            cases he
            exact .overflow fd now tr hl ha hf hlen
      · simp only [ha, tryAccept, Outcome.bind_ok] at he
        cases he
        exact .again hl ha
      · simp only [ha, tryAccept, Outcome.bind_err] at he
        cases he
  · rw [if_neg hl, handleConnection] at he
    rcases hc : s.conns.get ev.fd with _ | c
    · simp only [hc] at he
      cases he
      exact .unknown hl hc
    · simp only [hc] at he
      by_cases hg : (hasEvent ev.events .error || hasEvent ev.events .hangup) = true
      · simp only [hg, if_true] at he
        cases he
        rw [erase_remove (h.isOpen hc)]
        exact .gone c hl hc (by simpa using hg)
      · simp only [hg, Bool.false_eq_true, if_false] at he
        have hg' : hasEvent ev.events .error = false ∧ hasEvent ev.events .hangup = false := by
          simpa using hg
        by_cases hq : (!hasEvent ev.events .read && !hasEvent ev.events .write) = true
        · simp only [hq, if_true] at he
          cases he
          exact .quiet c hl hc hg' (by simpa using hq)
        · simp only [hq, Bool.false_eq_true, if_false] at he
          have hq' : hasEvent ev.events .read = true ∨ hasEvent ev.events .write = true := by
            cases h1 : hasEvent ev.events .read <;> cases h2 : hasEvent ev.events .write <;>
              simp [h1, h2] at hq ⊢
          rw [show (if hasEvent ev.events .write = true then s.pollSet ev.fd .read ev.ctlFails1 else s) =
            s.before ev from rfl] at he
          rw [(before_same s ev).2.1] at he
          rcases hp : ({ c.sim with world := s.world } : Sim W).process cfg ev.env with ⟨r, sim⟩ | e | u
          · simp only [hp] at he
            have hb := h.before hc
            have hu : Inv ((s.before ev).updated ev.fd c sim) :=
              hb.putSim (by rw [(before_same s ev).1]; exact hc) _ _
            have key : s' = s.after ev c sim r := by
              cases r with
              | wantRead =>
                simp only [Outcome.ok.injEq] at he
                rw [← he]
                rfl
              | wantWrite =>
                simp only [Outcome.ok.injEq] at he
                rw [← he]
                rfl
              | discard =>
                simp only [Outcome.ok.injEq] at he
                rw [← he]
                have hx : ((s.before ev).updated ev.fd c sim).conns.get ev.fd =
                    some { c with sim } := by simp [updated]
                have := hu.isOpen hx
                exact remove_erase this
            rw [key]
            exact .processed c r sim hl hc hg' hq' hp
          · simp only [hp] at he
            cases he
          · simp only [hp] at he
            cases he

theorem Inv.after {s : Server W} (h : Inv s) {ev : PollEv} {c : Conn W} {sim : Sim W} {r : ProcRes}
    (hc : s.conns.get ev.fd = some c) : Inv (s.after ev c sim r) := by
  have hu : Inv ((s.before ev).updated ev.fd c sim) :=
    (h.before hc).putSim (by rw [(before_same s ev).1]; exact hc) _ _
  have hx : ((s.before ev).updated ev.fd c sim).conns.get ev.fd = some { c with sim } := by
    simp [updated]
  cases r with
  | wantRead => exact hu
  | wantWrite => exact hu.pollSet (.inr (by simp [hx])) _ _
  | discard =>
    have := hu.dropped hx
    exact this

theorem EvStep.inv {cfg : Cfg W} {s s' : Server W} {ev : PollEv} (h : Inv s)
    (hs : EvStep cfg s ev s') : Inv s' := by
  cases hs with
  | again hl ha => exact h
  | accepted fd now hl ha hf hlen => exact (h.accept hf hlen _).pollSet (.inr (by simp)) _ _
  | overflow fd now tr hl ha hf hlen => exact h.overflow hf
  | unknown hl hc => exact h
  | gone c hl hc he => exact h.dropped hc
  | quiet c hl hc he hr => exact h
  | processed c r sim hl hc he hr hp => exact h.after hc

/-- Entries of a list still to be looked at are entries of the map. -/
theorem reap_fold {P : Server W → Prop} (now : Nat → Nat)
    (hd : ∀ s fd c, Inv s → P s → s.conns.get fd = some c → c.sim.hasTimedOut (now fd) = true →
      P (s.dropped fd c.file)) :
    ∀ (l : Assoc (Conn W)) (s : Server W), Assoc.Sorted l → Inv s → P s →
      (∀ fd c, (fd, c) ∈ l → s.conns.get fd = some c) →
      Inv (l.foldl (reapOne now) s) ∧ P (l.foldl (reapOne now) s)
  | [], s, _, hi, hp, _ => ⟨hi, hp⟩
  | (fd, c) :: l, s, hl, hi, hp, hm => by
    have hc := hm fd c (by simp)
    rw [Assoc.Sorted, List.pairwise_cons] at hl
    rw [List.foldl_cons]
    by_cases ht : c.sim.hasTimedOut (now fd) = true
    · have e : reapOne now s (fd, c) = s.dropped fd c.file := by
        simp only [reapOne, ht, if_true]
        exact remove_erase (hi.isOpen hc)
      rw [e]
      refine reap_fold now hd l _ hl.2 (hi.dropped hc) (hd _ _ _ hi hp hc ht) ?_
      intro fd' c' hx
      have hlt := hl.1 _ hx
      simp only at hlt
      simp only [dropped]
      rw [Assoc.get_del_ne _ (by omega)]
      exact hm _ _ (List.mem_cons_of_mem _ hx)
    · have e : reapOne now s (fd, c) = s := by simp [reapOne, ht]
      rw [e]
      exact reap_fold now hd l s hl.2 hi hp fun fd' c' hx => hm _ _ (List.mem_cons_of_mem _ hx)

/-- Reaping drops connections one by one. -/
theorem reap_induct {P : Server W → Prop} (now : Nat → Nat)
    (hd : ∀ s fd c, Inv s → P s → s.conns.get fd = some c → c.sim.hasTimedOut (now fd) = true →
      P (s.dropped fd c.file))
    {s : Server W} (hi : Inv s) (hp : P s) : Inv (s.reapIdle now) ∧ P (s.reapIdle now) :=
  reap_fold now hd s.conns s hi.sorted hi hp fun _ _ hx => Assoc.mem_get hi.sorted hx

theorem Inv.reap {s : Server W} (h : Inv s) (now : Nat → Nat) : Inv (s.reapIdle now) :=
  (reap_induct (P := fun _ => True) now (fun _ _ _ _ _ _ _ => trivial) h trivial).1

theorem Inv.stop {s : Server W} (h : Inv s) (r : StopReason) : Inv (s.stop r) :=
  ⟨h.sorted, h.files, h.notListener, h.bad, h.next, h.lt, h.inj, h.closedOnce, h.closed, h.table, h.reg,
    h.len⟩

end Ion.Server
