import Verif.Model.PollServer
import Verif.Props.ServerLoop

/-! # C148: the server on systems without epoll -/

namespace Ion.PollServer
open Server
variable {W : Type}

/-! ### Specification -/

/-- The two servers are in the same state, but for what their pollers keep in the kernel: the same
connections in the same states on the same descriptors, the same files open and closed, the same
application, and the same events asked for on the same descriptors. -/
structure Same (p : PollServer W) (s : Server W) : Prop where
  listener : p.core.listener = s.listener
  conns : p.core.conns = s.conns
  terminated : p.core.terminated = s.terminated
  reason : p.core.reason = s.reason
  world : p.core.world = s.world
  files : p.core.os.files = s.os.files
  closed : p.core.os.closed = s.os.closed
  bad : p.core.os.bad = s.os.bad
  next : p.core.os.next = s.os.next
  table : p.poller.table = s.poller.table
  created : s.poller.created = true

/-- States of a server between events. -/
inductive Reach (cfg : Cfg W) (p0 : PollServer W) : PollServer W → Prop
  | start : Reach cfg p0 p0
  | reap (p : PollServer W) (now : Nat → Nat) (h : Reach cfg p0 p) : Reach cfg p0 (p.reapIdle now)
  | event (p p' : PollServer W) (ev : PollEv) (h : Reach cfg p0 p)
      (he : p.handleEvent cfg ev = .ok p') : Reach cfg p0 p'
  | stop (p : PollServer W) (r : StopReason) (h : Reach cfg p0 p) : Reach cfg p0 (p.stop r)

/-- A server started with some application on some descriptor. -/
def Serves (cfg : Cfg W) (p : PollServer W) : Prop := ∃ w listener, Reach cfg (begin w listener) p

/-- Both go on, in states that belong together; or both end in the same way. -/
def Agree {ε α β : Type} (R : α → β → Prop) : Outcome ε α → Outcome ε β → Prop
  | .ok a, .ok b => R a b
  | .err e, .err e' => e = e'
  | .ub u, .ub u' => u = u'
  | _, _ => False

/-- Both runs of `start` go the same way, and as many iterations were not begun. -/
def RunsAlike : Run W → Server.Run W → Prop
  | .returned p its, .returned s its' => Same p s ∧ its.length = its'.length
  | .threw e, .threw e' => e = e'
  | .ub u, .ub u' => u = u'
  | .running p, .running s => Same p s
  | _, _ => False

/-- An iteration with epoll in which the same happens: the same clock and calls of `stop`; what is reported
are events of the descriptors on which `::poll` reported something, and of the listener, each once and with
the same bits, transport and result of `accept`. Registrations succeed. -/
structure Mirrors (listener : Nat) (it : PollIter) (it' : Iter) : Prop where
  now : it'.now = it.now
  stops : it'.stops = it.stops
  failed : ∀ b, it.poll = .error b → it'.poll = none
  timeout : ∀ f, it.poll = .ok (0, f) → it'.poll = none
  once : ∀ evs, it'.poll = some evs → (evs.map (·.fd)).Nodup
  event : ∀ evs, it'.poll = some evs → ∃ n revents, it.poll = .ok (n, revents) ∧
    ∀ ev ∈ evs, ev.events = fromEpoll (revents ev.fd) ∧ ev.accept = it.accept ∧ ev.env = it.env ev.fd ∧
      registers ev ∧ (ev.fd = listener ∨ ev.events ≠ 0)

/-! ### Simulation -/

theorem Agree.bind {ε α β α' β' : Type} {R : α → β → Prop} {S : α' → β' → Prop} {x : Outcome ε α}
    {y : Outcome ε β} {f : α → Outcome ε α'} {g : β → Outcome ε β'} (h : Agree R x y)
    (hf : ∀ a b, R a b → Agree S (f a) (g b)) : Agree S (x >>= f) (y >>= g) := by
  rcases x with a | e | u <;> rcases y with b | e' | u' <;> simp only [Agree] at h
  · exact hf a b h
  · exact h
  · exact h

theorem Same.set {p : PollServer W} {s : Server W} (h : Same p s) (hi : Inv s) {fd : Nat}
    (ho : s.os.files.get fd ≠ none) (events : PollEvents) :
    Same (p.pollSet fd events) (s.pollSet fd events false) := by
  rw [hi.pollSet_eq ho]
  rw [if_pos (by simp [h.created])]
  obtain ⟨h1, h2, h3, h4, h5, h6, h7, h8, h9, h10, h11⟩ := h
  exact ⟨h1, h2, h3, h4, h5, h6, h7, h8, h9, by simp [PollServer.pollSet, PPoll.set, h10], h11⟩

theorem Same.dropped {p : PollServer W} {s : Server W} (h : Same p s) {fd file : Nat}
    (ho : s.os.files.get fd = some file) :
    Same ((p.pollRemove fd).erase fd) (s.dropped fd file) := by
  obtain ⟨h1, h2, h3, h4, h5, h6, h7, h8, h9, h10, h11⟩ := h
  constructor <;>
    simp [PollServer.pollRemove, PollServer.erase, Server.erase, Server.dropped, Os.close, PPoll.remove, *]

theorem Same.stop {p : PollServer W} {s : Server W} (h : Same p s) (r : StopReason) :
    Same (p.stop r) (s.stop r) := by
  obtain ⟨h1, h2, h3, h4, h5, h6, h7, h8, h9, h10, h11⟩ := h
  exact ⟨h1, h2, rfl, rfl, h5, h6, h7, h8, h9, h10, h11⟩

theorem Same.stops (rs : List StopReason) : ∀ {p : PollServer W} {s : Server W}, Same p s →
    Same (rs.foldl PollServer.stop p) (rs.foldl Server.stop s) := by
  induction rs with
  | nil => exact fun h => h
  | cons r rs ih => exact fun h => ih (h.stop r)

theorem Same.reapFold (now : Nat → Nat) : ∀ (l : Assoc (Conn W)) (p : PollServer W) (s : Server W),
    Assoc.Sorted l → Inv s → Same p s → (∀ fd c, (fd, c) ∈ l → s.conns.get fd = some c) →
    Same (l.foldl (reapOne now) p) (l.foldl (Server.reapOne now) s)
  | [], p, s, _, _, h, _ => h
  | (fd, c) :: l, p, s, hs, hi, h, hm => by
    have hc := hm fd c List.mem_cons_self
    have ho := hi.isOpen hc
    rw [List.foldl_cons, List.foldl_cons, PollServer.reapOne, Server.reapOne]
    by_cases ht : c.sim.hasTimedOut (now fd) = true
    · simp only [ht, if_true]
      rw [remove_erase ho]
      refine Same.reapFold now l _ _ hs.tail (hi.dropped hc) (h.dropped ho) fun fd' c' hx => ?_
      have hne : fd' ≠ fd := by
        have := (List.pairwise_cons.1 hs).1 _ hx
        exact Nat.ne_of_gt this
      simp only [Server.dropped]
      rw [Assoc.get_del_ne _ hne]
      exact hm fd' c' (List.mem_cons_of_mem _ hx)
    · simp only [ht]
      exact Same.reapFold now l _ _ hs.tail hi h fun fd' c' hx => hm fd' c' (List.mem_cons_of_mem _ hx)

theorem Same.reap {p : PollServer W} {s : Server W} (h : Same p s) (hi : Inv s) (now : Nat → Nat) :
    Same (p.reapIdle now) (s.reapIdle now) := by
  rw [PollServer.reapIdle, Server.reapIdle, h.conns]
  exact Same.reapFold now _ _ _ hi.sorted hi h fun _ _ hx => Assoc.mem_get hi.sorted hx

theorem Same.incoming {p : PollServer W} {s : Server W} (h : Same p s) (hi : Inv s) {ev : PollEv}
    (hev : registers ev) : Agree Same (p.handleIncoming ev) (s.handleIncoming ev) := by
  rw [PollServer.handleIncoming, Server.handleIncoming, h.conns]
  have hfiles := h.files
  by_cases hlen : s.conns.length < 128
  · rw [if_pos (by exact hlen), if_pos (by exact hlen), PollServer.establishConn, Server.establishConn]
    rcases ha : ev.accept with ⟨fd, nb, tr, now⟩ | _ | _
    · simp only [Server.tryAccept, hfiles]
      by_cases hf : s.os.files.has fd = true
      · simp only [hf, if_true]
        exact rfl
      · rw [if_neg hf, if_neg hf]
        cases nb with
        | false => exact rfl
        | true =>
          cases tr with
          | false => exact rfl
          | true =>
            have hf' : s.os.files.get fd = none := (Assoc.has_false_iff _ _).1 (by simpa using hf)
            have key : Same ({ p with core := { p.core with
                    conns := p.core.conns.put fd ⟨p.core.os.next, Sim.init p.core.world now⟩,
                    os := p.core.os.install fd } } : PollServer W)
                ({ s with conns := s.conns.put fd ⟨s.os.next, Sim.init s.world now⟩,
                          os := s.os.install fd } : Server W) := by
              obtain ⟨h1, h2, h3, h4, h5, h6, h7, h8, h9, h10, h11⟩ := h
              constructor <;> simp [Os.install, *]
            have := key.set (hi.accept hf' hlen _) (fd := fd) (by simp [Os.install]) .read
            rw [← hev.1] at this
            exact this
    · exact h
    · exact rfl
  · rw [if_neg (by exact hlen), if_neg (by exact hlen)]
    rcases ha : ev.accept with ⟨fd, nb, tr, now⟩ | _ | _
    · simp only [Server.tryAccept, hfiles]
      by_cases hf : s.os.files.has fd = true
      · simp only [hf, if_true]
        exact rfl
      · rw [if_neg hf, if_neg hf]
        cases nb with
        | false => exact rfl
        | true =>
          obtain ⟨h1, h2, h3, h4, h5, h6, h7, h8, h9, h10, h11⟩ := h
          show Same _ _
          constructor <;> simp [Os.install, Os.close, *]
    · exact h
    · exact rfl

theorem Same.connection {cfg : Cfg W} {p : PollServer W} {s : Server W} (h : Same p s) (hi : Inv s)
    {ev : PollEv} (hev : registers ev) :
    Agree Same (p.handleConnection cfg ev) (s.handleConnection cfg ev) := by
  rw [PollServer.handleConnection, Server.handleConnection, h.conns]
  rcases hc : s.conns.get ev.fd with _ | c
  · exact h
  · have ho := hi.isOpen hc
    simp only
    split
    · rw [erase_remove ho]
      exact h.dropped ho
    · split
      · exact h
      · have key : Same (if hasEvent ev.events .write = true then p.pollSet ev.fd .read else p)
            (s.before ev) := by
          rw [Server.before]
          split
          · rw [hev.1]
            exact h.set hi (by simp [ho]) _
          · exact h
        have hw : (if hasEvent ev.events .write = true then p.pollSet ev.fd .read else p).core.world =
            s.world := by
          rw [key.world, (before_same s ev).2.1]
        have hw' : (if hasEvent ev.events .write = true then s.pollSet ev.fd .read ev.ctlFails1 else s).world =
            s.world := (before_same s ev).2.1
        rw [hw, hw']
        have hib := hi.before hc
        rcases hp : ({ c.sim with world := s.world } : Sim W).process cfg ev.env with ⟨r, sim⟩ | e | u
        · simp only
          have hu : Inv ((s.before ev).updated ev.fd c sim) :=
            hib.putSim (by rw [(before_same s ev).1]; exact hc) _ _
          have hx : ((s.before ev).updated ev.fd c sim).conns.get ev.fd =
            some { c with sim } := by simp [updated]
          generalize (if hasEvent ev.events .write = true then p.pollSet ev.fd .read else p) = q at key ⊢
          have key' : Same ({ q with core := { q.core with
                conns := q.core.conns.put ev.fd { c with sim }, world := sim.world } } : PollServer W)
              ((s.before ev).updated ev.fd c sim) := by
            obtain ⟨h1, h2, h3, h4, h5, h6, h7, h8, h9, h10, h11⟩ := key
            constructor <;> simp [updated, *]
          have ho' := hu.isOpen hx
          cases r with
          | wantRead => exact key'
          | wantWrite =>
            have := key'.set hu (fd := ev.fd) (by simp [ho']) (.read ||| .write)
            rw [← hev.2] at this
            exact this
          | discard =>
            have := key'.dropped ho'
            rw [← remove_erase ho'] at this
            exact this
        · exact rfl
        · exact rfl

theorem Same.event {cfg : Cfg W} {p : PollServer W} {s : Server W} (h : Same p s) (hi : Inv s)
    {ev : PollEv} (hev : registers ev) : Agree Same (p.handleEvent cfg ev) (s.handleEvent cfg ev) := by
  rw [PollServer.handleEvent, Server.handleEvent, h.listener]
  split
  · exact h.incoming hi hev
  · exact h.connection hi hev

theorem Same.begin (w : W) (listener : Nat) : Same (begin w listener) (Server.begin w listener true false) := by
  constructor <;>
    simp [PollServer.begin, Server.begin, PollServer.pollSet, Server.pollSet, EPoll.set, Os.ctl, Os.install,
      PPoll.set, Assoc.has, Assoc.get, Assoc.put]

/-- Something happened on the descriptor, or it is the listener. -/
def heard (listener : Nat) (ev : PollEv) : Bool := decide (ev.fd = listener) || ev.events != 0

theorem silent {cfg : Cfg W} {p : PollServer W} {ev : PollEv} (h : heard p.core.listener ev = false) :
    p.handleEvent cfg ev = .ok p := by
  simp only [heard, Bool.or_eq_false_iff, decide_eq_false_iff_not, bne_eq_false_iff_eq] at h
  rw [PollServer.handleEvent, if_neg h.1, PollServer.handleConnection]
  rcases p.core.conns.get ev.fd with _ | c
  · rfl
  · rw [h.2]
    rfl

theorem Same.events {cfg : Cfg W} (evs : List PollEv) : ∀ {p : PollServer W} {s : Server W}, Same p s → Inv s →
    (∀ ev ∈ evs, registers ev) →
    Agree Same (handleEvents cfg evs p) (Server.handleEvents cfg (evs.filter (heard s.listener)) s) := by
  induction evs with
  | nil => exact fun h _ _ => h
  | cons ev evs ih =>
    intro p s h hi hev
    by_cases hh : heard s.listener ev = true
    · rw [List.filter_cons_of_pos hh, handleEvents, Server.handleEvents]
      have hev1 := hev ev List.mem_cons_self
      have key := h.event (cfg := cfg) hi hev1
      rcases hp : p.handleEvent cfg ev with p1 | e | u <;> rcases hs : s.handleEvent cfg ev with s1 | e' | u' <;>
        rw [hp, hs] at key <;> simp only [Agree] at key
      · have hst := hi.step hs
        have := ih key (hst.inv hi) fun ev hx => hev ev (List.mem_cons_of_mem _ hx)
        rw [hst.terminated.2.1] at this
        exact this
      · exact key
      · exact key
    · rw [List.filter_cons_of_neg hh, handleEvents, silent (by rw [h.listener]; simpa using hh)]
      exact ih h hi fun ev hx => hev ev (List.mem_cons_of_mem _ hx)

theorem request_nodup {p : PollServer W} (h : Assoc.Sorted p.poller.table) :
    (p.poller.request.map Prod.fst).Nodup := by
  rw [PPoll.request, List.map_map]
  show (p.poller.table.map Prod.fst).Nodup
  rw [List.Nodup, List.pairwise_map]
  exact h.imp fun hlt => Nat.ne_of_lt hlt

theorem reported_fds (it : PollIter) (l : List (Nat × PollEvents)) :
    (reported it l).map (·.fd) = (it.order l).map Prod.fst := by
  rw [reported, List.map_map]
  rfl

theorem sorted_reap (now : Nat → Nat) (l : Assoc (Conn W)) : ∀ {p : PollServer W}, Assoc.Sorted p.poller.table →
    Assoc.Sorted (l.foldl (reapOne now) p).poller.table := by
  induction l with
  | nil => exact fun h => h
  | cons e l ih =>
    intro p h
    refine ih ?_
    rw [reapOne]
    split
    · exact h.del _
    · exact h

theorem sorted_event {cfg : Cfg W} {p p' : PollServer W} {ev : PollEv} (h : Assoc.Sorted p.poller.table)
    (he : p.handleEvent cfg ev = .ok p') : Assoc.Sorted p'.poller.table := by
  rw [handleEvent] at he
  split at he
  · rw [handleIncoming] at he
    split at he
    · rw [establishConn] at he
      obtain ⟨r, _, h2⟩ := Outcome.bind_eq_ok.1 he
      rcases r with _ | ⟨fd, s⟩
      · cases h2
        exact h
      · simp only at h2
        split at h2
        · split at h2
          · cases h2
          · cases h2
            exact h.put _ _
        · cases h2
          exact h
    · obtain ⟨r, _, h2⟩ := Outcome.bind_eq_ok.1 he
      rcases r with _ | ⟨fd, s⟩ <;> cases h2 <;> exact h
  · rw [handleConnection] at he
    rcases hc : p.core.conns.get ev.fd with _ | c
    · rw [hc] at he
      cases he
      exact h
    · simp only [hc] at he
      split at he
      · cases he
        exact h.del _
      · split at he
        · cases he
          exact h
        · have hb : Assoc.Sorted
              (if hasEvent ev.events .write = true then p.pollSet ev.fd .read else p).poller.table := by
            split
            · exact h.put _ _
            · exact h
          split at he
          · cases he
          · cases he
          · split at he <;> cases he
            · exact hb.put _ _
            · exact hb
            · exact hb.del _

theorem Reach.sorted {cfg : Cfg W} {p0 p : PollServer W} (h0 : Assoc.Sorted p0.poller.table)
    (h : Reach cfg p0 p) : Assoc.Sorted p.poller.table := by
  induction h with
  | start => exact h0
  | reap p now _ ih => exact sorted_reap now _ ih
  | event p p' ev _ he ih => exact sorted_event ih he
  | stop p r _ ih => exact ih

theorem begin_sorted (w : W) (listener : Nat) : Assoc.Sorted (begin w listener).poller.table := by
  simp [PollServer.begin, pollSet, PPoll.set, Assoc.put, Assoc.Sorted]

theorem Same.iteration {cfg : Cfg W} {p : PollServer W} {s : Server W} (h : Same p s) (hi : Inv s)
    (hs : Assoc.Sorted p.poller.table) (it : PollIter) :
    ∃ it', Mirrors s.listener it it' ∧ Agree Same (p.iteration cfg it) (s.iteration cfg it') := by
  have hr := h.reap hi it.now
  have hir := hi.reap it.now
  have hsr : Assoc.Sorted (p.reapIdle it.now).poller.table := sorted_reap it.now _ hs
  have none_ : ∀ e, (p.reapIdle it.now).poller.poll it.poll = .error e →
      Agree Same (p.iteration cfg it) (s.iteration cfg { now := it.now, stops := it.stops }) := by
    intro e he
    rw [PollServer.iteration, Server.iteration]
    simp only [he, ite_self]
    exact hr.stops it.stops
  rcases hp : it.poll with b | ⟨n, revents⟩
  · refine ⟨{ now := it.now, stops := it.stops }, ⟨rfl, rfl, fun _ _ => rfl, fun _ _ => rfl, ?_, ?_⟩,
      none_ (if b then .interruptedBySignal else .error) (by rw [hp]; rfl)⟩ <;>
    · intro evs hx
      cases hx
  · by_cases hn : n = 0
    · refine ⟨{ now := it.now, stops := it.stops }, ⟨rfl, rfl, fun _ _ => rfl, fun _ _ => rfl, ?_, ?_⟩,
        none_ .timeout (by rw [hp, PPoll.poll, if_pos hn])⟩ <;>
      · intro evs hx
        cases hx
    · have hl : (p.reapIdle it.now).poller.poll it.poll =
          .ok ((p.reapIdle it.now).poller.request.map fun e => (e.1, fromEpoll (revents e.1))) := by
        rw [hp, PPoll.poll, if_neg hn]
      generalize hL : ((p.reapIdle it.now).poller.request.map fun e => (e.1, fromEpoll (revents e.1))) = L at hl
      have hLn : (L.map Prod.fst).Nodup := by
        rw [← hL, List.map_map]
        exact request_nodup hsr
      have hmem : ∀ ev ∈ reported it L, ev.events = fromEpoll (revents ev.fd) ∧ ev.accept = it.accept ∧
          ev.env = it.env ev.fd ∧ registers ev := by
        intro ev hx
        rw [reported, List.mem_map] at hx
        obtain ⟨e, he, rfl⟩ := hx
        have := (it.perm L).mem_iff.1 he
        rw [← hL, List.mem_map] at this
        obtain ⟨e', _, rfl⟩ := this
        exact ⟨rfl, rfl, rfl, rfl, rfl⟩
      refine ⟨{ now := it.now, stops := it.stops,
                poll := some ((reported it L).filter (heard (s.reapIdle it.now).listener)) },
        ⟨rfl, rfl, fun b hb => ?_, fun f hf => ?_, fun evs hx => ?_, fun evs hx => ?_⟩, ?_⟩
      · rw [hp] at hb
        cases hb
      · rw [hp] at hf
        cases hf
        exact absurd rfl hn
      · cases hx
        refine List.Nodup.sublist (List.filter_sublist.map _) ?_
        rw [reported_fds]
        exact ((it.perm L).map Prod.fst).nodup_iff.2 hLn
      · cases hx
        refine ⟨n, revents, hp, fun ev hx => ?_⟩
        obtain ⟨hx1, hx2⟩ := List.mem_filter.1 hx
        obtain ⟨h1, h2, h3, h4⟩ := hmem ev hx1
        refine ⟨h1, h2, h3, h4, ?_⟩
        rw [(reap_same hi it.now).2.1] at hx2
        simpa [heard] using hx2
      · rw [PollServer.iteration, Server.iteration]
        simp only [hl, hr.created, if_true]
        exact (hr.events (reported it L) hir fun ev hx => (hmem ev hx).2.2.2).bind fun a b hab =>
          hab.stops it.stops

theorem Reach.trans {cfg : Cfg W} {p0 p1 p : PollServer W} (h1 : Reach cfg p0 p1) (h : Reach cfg p1 p) :
    Reach cfg p0 p := by
  induction h with
  | start => exact h1
  | reap p now _ ih => exact .reap p now ih
  | event p p' ev _ he ih => exact .event p p' ev ih he
  | stop p r _ ih => exact .stop p r ih

theorem events_reach {cfg : Cfg W} (evs : List PollEv) : ∀ {p p' : PollServer W},
    handleEvents cfg evs p = .ok p' → Reach cfg p p' := by
  induction evs with
  | nil =>
    intro p p' h
    cases h
    exact .start
  | cons ev evs ih =>
    intro p p' h
    rw [handleEvents] at h
    obtain ⟨p1, h1, h2⟩ := Outcome.bind_eq_ok.1 h
    exact (Reach.event p p1 ev .start h1).trans (ih h2)

theorem stops_reach {cfg : Cfg W} (rs : List StopReason) (p : PollServer W) :
    Reach cfg p (rs.foldl stop p) := by
  induction rs generalizing p with
  | nil => exact .start
  | cons r rs ih => exact (Reach.stop p r .start).trans (ih _)

theorem iteration_reach {cfg : Cfg W} {p p' : PollServer W} {it : PollIter}
    (h : p.iteration cfg it = .ok p') : Reach cfg p p' := by
  rw [iteration] at h
  simp only at h
  split at h
  · cases h
    exact (Reach.reap p it.now .start).trans (stops_reach _ _)
  · obtain ⟨p1, h1, h2⟩ := Outcome.bind_eq_ok.1 h
    cases h2
    exact ((Reach.reap p it.now .start).trans (events_reach _ h1)).trans (stops_reach _ _)

/-- Every state `start` gets to is one of those the theorems below are about. -/
theorem run_reach {cfg : Cfg W} (its : List PollIter) : ∀ {p p' : PollServer W},
    (run cfg its p = .running p' ∨ ∃ unused, run cfg its p = .returned p' unused) → Reach cfg p p' := by
  induction its with
  | nil =>
    intro p p' h
    rw [run] at h
    split at h <;> rcases h with h | ⟨_, h⟩ <;> cases h <;> exact .start
  | cons it its ih =>
    intro p p' h
    rw [run] at h
    split at h
    · rcases h with h | ⟨_, h⟩ <;> cases h
      exact .start
    · rcases hi : p.iteration cfg it with p1 | e | u
      · simp only [hi] at h
        exact (iteration_reach hi).trans (ih h)
      · simp only [hi] at h
        rcases h with h | ⟨_, h⟩ <;> cases h
      · simp only [hi] at h
        rcases h with h | ⟨_, h⟩ <;> cases h

theorem reach_listener {cfg : Cfg W} {P : PollEv → Prop} {s0 s : Server W} (h0 : Inv s0)
    (h : Server.Reach cfg P s0 s) : s.listener = s0.listener := by
  induction h with
  | start => rfl
  | reap s now h ih => rw [(reap_same (h.inv h0) now).2.1, ih]
  | event s s' ev h _ he ih => rw [((h.inv h0).step he).terminated.2.1, ih]
  | stop s r _ ih => exact ih

theorem Same.runs {cfg : Cfg W} (its : List PollIter) : ∀ {p : PollServer W} {s : Server W}, Same p s → Inv s →
    Assoc.Sorted p.poller.table →
    ∃ its' : List Iter, its'.length = its.length ∧ (∀ e ∈ its.zip its', Mirrors s.listener e.1 e.2) ∧
      RunsAlike (run cfg its p) (Server.run cfg its' s) := by
  induction its with
  | nil =>
    intro p s h _ _
    refine ⟨[], rfl, by simp, ?_⟩
    rw [run, Server.run, h.terminated]
    cases s.terminated with
    | true => exact ⟨h, rfl⟩
    | false => exact h
  | cons it its ih =>
    intro p s h hi hs
    obtain ⟨it', hm, ha⟩ := h.iteration (cfg := cfg) hi hs it
    rcases hp : p.iteration cfg it with p1 | e | u <;> rcases hq : s.iteration cfg it' with s1 | e' | u' <;>
      rw [hp, hq] at ha <;> simp only [Agree] at ha
    · have hrs := Server.iteration_reach (P := anyEv) (fun _ _ _ _ => trivial) hq
      obtain ⟨its', h1, h2, h3⟩ := ih ha (hrs.inv hi) ((iteration_reach hp).sorted hs)
      rw [reach_listener hi hrs] at h2
      refine ⟨it' :: its', by simp [h1], ?_, ?_⟩
      · intro e he
        rw [List.zip_cons_cons, List.mem_cons] at he
        rcases he with rfl | he
        · exact hm
        · exact h2 e he
      · rw [run, Server.run, h.terminated]
        cases s.terminated with
        | true => exact ⟨h, by simp [h1]⟩
        | false =>
          simp only [hp, hq]
          exact h3
    all_goals
      obtain ⟨its', h1, h2, _⟩ := ih h hi hs
      refine ⟨it' :: its', by simp [h1], ?_, ?_⟩
      · intro e he
        rw [List.zip_cons_cons, List.mem_cons] at he
        rcases he with rfl | he
        · exact hm
        · exact h2 e he
      · rw [run, Server.run, h.terminated]
        cases s.terminated with
        | true => exact ⟨h, by simp [h1]⟩
        | false =>
          simp only [hp, hq]
          exact ha

/-! ### C148 -/

/-- C148: on a system without epoll, `start` goes as it does with epoll: for every course of events there is
one for the server with epoll, none of whose registrations is refused, in which each iteration sees the same
clock and the same events on the same descriptors, and both servers return, throw or are still running in
the same state. That `poll` also reports the descriptors nothing happened on makes no difference, nor does
the order in which it reports them. -/
theorem C148_same (cfg : Cfg W) (w : W) (listener : Nat) (its : List PollIter) :
    ∃ its' : List Iter, its'.length = its.length ∧ (∀ e ∈ its.zip its', Mirrors listener e.1 e.2) ∧
      RunsAlike (run cfg its (begin w listener)) (Server.run cfg its' (Server.begin w listener true false)) := by
  have := (Same.begin w listener).runs (cfg := cfg) its (Inv.begin _ _ _ _) (begin_sorted w listener)
  rw [show (Server.begin w listener true false).listener = listener from (pollSet_conns _ _ _ _).2.2.1] at this
  exact this

/-- C148, states: each state of a server without epoll is a state of one with epoll whose registrations were
never refused; so what holds of the connections and descriptors of every such server holds of it. -/
theorem C148_serves {cfg : Cfg W} {p : PollServer W} (h : Serves cfg p) : ∃ s, ServesWell cfg s ∧ Same p s := by
  obtain ⟨w, l, h⟩ := h
  suffices ∃ s, Server.Reach cfg registers (Server.begin w l true false) s ∧ Same p s by
    obtain ⟨s, h1, h2⟩ := this
    exact ⟨s, ⟨w, l, h1⟩, h2⟩
  induction h with
  | start => exact ⟨_, .start, Same.begin w l⟩
  | reap p now _ ih =>
    obtain ⟨s, h1, h2⟩ := ih
    exact ⟨_, .reap s now h1, h2.reap (h1.inv (Inv.begin _ _ _ _)) now⟩
  | event p p' ev _ he ih =>
    obtain ⟨s, h1, h2⟩ := ih
    have key := h2.event (cfg := cfg) (h1.inv (Inv.begin _ _ _ _))
      (ev := { ev with ctlFails1 := false, ctlFails2 := false }) ⟨rfl, rfl⟩
    have he' : p.handleEvent cfg { ev with ctlFails1 := false, ctlFails2 := false } = .ok p' := he
    rw [he'] at key
    rcases hs : s.handleEvent cfg { ev with ctlFails1 := false, ctlFails2 := false } with s1 | e | u <;>
      rw [hs] at key <;> simp only [Agree] at key
    exact ⟨s1, .event s s1 _ h1 ⟨rfl, rfl⟩ hs, key⟩
  | stop p r _ ih =>
    obtain ⟨s, h1, h2⟩ := ih
    exact ⟨_, .stop s r h1, h2.stop r⟩

/-- C148, what is asked: `::poll` is always asked about the listener and the connections, each once, and
about nothing else; all of them are open (so that `POLLNVAL`, for which the loop would spin, is never
reported); the listener and every connection are watched for reading, a connection with unsent output also
for writing (but for the case of `C78_refuted`). Unlike with epoll, nothing can be refused. -/
theorem C148_watches {cfg : Cfg W} {p : PollServer W} (h : Serves cfg p) :
    (p.poller.request.map Prod.fst).Nodup ∧
    (∀ fd, fd ∈ p.poller.request.map Prod.fst ↔ fd = p.core.listener ∨ ∃ c, p.core.conns.get fd = some c) ∧
    (∀ fd ∈ p.poller.request.map Prod.fst, p.core.os.files.get fd ≠ none) ∧
    (p.core.listener, 0x001) ∈ p.poller.request ∧
    ∀ fd c, p.core.conns.get fd = some c →
      ∃ bits, (fd, bits) ∈ p.poller.request ∧ bits &&& 0x001 ≠ 0 ∧
        (bits &&& 0x004 ≠ 0 ∨ Sim.accepted c.sim.trace = Sim.produced c.sim.trace ∨
          (Sim.frames c.sim.trace = [] ∧ Sim.writeAttempts c.sim.trace = [] ∧
            ∃ f, Spec.ServerPreface f ∧ Spec.FrameWire f (Sim.produced c.sim.trace))) := by
  obtain ⟨s, h1, h2⟩ := C148_serves h
  have hsorted : Assoc.Sorted p.poller.table := by
    obtain ⟨w, l, h⟩ := h
    exact h.sorted (begin_sorted w l)
  have hi := h1.serves.inv
  have hreq : ∀ fd bits, (fd, bits) ∈ p.poller.request ↔ s.os.interest.get fd = some bits := by
    intro fd bits
    rw [hi.table, ← h2.table, PPoll.request]
    constructor
    · intro hx
      obtain ⟨e, he, hx⟩ := List.mem_map.1 hx
      cases hx
      rw [Assoc.mem_get hsorted he]
      rfl
    · intro hx
      obtain ⟨v, hv, rfl⟩ := Option.map_eq_some_iff.1 hx
      exact List.mem_map.2 ⟨_, Assoc.get_mem hv, rfl⟩
  have hmem : ∀ fd, fd ∈ p.poller.request.map Prod.fst ↔ s.os.interest.get fd ≠ none := by
    intro fd
    constructor
    · intro hx
      obtain ⟨⟨_, bits⟩, he, rfl⟩ := List.mem_map.1 hx
      simp [(hreq _ _).1 he]
    · intro hx
      obtain ⟨bits, hb⟩ := Option.ne_none_iff_exists'.1 hx
      exact List.mem_map.2 ⟨_, (hreq _ _).2 hb, rfl⟩
  have hall : ∀ fd, fd ∈ p.poller.request.map Prod.fst ↔
      fd = p.core.listener ∨ ∃ c, p.core.conns.get fd = some c := by
    intro fd
    rw [hmem, C60_registered_partial h1, h2.listener, h2.conns]
  refine ⟨request_nodup hsorted, hall, fun fd hx => ?_, ?_, fun fd c hc => ?_⟩
  · rw [h2.files]
    rcases (hall fd).1 hx with rfl | ⟨c, hc⟩
    · rw [h2.listener, (hi.files _ 0).2 (.inl ⟨rfl, rfl⟩)]
      simp
    · rw [h2.conns] at hc
      rw [hi.isOpen hc]
      simp
  · rw [h2.listener, hreq]
    exact C79_listens_partial h1
  · rw [h2.conns] at hc
    obtain ⟨bits, hb, h3, h4⟩ := C78_watched_partial h1 hc
    exact ⟨bits, (hreq _ _).2 hb, h3, h4⟩

/-- A client connects; then it sends a request, of whose response only part can be written; nothing happens
on the listener meanwhile, which is reported all the same. -/
def exIters : List PollIter :=
  [{ poll := .ok (1, fun fd => if fd = 3 then 0x001 else 0), accept := .client 5 true true 0 },
   { poll := .ok (1, fun fd => if fd = 5 then 0x001 else 0), order := List.reverse,
     perm := List.reverse_perm,
     env := fun _ => Sim.exEnv (Spec.preface ++ Sim.exSettings ++ Sim.exGet) [36, 35] }]

/-- Then the connection has unsent output, and `poll` is asked about it accordingly. -/
example : ∃ p, Serves Sim.exCfg p ∧
    (p.poller.request == [(3, 1), (5, 5)] && p.core.world == 1 && p.core.conns.map Prod.fst == [5] &&
      match p.core.conns.get 5 with
      | some c => (Sim.produced c.sim.trace).length == 80 && (Sim.accepted c.sim.trace).length == 71
      | none => false) = true := by
  have h : (match run Sim.exCfg exIters (begin 0 3) with
      | .running p => p.poller.request == [(3, 1), (5, 5)] && p.core.world == 1 && p.core.conns.map Prod.fst == [5] &&
          match p.core.conns.get 5 with
          | some c => (Sim.produced c.sim.trace).length == 80 && (Sim.accepted c.sim.trace).length == 71
          | none => false
      | _ => false) = true := by decide +kernel
  rcases hr : run Sim.exCfg exIters (begin 0 3) with ⟨p, u⟩ | e | u | p <;> rw [hr] at h <;> try cases h
  exact ⟨p, ⟨0, 3, run_reach _ (.inl hr)⟩, h⟩

end Ion.PollServer
