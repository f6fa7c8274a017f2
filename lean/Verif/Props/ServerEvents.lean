import Verif.Props.ServerLoop
import Verif.Props.ConnDiscard

/-! # What an event does to its connection (C93) -/

namespace Ion.Server
variable {W : Type}

/-- A connection is gone: it is forgotten, its socket was open and is closed, and the kernel no longer
watches the descriptor; the other descriptors stay as they are. -/
structure Gone (s s' : Server W) (fd : Nat) (c : Conn W) : Prop where
  forgotten : s'.conns.get fd = none
  wasOpen : s.os.files.get fd = some c.file
  closed : s'.os.files.get fd = none
  once : s'.os.closed = c.file :: s.os.closed
  unwatched : s'.os.interest.get fd = none
  others : ∀ fd', fd' ≠ fd → s'.os.files.get fd' = s.os.files.get fd'

theorem Gone.of_dropped {s s1 : Server W} (hi : Inv s) {fd : Nat} {c : Conn W} (hc : s.conns.get fd = some c)
    (hf : s1.os.files = s.os.files) (hcl : s1.os.closed = s.os.closed) : Gone s (s1.dropped fd c.file) fd c where
  forgotten := by simp [dropped]
  wasOpen := hi.isOpen hc
  closed := by simp [dropped]
  once := by simp [dropped, hcl]
  unwatched := by simp [dropped]
  others := by
    intro fd' hn
    simp only [dropped]
    rw [Assoc.get_del_ne _ hn, hf]

theorem before_os {s : Server W} (hi : Inv s) {ev : PollEv} {c : Conn W} (hc : s.conns.get ev.fd = some c) :
    (s.before ev).os.files = s.os.files ∧ (s.before ev).os.closed = s.os.closed := by
  rw [before]
  split
  · rw [hi.pollSet_eq (by rw [hi.isOpen hc]; simp)]
    split <;> exact ⟨rfl, rfl⟩
  · exact ⟨rfl, rfl⟩

/-- C93: an event for a connection. If the kernel reports an error or a hangup, the connection is given up
without another call. If it reports that the socket is readable or writable, `process()` is called in the
connection's state with the world shared by all connections, and what it leaves is the connection's new
state; if it says "discard" the connection is given up, otherwise its socket stays open. Any other event does
nothing. -/
theorem C93_event {cfg : Cfg W} {s : Server W} (h : Serves cfg s) {ev : PollEv} {c : Conn W}
    (hc : s.conns.get ev.fd = some c) :
    (hasEvent ev.events .error = true ∨ hasEvent ev.events .hangup = true →
      ∃ s', s.handleEvent cfg ev = .ok s' ∧ Gone s s' ev.fd c ∧ s'.world = s.world) ∧
    (hasEvent ev.events .error = false → hasEvent ev.events .hangup = false →
      hasEvent ev.events .read = false → hasEvent ev.events .write = false → s.handleEvent cfg ev = .ok s) ∧
    (hasEvent ev.events .error = false → hasEvent ev.events .hangup = false →
      (hasEvent ev.events .read = true ∨ hasEvent ev.events .write = true) →
      ∀ r sim, ({ c.sim with world := s.world } : Sim W).process cfg ev.env = .ok (r, sim) →
        ∃ s', s.handleEvent cfg ev = .ok s' ∧ s'.world = sim.world ∧
          (r = .discard → Gone s s' ev.fd c) ∧
          (r ≠ .discard → s'.conns.get ev.fd = some ⟨c.file, sim⟩ ∧
            (∀ fd, s'.os.files.get fd = s.os.files.get fd) ∧ s'.os.closed = s.os.closed)) := by
  have hi := h.inv
  have hl : ev.fd ≠ s.listener := by
    intro hx
    rw [hx, hi.notListener] at hc
    cases hc
  refine ⟨?_, ?_, ?_⟩
  · intro hg
    refine ⟨s.dropped ev.fd c.file, ?_, Gone.of_dropped hi hc rfl rfl, rfl⟩
    rw [handleEvent, if_neg hl, handleConnection]
    simp only [hc]
    rw [if_pos (by simpa using hg), erase_remove (hi.isOpen hc)]
  · intro h1 h2 h3 h4
    rw [handleEvent, if_neg hl, handleConnection]
    simp [hc, h1, h2, h3, h4]
  · intro h1 h2 h3 r sim hp
    have hb := hi.before hc
    have hbs := before_same s ev
    have hbo := before_os hi hc
    have hu : Inv ((s.before ev).updated ev.fd c sim) := hb.putSim (by rw [hbs.1]; exact hc) _ _
    have hx : ((s.before ev).updated ev.fd c sim).conns.get ev.fd = some { c with sim } := by simp [updated]
    have hstep : s.handleEvent cfg ev = .ok (s.after ev c sim r) := by
      rw [handleEvent, if_neg hl, handleConnection]
      simp only [hc, h1, h2]
      rw [if_neg (by simp), if_neg (by
        rcases h3 with h3 | h3 <;> simp [h3])]
      rw [show (if hasEvent ev.events .write = true then s.pollSet ev.fd .read ev.ctlFails1 else s) =
        s.before ev from rfl, hbs.2.1, hp]
      cases r with
      | wantRead => rfl
      | wantWrite => rfl
      | discard =>
        simp only [Server.after]
        rw [← remove_erase (hu.isOpen hx)]
        rfl
    refine ⟨_, hstep, ?_, ?_, ?_⟩
    · cases r with
      | wantRead => rfl
      | wantWrite => simp only [Server.after]; rw [(pollSet_conns _ _ _ _).2.1]; rfl
      | discard => rfl
    · rintro rfl
      exact Gone.of_dropped (s1 := (s.before ev).updated ev.fd c sim) hi hc hbo.1 hbo.2
    · intro hr
      cases r with
      | wantRead => exact ⟨hx, fun fd => by simp [Server.after, updated, hbo.1], by simp [Server.after, updated, hbo.2]⟩
      | wantWrite =>
        simp only [Server.after]
        rw [hu.pollSet_eq (by rw [hu.isOpen hx]; simp)]
        split
        · exact ⟨hx, fun fd => by simp [updated, hbo.1], by simp [updated, hbo.2]⟩
        · exact ⟨hx, fun fd => by simp [updated, hbo.1], by simp [updated, hbo.2]⟩
      | discard => exact absurd rfl hr

/-- C93, when sockets are closed: handling an event closes a client's socket exactly if the event is for
that connection and reports an error or a hangup, or lets `process()` run and that says "discard". -/
theorem C93_closed {cfg : Cfg W} {s s' : Server W} (h : Serves cfg s) {ev : PollEv}
    (he : s.handleEvent cfg ev = .ok s') {fd : Nat} {c : Conn W} (hc : s.conns.get fd = some c) :
    c.file ∈ s'.os.closed ↔ fd = ev.fd ∧
      (hasEvent ev.events .error = true ∨ hasEvent ev.events .hangup = true ∨
        ((hasEvent ev.events .read = true ∨ hasEvent ev.events .write = true) ∧
          ∃ sim, ({ c.sim with world := s.world } : Sim W).process cfg ev.env = .ok (.discard, sim))) := by
  have hi := h.inv
  have hnot : c.file ∉ s.os.closed := fun hx => ((hi.closed _).1 hx).2.2 _ _ hc rfl
  have hi' := (hi.step he).inv hi
  by_cases hfd : fd = ev.fd
  · subst hfd
    obtain ⟨e1, e2, e3⟩ := C93_event h hc
    by_cases hg : hasEvent ev.events .error = true ∨ hasEvent ev.events .hangup = true
    · obtain ⟨s1, h1, h2, -⟩ := e1 hg
      rw [h1] at he
      cases he
      refine ⟨fun _ => ⟨rfl, ?_⟩, fun _ => by rw [h2.once]; simp⟩
      rcases hg with hg | hg
      · exact .inl hg
      · exact .inr (.inl hg)
    · simp only [not_or, Bool.not_eq_true] at hg
      by_cases hr : hasEvent ev.events .read = true ∨ hasEvent ev.events .write = true
      · rcases hp : ({ c.sim with world := s.world } : Sim W).process cfg ev.env with ⟨r, sim⟩ | e | u
        · obtain ⟨s1, h1, -, h3, h4⟩ := e3 hg.1 hg.2 hr r sim hp
          rw [h1] at he
          cases he
          by_cases hd : r = .discard
          · subst hd
            refine ⟨fun _ => ⟨rfl, .inr (.inr ⟨hr, sim, rfl⟩)⟩, fun _ => by rw [(h3 rfl).once]; simp⟩
          · rw [(h4 hd).2.2]
            refine ⟨fun hx => absurd hx hnot, ?_⟩
            rintro ⟨-, hx | hx | ⟨-, sim', hx⟩⟩
            · rw [hg.1] at hx; cases hx
            · rw [hg.2] at hx; cases hx
            · simp only [Outcome.ok.injEq, Prod.mk.injEq] at hx
              exact absurd hx.1 hd
        · exfalso
          rw [handleEvent, if_neg (by
            intro hx; rw [hx, hi.notListener] at hc; cases hc), handleConnection] at he
          simp only [hc, hg.1, hg.2] at he
          rw [if_neg (by simp), if_neg (by rcases hr with hr | hr <;> simp [hr])] at he
          rw [show (if hasEvent ev.events .write = true then s.pollSet ev.fd .read ev.ctlFails1 else s) =
            s.before ev from rfl, (before_same s ev).2.1, hp] at he
          cases he
        · exfalso
          rw [handleEvent, if_neg (by
            intro hx; rw [hx, hi.notListener] at hc; cases hc), handleConnection] at he
          simp only [hc, hg.1, hg.2] at he
          rw [if_neg (by simp), if_neg (by rcases hr with hr | hr <;> simp [hr])] at he
          rw [show (if hasEvent ev.events .write = true then s.pollSet ev.fd .read ev.ctlFails1 else s) =
            s.before ev from rfl, (before_same s ev).2.1, hp] at he
          cases he
      · have hr' := hr
        simp only [not_or, Bool.not_eq_true] at hr'
        rw [e2 hg.1 hg.2 hr'.1 hr'.2] at he
        cases he
        refine ⟨fun hx => absurd hx hnot, ?_⟩
        rintro ⟨-, hx | hx | ⟨hx, -⟩⟩
        · rw [hg.1] at hx; cases hx
        · rw [hg.2] at hx; cases hx
        · exact absurd hx hr
  · obtain ⟨k1, -, -⟩ := C61_isolated h he hc hfd
    refine ⟨fun hx => ?_, fun hx => absurd hx.1 hfd⟩
    exact absurd rfl (((hi'.closed _).1 hx).2.2 _ _ k1)

/-- C93, the reasons: if handling an event closes a client's socket, then the kernel reported an error or a
hangup for it, or its handshake failed for good, or there is one of the reasons of C85, that of a connection
that is alone and whose handlers find the worlds `ws` (see C80). -/
theorem C93_reason {cfg : Cfg W} {s s' : Server W} (h : Serves cfg s) {ev : PollEv}
    (he : s.handleEvent cfg ev = .ok s') {fd : Nat} {c : Conn W} (hc : s.conns.get fd = some c)
    (hx : c.file ∈ s'.os.closed) :
    hasEvent ev.events .error = true ∨ hasEvent ev.events .hangup = true ∨
    (∃ e, e ≠ .wantReadOrWrite ∧ ev.env.hs = .fail e) ∨
    ∃ sim, ({ c.sim with world := s.world } : Sim W).process cfg ev.env = .ok (.discard, sim) ∧
      ∃ ws : List W × W, Sim.Reason (Sim.replay cfg) ws sim.trace := by
  obtain ⟨-, hr | hr | ⟨-, sim, hp⟩⟩ := (C93_closed h he hc).1 hx
  · exact .inl hr
  · exact .inr (.inl hr)
  · obtain ⟨t, ws, ha⟩ := h.alone hc
    obtain ⟨ws', hw⟩ := Sim.rep_process cfg ev.env _ _ hp
    have hu := ha (Sim.feed ws' ([], s.world))
    rcases Sim.C85_reason _ _ t _ _ ev.env hu (hw ([], s.world)) with ⟨-, e, h1, h2⟩ | ⟨-, h1⟩
    · exact .inr (.inr (.inl ⟨e, h1, h2⟩))
    · exact .inr (.inr (.inr ⟨sim, hp, _, h1⟩))

/-- The second client of `exEvents` hangs up: its socket is closed. -/
example : ∃ s, ServesWell Sim.exCfg s ∧ (s.os.closed == [2] && (s.conns.get 6).isNone) = true :=
  Shows.well (w := 0) (listener := 3) (evs := exEvents.take 4) (by decide +kernel)
    (by simp [exEvents, exAccept, exRead, registers])

end Ion.Server
