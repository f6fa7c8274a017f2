import Verif.Props.ServerIter

/-! # What the server is woken for (C122) -/

namespace Ion.Sim
variable {W : Type}

/-- A connection with unsent octets. -/
theorem InUse.unsent {cfg : Cfg W} {w : W} {now : Nat} {s : Sim W} (h : InUse cfg w now s) {rest : Bytes}
    (hne : rest ≠ []) (hr : produced s.trace = accepted s.trace ++ rest) :
    s.wbuf = rest ∧ s.st ≠ .awaitingHandshake := by
  obtain ⟨p, evs, post, i⟩ := h.steps.inv_false
  refine ⟨?_, ?_⟩
  · have := i.acc
    rw [hr] at this
    exact (List.append_cancel_left this).symm
  · intro hs
    have h0 := h.steps.replied
    have h1 := (h0.silent (h0.before (.inl hs))).2.2.2
    rw [h1] at hr
    have := congrArg List.length hr
    simp at this
    exact hne (List.length_eq_zero_iff.mp (by omega))

theorem Steps.shaken {cfg : Cfg W} {w : W} {now : Nat} {s : Sim W} (h : Steps cfg false (init w now) s) :
    s.st = .awaitingHandshake → ∀ t, Ev.handshake t ∉ s.trace := by
  refine Steps.inv (P := fun s => s.st = .awaitingHandshake → ∀ t, Ev.handshake t ∉ s.trace) ?_ h
    (by simp [init])
  intro b s t hb st ih
  cases st with
  | frame _ s' hst hd hh hl hr hw ha =>
    intro h1
    rcases ha.state with k | k | k
    · rw [show s'.st = .awaitingHandshake from h1, hst] at k; cases k
    · rw [show s'.st = .awaitingHandshake from h1] at k; cases k
    · rw [show s'.st = .awaitingHandshake from h1] at k; cases k
  | readFailed _ e hw hst hr =>
    cases e <;> simp [Sim.readFailed, emit, updateState, hst]
  | preface _ rest h hw hr => simp
  | env => exact ih
  | handshake => simp
  | writeBlocked _ _ _ hst => exact fun h => absurd h hst
  | writeFailed => simp
  | wrote _ _ _ _ _ _ hst => exact fun h => absurd h hst
  | read _ _ _ _ hst => exact fun h => absurd h hst
  | readsLeft => exact ih
  | oversized => simp
  | shutdown => simp
  | close => simp
  | _ => intro h t; simpa using ih h t

theorem fill_reads (s : Sim W) (hw : s.wbuf = []) (hst : s.st ≠ .awaitingHandshake)
    (hr : s.rbuf.length + 16384 < 65536) :
    ∃ e tr, s.fill.trace = s.trace ++ e :: tr ∧ ((∃ bs t, e = .read bs t) ∨ ∃ x, e = .readFail x) := by
  rw [fill]
  have hf : ¬ s.rbuf.length + tempReadBufferSize ≥ maxReadBufferSize := by
    simp only [tempReadBufferSize, maxReadBufferSize]; omega
  have rf : ∀ e, (s.readFailed e).trace = s.trace ++ [.readFail e] := by intro e; cases e <;> rfl
  cases hrs : s.reads with
  | nil =>
    simp only [fillLoop]
    rw [if_neg hf]
    exact ⟨_, [], rf _, .inr ⟨_, rfl⟩⟩
  | cons r rs =>
    simp only [fillLoop]
    rw [if_neg hf]
    cases r with
    | fail e => exact ⟨_, [], rf _, .inr ⟨_, rfl⟩⟩
    | data bs t =>
      obtain ⟨k, -⟩ := fillLoop_steps (⟨fun _ _ _ w => (.stdExn, w), true⟩ : Cfg W) true rs
        ({ s with last := t, rbuf := s.rbuf ++ bs }.emit (.read bs t)) hw hst
      obtain ⟨tr, k⟩ := k.trace_mono
      exact ⟨.read bs t, tr, by rw [k]; simp [emit], .inl ⟨_, _, rfl⟩⟩

theorem Ends.trace_mono {s s' : Sim W} {r : ProcRes} (h : Ends s r s') : ∃ tr, s'.trace = s.trace ++ tr := by
  rcases h with ⟨rfl, -⟩ | ⟨-, -, -, rfl⟩
  · exact ⟨[], by simp⟩
  · exact ⟨_, rfl⟩

/-- A connection whose handshake is done and that owes nothing reads when it is called. -/
theorem InUse.reads {cfg : Cfg W} {w : W} {now : Nat} {s s' : Sim W} {env : Env} {r : ProcRes}
    (h : InUse cfg w now s) {t : Nat} (ht : Ev.handshake t ∈ s.trace) (hr : accepted s.trace = produced s.trace)
    (hp : s.process cfg env = .ok (r, s')) :
    ∃ e tr, s'.trace = s.trace ++ e :: tr ∧ ((∃ bs t, e = .read bs t) ∨ ∃ x, e = .readFail x) := by
  have hst : s.st ≠ .awaitingHandshake := fun hs => h.steps.shaken hs t ht
  have hw : s.wbuf = [] := by
    obtain ⟨p, evs, post, i⟩ := h.steps.inv_false
    have := i.acc
    rw [hr] at this
    simpa using this
  have hb : s.rbuf.length + 16384 < 65536 := by
    cases h with
    | new => simp [init] at ht
    | step s0 s env0 r0 h0 hp0 hr0 =>
      obtain ⟨s1, s2, k1, k2, k3⟩ := Called.elim ⟨s0, env0, h0, hp0⟩
      rcases k2 with ⟨rfl, k⟩ | ⟨rfl, -⟩
      · cases r0 with
        | wantRead =>
          rw [k3] at hst hw ⊢
          rcases k with k | ⟨-, k, -⟩ | ⟨-, k, -⟩
          · exact absurd k hst
          · show s2.rbuf.length + _ < _
            omega
          · have := k.length
            show s2.rbuf.length + _ < _
            omega
        | wantWrite => rw [k3] at hw; exact absurd hw k
        | discard => exact absurd rfl hr0
      · exact absurd rfl hr0
  obtain ⟨e, tr, h1, h2⟩ := fill_reads ({ s with hs := env.hs, reads := env.reads, writes := env.writes } : Sim W) hw hst hb
  suffices hx : ∃ tr', s'.trace = s.trace ++ e :: tr' from by
    obtain ⟨tr', hx⟩ := hx
    exact ⟨e, tr', hx, h2⟩
  have next : ∀ u : Sim W, (∃ x, u.trace = ({ s with hs := env.hs, reads := env.reads, writes := env.writes } : Sim W).fill.trace ++ x) →
      ∃ x, u.trace = s.trace ++ e :: x := by
    rintro u ⟨x, hx⟩
    exact ⟨tr ++ x, by rw [hx, h1]; simp⟩
  rw [process] at hp
  obtain ⟨⟨r1, s1⟩, p1, hp⟩ := Outcome.bind_eq_ok.mp hp
  rw [budget, loop] at p1
  obtain ⟨⟨r2, s2⟩, p2, p1⟩ := Outcome.bind_eq_ok.mp p1
  rw [iter, if_neg (by exact hst), turn, flush, if_pos (by exact hw)] at p2
  simp only [Outcome.bind_ok] at p2
  rw [if_neg (by simpa using hw)] at p2
  obtain ⟨-, f2, f3, f4⟩ := fill_steps cfg false
    ({ s with hs := env.hs, reads := env.reads, writes := env.writes } : Sim W) hw hst
  simp only [Outcome.ok.injEq, Prod.mk.injEq] at hp
  obtain ⟨-, rfl⟩ := hp
  suffices hy : ∃ x, s1.trace = s.trace ++ e :: x by
    obtain ⟨x, hy⟩ := hy
    exact ⟨x ++ [.returned r1], by simp [emit, hy]⟩
  rcases dispatch_steps cfg f3 f2 f4 p2 with ⟨rfl, d2⟩ | ⟨x, u, rfl, d2, d3⟩
  · obtain ⟨v, l1, l2⟩ := loop_steps cfg _ p1
    obtain ⟨x1, y1⟩ := d2.trace_mono
    obtain ⟨x2, y2⟩ := l1.trace_mono
    obtain ⟨x3, y3⟩ := l2.trace_mono
    exact next _ ⟨x1 ++ x2 ++ x3, by rw [y3, y2, y1]; simp⟩
  · simp only [Outcome.ok.injEq, Prod.mk.injEq] at p1
    obtain ⟨-, rfl⟩ := p1
    obtain ⟨x1, y1⟩ := d2.trace_mono
    obtain ⟨x3, y3⟩ := d3.trace_mono
    exact next _ ⟨x1 ++ x3, by rw [y3, y1]; simp⟩

end Ion.Sim

namespace Ion.Server
variable {W : Type}

/-- Readable, and nothing can be written. -/
def Useless (fd : Nat) (ev : PollEv) : Prop :=
  ev.fd = fd ∧ ev.events = .read ∧ ev.env.writes.headD (.fail .wantReadOrWrite) = .fail .wantReadOrWrite ∧ registers ev

/-- C122, "the server is not woken for input it will not read", is false of every connection whose output is not
being accepted: the kernel is asked to report that its input is readable; any number of such reports is taken, in
none of which anything is read, written or decided; and what is asked of the kernel stays the same. -/
theorem C122_refuted {cfg : Cfg W} {s : Server W} (h : ServesWell cfg s) {fd : Nat} {c : Conn W} {rest : Bytes}
    (hc : s.conns.get fd = some c) (hne : rest ≠ [])
    (hr : Sim.produced c.sim.trace = Sim.accepted c.sim.trace ++ rest) :
    (∃ bits, s.os.interest.get fd = some bits ∧ bits &&& epollIn ≠ 0) ∧
    ∀ evs : List PollEv, (∀ ev ∈ evs, Useless fd ev) →
      ∃ s' c', handleEvents cfg evs s = .ok s' ∧ s'.world = s.world ∧ s'.conns.get fd = some c' ∧
        c'.sim.trace = c.sim.trace ++ evs.flatMap (fun _ =>
          [.write rest (.fail .wantReadOrWrite), .returned .wantWrite]) ∧
        (∃ bits, s'.os.interest.get fd = some bits ∧ bits &&& epollIn ≠ 0) := by
  refine ⟨?_, ?_⟩
  · obtain ⟨bits, h1, h2, -⟩ := C78_watched_partial h hc
    exact ⟨bits, h1, h2⟩
  · obtain ⟨t, ws, ha⟩ := h.serves.alone hc
    have hu := (ha ([], s.world)).unsent hne hr
    have hw : c.sim.wbuf = rest := hu.1
    have hs : c.sim.st ≠ .awaitingHandshake := hu.2
    clear ha hr hu
    intro evs
    induction evs generalizing s c with
    | nil =>
      intro _
      obtain ⟨bits, h1, h2, -⟩ := C78_watched_partial h hc
      exact ⟨s, c, rfl, rfl, hc, by simp, bits, h1, h2⟩
    | cons ev evs ih =>
      intro he
      obtain ⟨rfl, h1, h2, h3⟩ := he ev (by simp)
      obtain ⟨sim, p1, p2, p3, p4, p5⟩ := Sim.process_stuck cfg { c.sim with world := s.world } ev.env hs
        (by rw [hw]; exact hne) _ h2
      obtain ⟨s1, e1, e2, -, e4⟩ := (C93_event h.serves hc).2.2 (by rw [h1]; decide) (by rw [h1]; decide)
        (by rw [h1]; decide) _ _ p1
      have hw1 : ServesWell cfg s1 := by
        obtain ⟨w, l, hx⟩ := h
        exact ⟨w, l, .event s s1 ev hx h3 e1⟩
      obtain ⟨s', c', g1, g2, g3, g4, g5⟩ := ih hw1 (e4 (by simp)).1 (p2.trans hw) p3
        fun x hx => he x (by simp [hx])
      refine ⟨s', c', ?_, ?_, g3, ?_, g5⟩
      · rw [handleEvents, e1]
        exact g1
      · rw [g2, e2, p5]
      · rw [g4, p4]
        simp [hw]

/-- A response of which part is not accepted. -/
example : ∃ s, ServesWell Sim.exCfg s ∧
    (match s.conns.get 5 with
      | some c => (Sim.produced c.sim.trace).length == 80 && (Sim.accepted c.sim.trace).length == 40
      | none => false) = true :=
  Shows.well (w := 0) (listener := 3)
    (evs := [exAccept 5,
      exRead 5 (Sim.exEnv (Spec.preface ++ Sim.exSettings ++ Sim.exGet) [36, 4])])
    (by decide +kernel) (by simp [exAccept, exRead, registers])

/-- C122 for the other connections: one whose handshake is done and whose output has been accepted is read from at
once when its input is reported readable. Missing: connections with unsent output. -/
theorem C122_read_partial {cfg : Cfg W} {s s' : Server W} (h : Serves cfg s) {ev : PollEv} {c : Conn W} {t : Nat}
    (hc : s.conns.get ev.fd = some c) (ht : Ev.handshake t ∈ c.sim.trace)
    (hr : Sim.accepted c.sim.trace = Sim.produced c.sim.trace)
    (he : hasEvent ev.events .error = false ∧ hasEvent ev.events .hangup = false ∧ hasEvent ev.events .read = true)
    (hs : s.handleEvent cfg ev = .ok s') :
    ∃ r sim e tr, ({ c.sim with world := s.world } : Sim W).process cfg ev.env = .ok (r, sim) ∧
      sim.trace = c.sim.trace ++ e :: tr ∧ ((∃ bs t, e = .read bs t) ∨ ∃ x, e = .readFail x) ∧
      (r ≠ .discard → s'.conns.get ev.fd = some ⟨c.file, sim⟩) := by
  have hl : ev.fd ≠ s.listener := by
    intro hx
    rw [hx, h.inv.notListener] at hc
    cases hc
  have key : ∃ r sim, ({ c.sim with world := s.world } : Sim W).process cfg ev.env = .ok (r, sim) := by
    have := hs
    rw [handleEvent, if_neg hl, handleConnection] at this
    simp only [hc, he.1, he.2.1, he.2.2] at this
    rw [if_neg (by simp), if_neg (by simp)] at this
    rw [show (if hasEvent ev.events .write = true then s.pollSet ev.fd .read ev.ctlFails1 else s) =
      s.before ev from rfl, (before_same s ev).2.1] at this
    rcases hp : ({ c.sim with world := s.world } : Sim W).process cfg ev.env with ⟨r, sim⟩ | e | u
    · exact ⟨r, sim, rfl⟩
    · rw [hp] at this; cases this
    · rw [hp] at this; cases this
  obtain ⟨r, sim, hp⟩ := key
  obtain ⟨t0, ws, ha⟩ := h.alone hc
  obtain ⟨ws', h'⟩ := Sim.rep_process cfg ev.env _ _ hp
  obtain ⟨e, tr, k1, k2⟩ := Sim.InUse.reads (s := c.sim.reworld (Sim.feed ws' ([], s.world))) (s' := sim.reworld ([], s.world)) (r := r)
    (env := ev.env) (ha (Sim.feed ws' ([], s.world))) ht hr (h' ([], s.world))
  obtain ⟨s1, e1, -, -, e4⟩ := (C93_event h hc).2.2 he.1 he.2.1 (.inl he.2.2) r sim hp
  rw [e1] at hs
  cases hs
  exact ⟨r, sim, e, tr, hp, k1, k2, fun hd => (e4 hd).1⟩

/-- A connection that has been answered. -/
example : ∃ s, ServesWell Sim.exCfg s ∧
    (match s.conns.get 5 with
      | some c => Sim.produced c.sim.trace == Sim.accepted c.sim.trace && c.sim.trace.any (fun e => match e with
          | .handshake _ => true
          | _ => false) && (Sim.handled c.sim.trace).length == 1
      | none => false) = true :=
  Shows.well (w := 0) (listener := 3)
    (evs := [exAccept 5,
      exRead 5 (Sim.exEnv (Spec.preface ++ Sim.exSettings ++ Sim.exGet) [36, 44])])
    (by decide +kernel) (by simp [exAccept, exRead, registers])

end Ion.Server
