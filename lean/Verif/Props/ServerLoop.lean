import Verif.Props.ConnSend
import Verif.Props.Server
import Verif.Model.Transport

/-! # The server's loop and what it watches (C60, C62–C64, C78, C79, C81) -/

namespace Ion.Server
variable {W : Type}

/-! ### Concrete servers -/

/-- Handling these events from the start ends in a state that passes a check. -/
def Shows (cfg : Cfg W) (w : W) (listener : Nat) (evs : List PollEv) (p : Server W → Bool) : Prop :=
  (match handleEvents cfg evs (begin w listener true false) with
    | .ok s => p s
    | _ => false) = true

instance (cfg : Cfg W) (w : W) (listener : Nat) (evs : List PollEv) (p : Server W → Bool) :
    Decidable (Shows cfg w listener evs p) := inferInstanceAs (Decidable (_ = true))

theorem Shows.reach {cfg : Cfg W} {w : W} {listener : Nat} {evs : List PollEv} {p : Server W → Bool}
    (h : Shows cfg w listener evs p) (P : PollEv → Prop) (hp : ∀ ev ∈ evs, P ev) :
    ∃ s, Reach cfg P (begin w listener true false) s ∧ p s = true := by
  unfold Shows at h
  cases hd : handleEvents cfg evs (begin w listener true false) with
  | ok s => rw [hd] at h; exact ⟨s, events_reach evs hp hd, h⟩
  | err e => rw [hd] at h; cases h
  | ub u => rw [hd] at h; cases h

theorem Shows.serves {cfg : Cfg W} {w : W} {listener : Nat} {evs : List PollEv} {p : Server W → Bool}
    (h : Shows cfg w listener evs p) : ∃ s, Serves cfg s ∧ p s = true := by
  obtain ⟨s, h1, h2⟩ := h.reach anyEv fun _ _ => trivial
  exact ⟨s, ⟨w, listener, true, false, h1⟩, h2⟩

theorem Shows.well {cfg : Cfg W} {w : W} {listener : Nat} {evs : List PollEv} {p : Server W → Bool}
    (h : Shows cfg w listener evs p) (hp : ∀ ev ∈ evs, registers ev) :
    ∃ s, ServesWell cfg s ∧ p s = true := by
  obtain ⟨s, h1, h2⟩ := h.reach registers hp
  exact ⟨s, ⟨w, listener, h1⟩, h2⟩

/-- A client connects on a descriptor; the listener is on 3. -/
def exAccept (fd : Nat) : PollEv := { fd := 3, events := .read, accept := .client fd true true 0 }

/-- A descriptor becomes readable. -/
def exRead (fd : Nat) (env : Env) : PollEv := { fd, events := .read, env }

/-- Two clients connect, the first sends a request, the second hangs up, a third reuses its number. -/
def exEvents : List PollEv :=
  [exAccept 5, exAccept 6,
    exRead 5 (Sim.exEnv (Spec.preface ++ Sim.exSettings ++ Sim.exGet) [36, 35]),
    { fd := 6, events := .hangup }, exAccept 6]

/-- A server with two connections on three client sockets so far, one of them closed. -/
example : ∃ s, ServesWell Sim.exCfg s ∧
    (s.conns.map Prod.fst == [5, 6] && s.os.closed == [2] && s.os.next == 4 && s.world == 1 &&
      s.os.files == [(3, 0), (5, 1), (6, 3)] && s.os.interest == [(3, 1), (5, 5), (6, 1)]) = true :=
  Shows.well (w := 0) (listener := 3) (evs := exEvents) (by decide +kernel) (by simp [exEvents, exAccept, exRead, registers])

/-- A server with 128 connections; the 129th client was accepted and closed. -/
example : Shows Sim.exCfg 0 3 ((List.range 129).map fun i => exAccept (i + 4))
    (fun s => s.conns.length == 128 && s.os.closed == [129] && s.os.files.length == 129 &&
      s.os.next == 130 && s.os.files.get 132 == none) := by
  decide +kernel

/-! ### C60, C78: what is watched -/

/-- Nothing produced is unsent, or nothing but the server's preface was produced, nothing was written, and
the client has sent no frame that was acted on. -/
def Settled (tr : List Ev) : Prop :=
  Sim.accepted tr = Sim.produced tr ∨
    (Sim.frames tr = [] ∧ Sim.writeAttempts tr = [] ∧
      ∃ f, Spec.ServerPreface f ∧ Spec.FrameWire f (Sim.produced tr))

/-- Every connection is watched for reading, and for writing unless it is settled. -/
structure Watched (s : Server W) : Prop where
  created : s.poller.created = true
  listener : s.poller.table.get s.listener = some .read
  conns : ∀ fd c, s.conns.get fd = some c →
    s.poller.table.get fd = some (.read ||| .write) ∨
      (s.poller.table.get fd = some .read ∧ Settled c.sim.trace)

theorem Watched.pollSet_table {s : Server W} (hi : Inv s) (hc : s.poller.created = true) {fd : Nat}
    (ho : s.os.files.get fd ≠ none) (events : PollEvents) :
    (s.pollSet fd events false).poller.table = s.poller.table.put fd events := by
  rw [hi.pollSet_eq ho]
  simp [hc]

theorem Watched.dropped {s : Server W} (hi : Inv s) (h : Watched s) {fd : Nat} {c : Conn W}
    (hc : s.conns.get fd = some c) : Watched (s.dropped fd c.file) := by
  refine ⟨h.created, ?_, fun fd' c' hx => ?_⟩
  · have hne : s.listener ≠ fd := by
      rintro rfl
      rw [hi.notListener] at hc
      cases hc
    simp only [Server.dropped]
    rw [Assoc.get_del_ne _ hne]
    exact h.listener
  · simp only [Server.dropped] at hx ⊢
    by_cases hne : fd' = fd
    · subst hne
      simp at hx
    · rw [Assoc.get_del_ne _ hne] at hx ⊢
      exact h.conns fd' c' hx

theorem Watched.begin (w : W) (listener : Nat) : Watched (begin w listener true false) := by
  refine ⟨by simp [Server.begin, (pollSet_conns _ _ _ _).2.2.2.2.2], ?_, ?_⟩
  · simp [Server.begin, Server.pollSet, EPoll.set, Os.ctl, Os.install, Assoc.has, Assoc.get, Assoc.put]
  · intro fd c hc
    rw [begin_conns] at hc
    simp [Assoc.get] at hc

theorem settled_alone {cfg : Cfg W} {sim sim' : Sim W} {w : W} {t : Nat} {env : Env}
    (h : Alone cfg sim t)
    (hp : ({ sim with world := w } : Sim W).process cfg env = .ok (.wantRead, sim')) :
    Settled sim'.trace := by
  obtain ⟨ws, h⟩ := h.called hp
  exact Sim.C40_nothing_stranded_partial (Sim.replay cfg) _ t (sim'.reworld ([], w)) (h ([], w))

theorem Watched.step {cfg : Cfg W} {s s' : Server W} {ev : PollEv} (hi : Inv s) (h : Watched s)
    (ha : ∀ fd c, s.conns.get fd = some c → ∃ t, Alone cfg c.sim t) (hev : registers ev)
    (hs : EvStep cfg s ev s') : Watched s' := by
  cases hs with
  | again hl ha => exact h
  | accepted fd now hl ha hf hlen =>
    have hacc := hi.accept hf hlen (Sim.init s.world now)
    have hne : s.listener ≠ fd := by
      rintro rfl
      rw [(hi.files _ 0).2 (.inl ⟨rfl, rfl⟩)] at hf
      cases hf
    have htab := Watched.pollSet_table hacc h.created (by simp [Os.install]) (fd := fd) .read
    rw [hev.1]
    refine ⟨by rw [(pollSet_conns _ _ _ _).2.2.2.2.2]; exact h.created, ?_, fun fd' c hc => ?_⟩
    · rw [htab, (pollSet_conns _ _ _ _).2.2.1, Assoc.get_put_ne _ _ hne]
      exact h.listener
    · rw [(pollSet_conns _ _ _ _).1] at hc
      rw [htab]
      by_cases hx : fd' = fd
      · subst hx
        simp only [Assoc.get_put_self] at hc ⊢
        cases hc
        exact .inr ⟨by simp, .inl rfl⟩
      · simp only at hc
        rw [Assoc.get_put_ne _ _ hx] at hc ⊢
        exact h.conns fd' c hc
  | overflow fd now tr hl ha hf hlen => exact ⟨h.created, h.listener, h.conns⟩
  | unknown hl hx => exact h
  | gone c hl hx he => exact h.dropped hi hx
  | quiet c hl hx he hr => exact h
  | processed c r sim hl hx he hr hp =>
    have hb := hi.before hx
    have hbo : (s.before ev).os.files.get ev.fd ≠ none := by
      have := hb.isOpen (by rw [(before_same s ev).1]; exact hx)
      rw [this]
      simp
    have hbtab : ∀ fd, fd ≠ ev.fd → (s.before ev).poller.table.get fd = s.poller.table.get fd := by
      intro fd hne
      rw [before]
      split
      · rw [hev.1, Watched.pollSet_table hi h.created (by rw [hi.isOpen hx]; simp),
          Assoc.get_put_ne _ _ hne]
      · rfl
    have hbself : (s.before ev).poller.table.get ev.fd = some .read ∨
        (s.before ev).poller.table.get ev.fd = some (.read ||| .write) := by
      rw [before]
      split
      · rw [hev.1, Watched.pollSet_table hi h.created (by rw [hi.isOpen hx]; simp)]
        simp
      · rcases h.conns _ _ hx with h1 | ⟨h1, _⟩ <;> simp [h1]
    have hcr : (s.before ev).poller.created = true := by
      rw [(before_same s ev).2.2.2.2.2]
      exact h.created
    have hlis : (s.before ev).poller.table.get s.listener = some .read := by
      rw [hbtab _ (Ne.symm hl)]
      exact h.listener
    have hothers : ∀ fd c', fd ≠ ev.fd →
        ((s.before ev).updated ev.fd c sim).conns.get fd = some c' →
        (s.before ev).poller.table.get fd = some (.read ||| .write) ∨
          ((s.before ev).poller.table.get fd = some .read ∧ Settled c'.sim.trace) := by
      intro fd c' hne hg
      simp only [updated] at hg
      rw [Assoc.get_put_ne _ _ hne, (before_same s ev).1] at hg
      rw [hbtab _ hne]
      exact h.conns fd c' hg
    have hu : Inv ((s.before ev).updated ev.fd c sim) :=
      hb.putSim (by rw [(before_same s ev).1]; exact hx) _ _
    cases r with
    | wantRead =>
      refine ⟨hcr, ?_, fun fd c' hg => ?_⟩
      · simp only [after, updated]
        rw [(before_same s ev).2.2.1]
        exact hlis
      · by_cases hne : fd = ev.fd
        · subst hne
          simp only [after, updated, Assoc.get_put_self] at hg ⊢
          cases hg
          obtain ⟨t, hal⟩ := ha _ _ hx
          rcases hbself with h1 | h1
          · exact .inr ⟨h1, settled_alone hal hp⟩
          · exact .inl h1
        · exact hothers fd c' hne hg
    | wantWrite =>
      simp only [after]
      have htab := Watched.pollSet_table hu (fd := ev.fd) hcr hbo (.read ||| .write)
      rw [hev.2]
      refine ⟨by rw [(pollSet_conns _ _ _ _).2.2.2.2.2]; exact hcr, ?_, fun fd c' hg => ?_⟩
      · rw [(pollSet_conns _ _ _ _).2.2.1, htab]
        simp only [updated]
        rw [(before_same s ev).2.2.1, Assoc.get_put_ne _ _ (Ne.symm hl)]
        exact hlis
      · rw [(pollSet_conns _ _ _ _).1] at hg
        rw [htab]
        by_cases hne : fd = ev.fd
        · subst hne
          simp
        · rw [Assoc.get_put_ne _ _ hne]
          exact hothers fd c' hne hg
    | discard =>
      simp only [after]
      refine ⟨hcr, ?_, fun fd c' hg => ?_⟩
      · simp only [Server.dropped, updated]
        rw [(before_same s ev).2.2.1, Assoc.get_del_ne _ (Ne.symm hl)]
        exact hlis
      · by_cases hne : fd = ev.fd
        · subst hne
          simp [Server.dropped] at hg
        · simp only [Server.dropped] at hg ⊢
          rw [Assoc.get_del_ne _ hne] at hg ⊢
          exact hothers fd c' hne hg

theorem ServesWell.watched {cfg : Cfg W} {s : Server W} (h : ServesWell cfg s) : Watched s := by
  obtain ⟨w, l, h⟩ := h
  induction h with
  | start => exact Watched.begin _ _
  | reap s now hr ih =>
    exact (reap_induct (P := Watched) now (fun s fd c hi hp hc _ => hp.dropped hi hc)
      (hr.inv (Inv.begin _ _ _ _)) ih).2
  | event s s' ev hr hp he ih =>
    have hi := hr.inv (Inv.begin _ _ _ _)
    exact ih.step hi (hr.alone (Inv.begin _ _ _ _) (begin_conns _ _ _ _)) hp (hi.step he)
  | stop s r hr ih => exact ⟨ih.created, ih.listener, ih.conns⟩

/-- C60 in full is false: if the kernel refuses to register a new client (`ENOMEM`, `ENOSPC`), the
connection is kept with its socket open but is not watched; `poller.set` only logs. -/
theorem C60_refuted : ∃ s, Serves Sim.exCfg s ∧
    (s.conns.map Prod.fst == [5] && s.os.files.get 5 == some 1 && s.os.interest.get 5 == none) = true :=
  Shows.serves (w := 0) (listener := 3) (evs := [{ exAccept 5 with ctlFails1 := true }])
    (by decide +kernel)

/-- C60, registration, for servers whose registrations the kernel never refused: a descriptor is registered
exactly if it is the listener or has a connection. (Ownership is `C60_descriptors`, without that
condition.) -/
theorem C60_registered_partial {cfg : Cfg W} {s : Server W} (h : ServesWell cfg s) (fd : Nat) :
    s.os.interest.get fd ≠ none ↔ fd = s.listener ∨ ∃ c, s.conns.get fd = some c := by
  refine ⟨(C60_descriptors h.serves).2.2.2.2.2.1 fd, fun hx => ?_⟩
  rw [h.serves.inv.table]
  rcases hx with rfl | ⟨c, hc⟩
  · simp [h.watched.listener]
  · rcases h.watched.conns fd c hc with h1 | ⟨h1, _⟩ <;> simp [h1]

/-- C78 is false: a client that has sent only the connection preface has not been sent the server's
preface, and the server does not watch for the socket to become writable. -/
theorem C78_refuted : ∃ s, ServesWell Sim.exCfg s ∧
    (match s.conns.get 5 with
      | some c => (Sim.produced c.sim.trace).length == 27 && Sim.accepted c.sim.trace == [] &&
          s.os.interest.get 5 == some epollIn
      | none => false) = true :=
  Shows.well (w := 0) (listener := 3)
    (evs := [exAccept 5, exRead 5 (Sim.exEnv clientPreface [27, 27, 27])])
    (by decide +kernel) (by simp [exAccept, exRead, registers])

/-- C78 but for that case: every connection is watched for reading, and one with unsent output is watched
for writing. Missing: the connection of `C78_refuted`, which has sent no frame and whose only unsent octets
are the server's SETTINGS frame. -/
theorem C78_watched_partial {cfg : Cfg W} {s : Server W} (h : ServesWell cfg s) {fd : Nat} {c : Conn W}
    (hc : s.conns.get fd = some c) :
    ∃ bits, s.os.interest.get fd = some bits ∧ bits &&& epollIn ≠ 0 ∧
      (bits &&& epollOut ≠ 0 ∨ Sim.accepted c.sim.trace = Sim.produced c.sim.trace ∨
        (Sim.frames c.sim.trace = [] ∧ Sim.writeAttempts c.sim.trace = [] ∧
          ∃ f, Spec.ServerPreface f ∧ Spec.FrameWire f (Sim.produced c.sim.trace))) := by
  have hw := h.watched.conns fd c hc
  rw [h.serves.inv.table]
  rcases hw with h1 | ⟨h1, h2⟩
  · exact ⟨toEpoll (.read ||| .write), by simp [h1], by decide +kernel, .inl (by decide +kernel)⟩
  · exact ⟨toEpoll .read, by simp [h1], by decide +kernel, .inr h2⟩

/-- A connection with unsent output, watched for both. -/
example : ∃ s, ServesWell Sim.exCfg s ∧
    (match s.conns.get 5 with
      | some c => (Sim.produced c.sim.trace).length == 80 &&
          (Sim.accepted c.sim.trace).length == 40 && s.os.interest.get 5 == some (epollIn ||| epollOut)
      | none => false) = true :=
  Shows.well (w := 0) (listener := 3)
    (evs := [exAccept 5,
      exRead 5 (Sim.exEnv (Spec.preface ++ Sim.exSettings ++ Sim.exGet) [36, 4])])
    (by decide +kernel) (by simp [exAccept, exRead, registers])

/-! ### C82 -/

theorem handshake_blocked (cfg : Cfg W) (s : Sim W) (env : Env) (hst : s.st = .awaitingHandshake)
    (hh : env.hs = .fail .wantReadOrWrite) :
    ∃ s', s.process cfg env = .ok (.wantRead, s') ∧ s'.st = .awaitingHandshake := by
  refine ⟨Sim.emit { s with hs := env.hs, reads := env.reads, writes := env.writes }
    (.returned .wantRead), ?_, hst⟩
  · have hb : Sim.budget { s with hs := env.hs, reads := env.reads, writes := env.writes } =
        (s.rbuf.length + Sim.available env.reads + 1) + 1 := rfl
    simp only [Sim.process]
    rw [hb]
    simp only [Sim.loop, Sim.iter, hst, if_true, Sim.handleHandshake, hh]
    rfl

/-- A blocked handshake changes nothing about what is watched, whatever it waits for. -/
theorem handshake_event {cfg : Cfg W} {s : Server W} (h : ServesWell cfg s) {ev : PollEv}
    {c : Conn W} (hc : s.conns.get ev.fd = some c) (hst : c.sim.st = .awaitingHandshake)
    (hev : ev.events = .read) (hh : ev.env.hs = .fail .wantReadOrWrite) :
    ∃ (s' : Server W) (c' : Conn W), s.handleEvent cfg ev = .ok s' ∧ s'.conns.get ev.fd = some c' ∧
      c'.sim.st = .awaitingHandshake ∧ c'.file = c.file ∧ s'.os = s.os := by
  have hl : ev.fd ≠ s.listener := by
    intro hx
    rw [hx, h.serves.inv.notListener] at hc
    cases hc
  obtain ⟨sim, hp, hst'⟩ := handshake_blocked cfg { c.sim with world := s.world } ev.env hst hh
  have he : s.handleEvent cfg ev =
      .ok { s with conns := s.conns.put ev.fd { c with sim }, world := sim.world } := by
    rw [handleEvent, if_neg hl, handleConnection]
    have h1 : hasEvent .read .error = false := by decide +kernel
    have h2 : hasEvent .read .hangup = false := by decide +kernel
    have h3 : hasEvent .read .read = true := by decide +kernel
    have h4 : hasEvent .read .write = false := by decide +kernel
    simp only [hc, hev, h1, h2, h3, h4, Bool.or_false, Bool.false_eq_true, if_false, Bool.not_true,
      Bool.false_and, hp]
  exact ⟨_, { c with sim }, he, by simp, hst', rfl, rfl⟩

/-- C82 is false: when OpenSSL cannot go on with the handshake until the socket becomes writable, the server
keeps the connection in its handshake and watches the socket for reading only. -/
theorem C82_refuted : ∃ (s s' : Server Nat) (ev : PollEv) (c c' : Conn Nat), ServesWell Sim.exCfg s ∧
    registers ev ∧ ev.events = .read ∧ s.conns.get ev.fd = some c ∧ c.sim.st = .awaitingHandshake ∧
    ev.env.hs = tlsHandshake (some .wantWrite) 0 ∧ s.handleEvent Sim.exCfg ev = .ok s' ∧
    s'.conns.get ev.fd = some c' ∧ c'.sim.st = .awaitingHandshake ∧
    s'.os.interest.get ev.fd = some epollIn ∧ epollIn &&& epollOut = 0 := by
  obtain ⟨s, hs, hx⟩ : ∃ s, ServesWell Sim.exCfg s ∧
      ((match s.conns.get 5 with
        | some c => c.sim.st == .awaitingHandshake
        | none => false) && s.os.interest.get 5 == some epollIn) = true :=
    Shows.well (w := 0) (listener := 3) (evs := [exAccept 5])
      (by decide +kernel) (by simp [exAccept, registers])
  rw [Bool.and_eq_true] at hx
  obtain ⟨h1, h2⟩ := hx
  split at h1
  · rename_i c hc
    obtain ⟨s', c', he, hc', hst', -, hos⟩ := handshake_event hs
      (ev := exRead 5 { hs := tlsHandshake (some .wantWrite) 0 }) hc (eq_of_beq h1) rfl rfl
    refine ⟨s, s', _, c, c', hs, by simp [exRead, registers], rfl, hc, eq_of_beq h1, rfl, he, hc', hst', ?_,
      by decide +kernel⟩
    rw [hos]
    exact eq_of_beq h2
  · cases h1

/-- C82 for a handshake that waits for input: the connection is kept, still in its handshake, and watched
for reading. Missing: a handshake that waits to write. -/
theorem C82_handshake_partial {cfg : Cfg W} {s : Server W} (h : ServesWell cfg s) {ev : PollEv}
    {c : Conn W} (hc : s.conns.get ev.fd = some c) (hst : c.sim.st = .awaitingHandshake)
    (hev : ev.events = .read) (hreg : registers ev) {t : Nat}
    (hh : ev.env.hs = tlsHandshake (some .wantRead) t) :
    ∃ s' c' bits, s.handleEvent cfg ev = .ok s' ∧ s'.conns.get ev.fd = some c' ∧
      c'.sim.st = .awaitingHandshake ∧ c'.file = c.file ∧
      s'.os.interest.get ev.fd = some bits ∧ bits &&& epollIn ≠ 0 := by
  obtain ⟨s', c', he, hc', hst', hf, -⟩ := handshake_event h hc hst hev (by rw [hh]; rfl)
  have hw : ServesWell cfg s' := by
    obtain ⟨w, l, hr⟩ := h
    exact ⟨w, l, hr.trans (.event _ _ ev .start hreg he)⟩
  obtain ⟨bits, hb1, hb2, _⟩ := C78_watched_partial hw hc'
  exact ⟨_, c', bits, he, hc', hst', hf, hb1, hb2⟩

/-- A connection in its handshake. -/
example : ∃ s, ServesWell Sim.exCfg s ∧
    (match s.conns.get 5 with
      | some c => c.sim.st == .awaitingHandshake
      | none => false) = true :=
  Shows.well (w := 0) (listener := 3) (evs := [exAccept 5, exRead 5 { hs := tlsHandshake (some .wantRead) 0 }])
    (by decide +kernel) (by simp [exAccept, exRead, registers])

/-! ### C62 -/

theorem EvStep.next_le {cfg : Cfg W} {s s' : Server W} {ev : PollEv} (hi : Inv s)
    (hs : EvStep cfg s ev s') : s.os.next ≤ s'.os.next := by
  have hset : ∀ (s : Server W) fd events fails, Inv s → s.os.files.get fd ≠ none →
      (s.pollSet fd events fails).os.next = s.os.next := by
    intro s fd events fails hi ho
    rw [hi.pollSet_eq ho]
    split <;> rfl
  cases hs with
  | again hl ha => exact Nat.le_refl _
  | accepted fd now hl ha hf hlen =>
    rw [hset _ _ _ _ (hi.accept hf hlen _) (by simp [Os.install])]
    exact Nat.le_succ _
  | overflow fd now tr hl ha hf hlen =>
    simp only [Os.install, Os.close, Assoc.get_put_self]
    exact Nat.le_succ _
  | unknown hl hx => exact Nat.le_refl _
  | gone c hl hx he => exact Nat.le_refl _
  | quiet c hl hx he hr => exact Nat.le_refl _
  | processed c r sim hl hx he hr hp =>
    have hb := hi.before hx
    have hbn : (s.before ev).os.next = s.os.next := by
      rw [before]
      split
      · exact hset _ _ _ _ hi (by rw [hi.isOpen hx]; simp)
      · rfl
    have hu : Inv ((s.before ev).updated ev.fd c sim) :=
      hb.putSim (by rw [(before_same s ev).1]; exact hx) _ _
    have hx' : ((s.before ev).updated ev.fd c sim).conns.get ev.fd = some { c with sim } := by
      simp [updated]
    cases r with
    | wantRead => exact Nat.le_of_eq hbn.symm
    | wantWrite =>
      simp only [after]
      rw [hset _ _ _ _ hu (by rw [hu.isOpen hx']; simp)]
      exact Nat.le_of_eq hbn.symm
    | discard => exact Nat.le_of_eq hbn.symm

/-- The socket of a connection created at clock value `t0` is only used by that connection. -/
theorem Reach.since {cfg : Cfg W} {P : PollEv → Prop} {s0 s : Server W} (h0 : Inv s0) {fd : Nat}
    {c0 : Conn W} {t0 : Nat} (hc0 : s0.conns.get fd = some c0) (ha0 : Alone cfg c0.sim t0)
    (h : Reach cfg P s0 s) :
    c0.file < s.os.next ∧
      ∀ c, s.conns.get fd = some c → c.file = c0.file → Alone cfg c.sim t0 := by
  induction h with
  | start =>
    refine ⟨(h0.lt _ _ hc0).2, fun c hc _ => ?_⟩
    rw [hc0] at hc
    cases hc
    exact ha0
  | reap s now hr ih =>
    refine (reap_induct (P := fun s => c0.file < s.os.next ∧
      ∀ c, s.conns.get fd = some c → c.file = c0.file → Alone cfg c.sim t0) now ?_ (hr.inv h0) ih).2
    intro s fd' c hi hp hc ht
    refine ⟨hp.1, fun c' hx => ?_⟩
    simp only [Server.dropped, Assoc.get_del] at hx
    split at hx
    · cases hx
    · exact hp.2 c' hx
  | event s s' ev hr hp he ih =>
    have hi := hr.inv h0
    have hs := hi.step he
    refine ⟨Nat.lt_of_lt_of_le ih.1 (hs.next_le hi), fun c hc hf => ?_⟩
    rcases hs.conns hi hc with h | ⟨_, h, _⟩ | ⟨_, c1, r, h1, h2, h3, h4⟩
    · exact ih.2 c h hf
    · have := ih.1
      omega
    · exact (ih.2 c1 h1 (h2.symm.trans hf)).process h4 h3
  | stop s r hr ih => exact ih

theorem Serves.reach {cfg : Cfg W} {s0 s : Server W} (h0 : Serves cfg s0)
    (h : Reach cfg anyEv s0 s) : Serves cfg s := by
  obtain ⟨w, l, c, f, h0⟩ := h0
  exact ⟨w, l, c, f, h0.trans h⟩

/-- C62: take a connection the server created at clock value `t0`, any later state in which the server
still has it, and any clock. Reaping closes it, and forgets it, exactly if more than five seconds have
passed since its last progress (or its creation); otherwise it stays as it is. -/
theorem C62_reap {cfg : Cfg W} {s0 s : Server W} (h0 : Serves cfg s0) {fd t0 : Nat} {w : W}
    {c0 c : Conn W} (hc0 : s0.conns.get fd = some c0) (hn : c0.sim = Sim.init w t0)
    (hr : Reach cfg anyEv s0 s) (hc : s.conns.get fd = some c) (hf : c.file = c0.file)
    (now : Nat → Nat) :
    (Sim.lastProgress t0 c.sim.trace + 5 * 10 ^ 9 < now fd →
      (s.reapIdle now).conns.get fd = none ∧ (s.reapIdle now).os.files.get fd = none ∧
        c.file ∈ (s.reapIdle now).os.closed) ∧
    (¬Sim.lastProgress t0 c.sim.trace + 5 * 10 ^ 9 < now fd →
      (s.reapIdle now).conns.get fd = some c ∧ (s.reapIdle now).os.files.get fd = some c.file) := by
  have hs : Serves cfg s := h0.reach hr
  have hi := hs.inv
  have hi' := hi.reap now
  obtain ⟨ws, ha⟩ := (hr.since h0.inv hc0 (hn ▸ Alone.init cfg w t0)).2 c hc hf
  obtain ⟨calls, hcalls⟩ := (ha ([], s.world)).run
  have hidle : c.sim.hasTimedOut (now fd) = true ↔
      Sim.lastProgress t0 c.sim.trace + 5 * 10 ^ 9 < now fd := Sim.C48_idle hcalls (now fd)
  have hget := reap_get hi now fd
  rw [hc] at hget
  simp only at hget
  constructor
  · intro hlt
    rw [if_pos (hidle.2 hlt)] at hget
    have hnl : fd ≠ s.listener := by
      rintro rfl
      rw [hi.notListener] at hc
      cases hc
    have key : (s.reapIdle now).listener = s.listener ∧ (s.reapIdle now).os.next = s.os.next ∧
        ∀ fd' c', (s.reapIdle now).conns.get fd' = some c' → s.conns.get fd' = some c' := by
      refine (reap_induct (P := fun x => x.listener = s.listener ∧ x.os.next = s.os.next ∧
        ∀ fd' c', x.conns.get fd' = some c' → s.conns.get fd' = some c') now ?_ hi
        ⟨rfl, rfl, fun _ _ h => h⟩).2
      intro x fd' c' _ hp hcx _
      refine ⟨hp.1, hp.2.1, fun fd'' c'' hx => ?_⟩
      simp only [Server.dropped, Assoc.get_del] at hx
      split at hx
      · cases hx
      · exact hp.2.2 _ _ hx
    refine ⟨hget, ?_, ?_⟩
    · rcases hx : (s.reapIdle now).os.files.get fd with _ | f
      · rfl
      · rcases (hi'.files fd f).1 hx with ⟨h1, _⟩ | ⟨c', h1, _⟩
        · rw [key.1] at h1
          exact absurd h1 hnl
        · rw [hget] at h1
          cases h1
    · rw [hi'.closed]
      obtain ⟨hlo, hhi⟩ := hi.lt _ _ hc
      refine ⟨hlo, by rw [key.2.1]; exact hhi, fun fd' c' hx he => ?_⟩
      have hx' := key.2.2 _ _ hx
      have := hi.inj fd' fd c' c hx' hc he
      subst this
      rw [hget] at hx
      cases hx
  · intro hlt
    rw [if_neg (fun hh => hlt (hidle.1 hh))] at hget
    exact ⟨hget, hi'.isOpen hget⟩

/-- Two clients that connected at clock value 0: one that never sent anything is closed first, one whose
last progress was at 3 later. -/
example : ∃ s, Serves Sim.exCfg s ∧
    (((s.reapIdle fun _ => 5000000000).conns.map Prod.fst == [5, 6]) &&
      ((s.reapIdle fun _ => 5000000001).conns.map Prod.fst == [5]) &&
      ((s.reapIdle fun _ => 5000000003).conns.map Prod.fst == [5]) &&
      ((s.reapIdle fun _ => 5000000004).conns.map Prod.fst == [])) = true :=
  Shows.serves (w := 0) (listener := 3) (evs := exEvents) (by decide +kernel)

/-! ### C63 -/

theorem EvStep.terminated {cfg : Cfg W} {s s' : Server W} {ev : PollEv}
    (hs : EvStep cfg s ev s') : s'.terminated = s.terminated ∧ s'.listener = s.listener ∧
      s'.poller.created = s.poller.created := by
  cases hs with
  | again hl ha => exact ⟨rfl, rfl, rfl⟩
  | accepted fd now hl ha hf hlen =>
    exact ⟨(pollSet_conns _ _ _ _).2.2.2.1, (pollSet_conns _ _ _ _).2.2.1,
      (pollSet_conns _ _ _ _).2.2.2.2.2⟩
  | overflow fd now tr hl ha hf hlen => exact ⟨rfl, rfl, rfl⟩
  | unknown hl hx => exact ⟨rfl, rfl, rfl⟩
  | gone c hl hx he => exact ⟨rfl, rfl, rfl⟩
  | quiet c hl hx he hr => exact ⟨rfl, rfl, rfl⟩
  | processed c r sim hl hx he hr hp =>
    have hb := before_same s ev
    cases r with
    | wantRead => exact ⟨hb.2.2.2.1, hb.2.2.1, hb.2.2.2.2.2⟩
    | wantWrite =>
      have hp := pollSet_conns ((s.before ev).updated ev.fd c sim) ev.fd (.read ||| .write) ev.ctlFails2
      exact ⟨hp.2.2.2.1.trans hb.2.2.2.1, hp.2.2.1.trans hb.2.2.1, hp.2.2.2.2.2.trans hb.2.2.2.2.2⟩
    | discard => exact ⟨hb.2.2.2.1, hb.2.2.1, hb.2.2.2.2.2⟩

theorem reap_same {s : Server W} (hi : Inv s) (now : Nat → Nat) :
    (s.reapIdle now).terminated = s.terminated ∧ (s.reapIdle now).listener = s.listener ∧
      (s.reapIdle now).poller.created = s.poller.created :=
  (reap_induct (P := fun x => x.terminated = s.terminated ∧ x.listener = s.listener ∧
    x.poller.created = s.poller.created) now (fun _ _ _ _ hp _ _ => hp) hi ⟨rfl, rfl, rfl⟩).2

theorem events_terminated {cfg : Cfg W} (evs : List PollEv) : ∀ {s s' : Server W}, Inv s →
    handleEvents cfg evs s = .ok s' → s'.terminated = s.terminated := by
  induction evs with
  | nil =>
    intro s s' _ h
    cases h
    rfl
  | cons ev evs ih =>
    intro s s' hi h
    rw [handleEvents] at h
    obtain ⟨s1, h1, h2⟩ := Outcome.bind_eq_ok.1 h
    exact (ih ((hi.step h1).inv hi) h2).trans (hi.step h1).terminated.1

/-- An iteration reaps, handles the events, and takes note of `stop`. -/
theorem iteration_ok {cfg : Cfg W} {s s' : Server W} {it : Iter} (h : s.iteration cfg it = .ok s') :
    ∃ s1 evs, handleEvents cfg evs (s.reapIdle it.now) = .ok s1 ∧ s' = it.stops.foldl stop s1 := by
  rw [iteration] at h
  simp only at h
  split at h
  · cases h
    exact ⟨_, [], rfl, rfl⟩
  · rename_i evs he
    obtain ⟨s1, h1, h2⟩ := Outcome.bind_eq_ok.1 h
    cases h2
    exact ⟨s1, evs, h1, rfl⟩

/-- C63, returning: if `stop` was called before or during an iteration, `start` begins no further
iteration and returns, with the reason given last. `pre` are the iterations before, `rest` those that would
follow. -/
theorem C63_stops {cfg : Cfg W} (rest : List Iter) (it : Iter) (r : StopReason)
    (hr : it.stops.getLast? = some r) :
    ∀ (pre : List Iter) (s s1 s2 : Server W), run cfg pre s = .running s1 →
      s1.iteration cfg it = .ok s2 →
      run cfg (pre ++ it :: rest) s = .returned s2 rest ∧ s2.reason = r ∧ s2.terminated = true
  | [], s, s1, s2, h1, h2 => by
    rw [run] at h1
    split at h1
    · cases h1
    · rename_i ht
      cases h1
      obtain ⟨s3, evs, _, rfl⟩ := iteration_ok h2
      obtain ⟨l, hl⟩ : ∃ l, it.stops = l ++ [r] := by
        rcases List.eq_nil_or_concat it.stops with h | ⟨l, x, h⟩
        · rw [h] at hr
          cases hr
        · rw [List.concat_eq_append] at h
          rw [h] at hr
          simp at hr
          exact ⟨l, by rw [h, hr]⟩
      have hlast : it.stops.foldl stop s3 = (l.foldl stop s3).stop r := by
        rw [hl, List.foldl_append]
        rfl
      have hres : run cfg rest (it.stops.foldl stop s3) = .returned (it.stops.foldl stop s3) rest := by
        rw [run.eq_def]
        rw [hlast]
        simp [stop]
      refine ⟨?_, by rw [hlast]; rfl, by rw [hlast]; rfl⟩
      rw [List.nil_append, run, if_neg ht]
      simp only [h2]
      exact hres
  | p :: pre, s, s1, s2, h1, h2 => by
    rw [run] at h1
    rw [List.cons_append, run]
    split at h1
    · cases h1
    · rename_i ht
      rw [if_neg ht]
      rcases hi : s.iteration cfg p with s' | e | u
      · simp only [hi] at h1 ⊢
        exact C63_stops rest it r hr pre s' s1 s2 h1 h2
      · simp only [hi] at h1
        cases h1
      · simp only [hi] at h1
        cases h1

/-- C63, going on: as long as `stop` is not called, `start` does not return (it goes on, or an exception
leaves it, or a handler or library call had undefined behaviour). -/
theorem C63_runs {cfg : Cfg W} (its : List Iter) : ∀ {s : Server W}, Inv s → s.terminated = false →
    (∀ it ∈ its, it.stops = []) → ∀ s' unused, run cfg its s ≠ .returned s' unused := by
  induction its with
  | nil =>
    intro s hi ht _ s' unused h
    rw [run] at h
    simp [ht] at h
  | cons it its ih =>
    intro s hi ht hst s' unused h
    rw [run] at h
    simp only [ht, Bool.false_eq_true, if_false] at h
    rcases hx : s.iteration cfg it with s1 | e | u
    · simp only [hx] at h
      have hi1 := (iteration_reach (P := anyEv) (fun _ _ _ _ => trivial) hx).inv hi
      refine ih hi1 ?_ (fun x hm => hst x (List.mem_cons_of_mem _ hm)) s' unused h
      obtain ⟨s2, evs, h1, rfl⟩ := iteration_ok hx
      rw [hst it (by simp)]
      rw [List.foldl_nil, events_terminated evs (hi.reap it.now) h1, (reap_same hi it.now).1, ht]
    · simp only [hx] at h
      cases h
    · simp only [hx] at h
      cases h

theorem begin_terminated (w : W) (listener : Nat) (created fails : Bool) :
    (begin w listener created fails).terminated = false := (pollSet_conns _ _ _ _).2.2.2.1

/-- C63, going on, from the start. -/
theorem C63_runs_start (cfg : Cfg W) (w : W) (listener : Nat) (created fails : Bool) (its : List Iter)
    (h : ∀ it ∈ its, it.stops = []) (s' : Server W) (unused : List Iter) :
    run cfg its (begin w listener created fails) ≠ .returned s' unused :=
  C63_runs its (Inv.begin _ _ _ _) (begin_terminated _ _ _ _) h s' unused

/-- An iteration in which nothing happens. -/
def idle : Iter := { poll := none }

/-- A server that is stopped twice during its second iteration, in which a client connects. -/
example : ∃ s, run Sim.exCfg
    ([idle] ++ { poll := some [exAccept 5], stops := [.other, .signal] } :: [idle, idle])
    (begin 0 3 true false) = .returned s [idle, idle] ∧ s.reason = .signal := by
  exact ⟨_, rfl, rfl⟩

/-! ### C64 -/

/-- C64 is false: in any state, with whatever established connections, if `accept` fails (for instance
`ECONNABORTED` or `EMFILE`), if the new socket cannot be made non-blocking, or if its transport cannot be
created, an exception leaves `start`: no further event is handled. -/
theorem C64_refuted {cfg : Cfg W} {s : Server W} (h : Serves cfg s) (ht : s.terminated = false)
    (hc : s.poller.created = true) (it : Iter) (ev : PollEv) (evs : List PollEv) (rest : List Iter)
    (hp : it.poll = some (ev :: evs)) (hl : ev.fd = s.listener) :
    (ev.accept = .fail → run cfg (it :: rest) s = .threw .accept) ∧
    (∀ fd transport now, ev.accept = .client fd false transport now →
      (s.reapIdle it.now).os.files.get fd = none → run cfg (it :: rest) s = .threw .fcntl) ∧
    (∀ fd now, ev.accept = .client fd true false now → (s.reapIdle it.now).os.files.get fd = none →
      (s.reapIdle it.now).conns.length < 128 → run cfg (it :: rest) s = .threw .transport) := by
  have hsame := reap_same h.inv it.now
  have key : ∀ e, (s.reapIdle it.now).handleEvent cfg ev = .err e →
      run cfg (it :: rest) s = .threw e := by
    intro e he
    rw [run]
    simp only [ht, Bool.false_eq_true, if_false]
    have : s.iteration cfg it = .err e := by
      rw [iteration]
      simp only [hsame.2.2, hc, if_true, hp, handleEvents, he]
      rfl
    simp only [this]
  have hev : (s.reapIdle it.now).handleEvent cfg ev = (s.reapIdle it.now).handleIncoming ev := by
    rw [handleEvent, if_pos (by rw [hl, hsame.2.1])]
  refine ⟨fun ha => key _ ?_, fun fd tr now ha hf => key _ ?_, fun fd now ha hf hlen => key _ ?_⟩
  · rw [hev, handleIncoming]
    split
    · rw [establishConn, ha]
      rfl
    · rw [ha]
      rfl
  · have ho : (s.reapIdle it.now).os.files.has fd = false := (Assoc.has_false_iff _ _).2 hf
    rw [hev, handleIncoming]
    split
    · simp [establishConn, ha, tryAccept, ho]
    · simp [ha, tryAccept, ho]
  · have ho : (s.reapIdle it.now).os.files.has fd = false := (Assoc.has_false_iff _ _).2 hf
    rw [hev, handleIncoming, if_pos (by exact hlen)]
    simp [establishConn, ha, tryAccept, ho]

/-- C64 for a client that is gone by the time it is accepted (`EAGAIN`, `EWOULDBLOCK`) and for an
interrupted call (`EINTR`): nothing changes. Missing: every other failure. -/
theorem C64_accept_partial (cfg : Cfg W) (s : Server W) (ev : PollEv) (hl : ev.fd = s.listener)
    (ha : ev.accept = .again) : s.handleEvent cfg ev = .ok s := by
  rw [handleEvent, if_pos hl, handleIncoming]
  split
  · rw [establishConn, ha]
    rfl
  · rw [ha]
    rfl

/-- The server of the example above, with two established connections, ended by an aborted third. -/
example : ∃ s, Serves Sim.exCfg s ∧ (s.conns.map Prod.fst == [5, 6] && s.terminated == false &&
    s.poller.created && s.listener == 3) = true :=
  Shows.serves (w := 0) (listener := 3) (evs := exEvents) (by decide +kernel)

/-! ### C79 -/

/-- C79 is false: if `epoll_create1` fails, `start` neither fails nor ever accepts a client, whatever
happens; it goes round its loop (without waiting, as `epoll_wait` fails at once) until it is stopped. -/
theorem C79_refuted (cfg : Cfg W) (w : W) (listener : Nat) (its : List Iter) (fails : Bool)
    (h : ∀ it ∈ its, it.stops = []) :
    ∃ s, run cfg its (begin w listener false fails) = .running s ∧ s.conns = [] ∧
      s.os.interest = [] := by
  have key : ∀ (its : List Iter) (s : Server W), (∀ it ∈ its, it.stops = []) → s.terminated = false →
      s.poller.created = false → s.conns = [] → run cfg its s = .running s := by
    intro its
    induction its with
    | nil =>
      intro s _ h1 _ _
      rw [run]
      simp [h1]
    | cons it its ih =>
      intro s hst h1 h2 h3
      rw [run]
      have hr : s.reapIdle it.now = s := by
        rw [reapIdle, h3]
        rfl
      have hit : s.iteration cfg it = .ok s := by
        rw [iteration]
        simp only [hr, h2, Bool.false_eq_true, if_false, hst it (by simp)]
        rfl
      simp only [h1, Bool.false_eq_true, if_false, hit]
      exact ih s (fun x hx => hst x (List.mem_cons_of_mem _ hx)) h1 h2 h3
  refine ⟨_, key its _ h (begin_terminated _ _ _ _) ?_ (begin_conns _ _ _ _), begin_conns _ _ _ _, ?_⟩
  · simp [begin, (pollSet_conns _ _ _ _).2.2.2.2.2]
  · simp [begin, pollSet, EPoll.set, Os.install]

/-- C79 if the poller could be created and no registration was refused: as long as `start` runs, the
listener is watched for clients. Missing: the case of `C79_refuted`, and a refused registration of the
listener (also only logged). -/
theorem C79_listens_partial {cfg : Cfg W} {s : Server W} (h : ServesWell cfg s) :
    s.os.interest.get s.listener = some epollIn := by
  rw [h.serves.inv.table, h.watched.listener]
  decide +kernel

/-! ### C81 -/

/-- C81: when the events of one call of `poll` are handled, each event that was reported for a connection
is handled by that very connection, in the state in which it was reported, whatever the events before it
did: descriptors of connections that were dropped may be reused by clients accepted in between, but no
event reported for the old connection reaches the new one. -/
theorem C81_batch {cfg : Cfg W} (pre : List PollEv) : ∀ {s s1 : Server W},
    Serves cfg s → handleEvents cfg pre s = .ok s1 → ∀ (ev : PollEv), (∀ e ∈ pre, e.fd ≠ ev.fd) →
    ev.fd ≠ s.listener → s.os.files.get ev.fd ≠ none →
      ∃ c, s.conns.get ev.fd = some c ∧ s1.conns.get ev.fd = some c ∧
        s1.os.files.get ev.fd = s.os.files.get ev.fd := by
  induction pre with
  | nil =>
    intro s s1 hs h ev _ hl ho
    cases h
    rcases hx : s.os.files.get ev.fd with _ | f
    · exact absurd hx ho
    · obtain ⟨c, hc, _⟩ := ((C60_descriptors hs).1 ev.fd f hl).1 hx
      exact ⟨c, hc, hc, rfl⟩
  | cons e pre ih =>
    intro s s1 hs h ev hne hl ho
    rw [handleEvents] at h
    obtain ⟨s2, h1, h2⟩ := Outcome.bind_eq_ok.1 h
    rcases hx : s.os.files.get ev.fd with _ | f
    · exact absurd hx ho
    · obtain ⟨c, hc, hcf⟩ := ((C60_descriptors hs).1 ev.fd f hl).1 hx
      have hiso := C61_isolated hs h1 hc (Ne.symm (hne e (by simp)))
      have hs2 : Serves cfg s2 := hs.reach (.event s s2 e .start trivial h1)
      have hl2 := (hs.inv.step h1).terminated.2.1
      obtain ⟨c', hc', hc1, hf1⟩ := ih hs2 h2 ev (fun x hm => hne x (List.mem_cons_of_mem _ hm))
        (by rw [hl2]; exact hl) (by rw [hiso.2.1]; simp)
      rw [hiso.1] at hc'
      cases hc'
      exact ⟨c, hc, hc1, by rw [hf1, hiso.2.1, hcf]⟩

/-- One batch in which a connection hangs up, a client is accepted under its number, and the event for
another connection follows. -/
example : Shows Sim.exCfg 0 3
    ([exAccept 5, exAccept 6] ++ [{ fd := 5, events := .hangup }, exAccept 5, exRead 6 {}])
    (fun s => s.os.files == [(3, 0), (5, 3), (6, 2)] && s.conns.map Prod.fst == [5, 6]) := by
  decide +kernel

end Ion.Server
