import Verif.Model.Process
import Verif.Props.ServerIter

/-! # The process (C97–C100) -/

namespace Ion.Props

/-! ### C97: the listening socket -/

theorem octets_htons (little : Bool) (port : UInt16) :
    octets16 little (htons little port) =
      [UInt8.ofNat (port.toNat / 256), UInt8.ofNat (port.toNat % 256)] := by
  have hp := port.toNat_lt
  have h1 : (port >>> 8).toUInt8 = UInt8.ofNat (port.toNat / 256) := by
    apply UInt8.toNat_inj.mp
    simp [Nat.shiftRight_eq_div_pow]
  have h2 : port.toUInt8 = UInt8.ofNat (port.toNat % 256) := by
    apply UInt8.toNat_inj.mp
    simp
  cases little
  · simp only [octets16, htons, if_false, Bool.false_eq_true]
    rw [h1, h2]
  · have h3 : (port <<< 8 ||| port >>> 8).toUInt8 = UInt8.ofNat (port.toNat / 256) := by
      apply UInt8.toNat_inj.mp
      simp [Nat.shiftRight_eq_div_pow, Nat.shiftLeft_eq]
    have h4 : ((port <<< 8 ||| port >>> 8) >>> 8).toUInt8 = UInt8.ofNat (port.toNat % 256) := by
      apply UInt8.toNat_inj.mp
      simp [Nat.shiftRight_eq_div_pow, Nat.shiftLeft_eq]
      have := Nat.or_div_two_pow (a := port.toNat * 256 % 65536) (b := port.toNat / 256) (n := 8)
      rw [show (256 : Nat) = 2 ^ 8 from rfl, this, show port.toNat * 2 ^ 8 % 65536 / 2 ^ 8 = port.toNat % 256 by omega,
        show port.toNat / 2 ^ 8 / 2 ^ 8 = 0 by omega, Nat.or_zero]
      omega
    simp only [octets16, htons, if_true]
    rw [h3, h4]

/-- Every call succeeds. -/
def AllWell (env : ListenEnv) (fd : Nat) (flags : UInt32) : Prop :=
  env.socket = some fd ∧ env.getfl = some flags ∧ env.setfl = true ∧ env.reuse = true ∧ env.bind = true ∧
    env.listen = true

/-- C97: if every call succeeds, the listener is a new open socket that does not block (O_NONBLOCK is added
to its flags, nothing else), whose address can be used again at once, bound to the port of the configuration in network order on all interfaces, and which
listens with the longest queue. Otherwise `start` fails with the first call that failed, and a socket that
had been opened is closed, once; no other descriptor is touched. -/
theorem C97_listener (little : Bool) (port : UInt16) (env : ListenEnv) (os : Os)
    (hfresh : ∀ fd, env.socket = some fd → os.files.get fd = none) :
    (∀ fd flags, AllWell env fd flags → ∃ sock, ListenSock.make little port env os = (.ok sock, os.install fd) ∧
      sock.fd = fd ∧ sock.flags &&& 0x800 ≠ 0 ∧ sock.flags = flags ||| 0x800 ∧
      (∀ bits, flags &&& bits = bits → sock.flags &&& bits = bits) ∧
      sock.reuse = true ∧
      sock.bound = some (0, [UInt8.ofNat (port.toNat / 256), UInt8.ofNat (port.toNat % 256)]) ∧
      sock.backlog = some 4096) ∧
    (∀ sock os', ListenSock.make little port env os = (.ok sock, os') → ∃ fd flags, AllWell env fd flags) ∧
    (∀ e os', ListenSock.make little port env os = (.error e, os') →
      (∀ fd, os'.files.get fd = os.files.get fd) ∧ os'.bad = os.bad ∧
      (e = .socket → os' = os) ∧ (e ≠ .socket → os'.closed = os.next :: os.closed) ∧
      (e = .socket ↔ env.socket = none) ∧
      (e = .getfl ↔ env.socket ≠ none ∧ env.getfl = none) ∧
      (e = .setfl ↔ env.socket ≠ none ∧ env.getfl ≠ none ∧ env.setfl = false) ∧
      (e = .reuse ↔ env.socket ≠ none ∧ env.getfl ≠ none ∧ env.setfl = true ∧ env.reuse = false) ∧
      (e = .bind ↔ env.socket ≠ none ∧ env.getfl ≠ none ∧ env.setfl = true ∧ env.reuse = true ∧
        env.bind = false) ∧
      (e = .listen ↔ env.socket ≠ none ∧ env.getfl ≠ none ∧ env.setfl = true ∧ env.reuse = true ∧
        env.bind = true ∧ env.listen = false)) := by
  have hclose : ∀ fd, os.files.get fd = none →
      (∀ fd', ((os.install fd).close fd).files.get fd' = os.files.get fd') ∧
      ((os.install fd).close fd).bad = os.bad ∧ ((os.install fd).close fd).closed = os.next :: os.closed := by
    intro fd hf
    simp only [Os.install, Os.close, Assoc.get_put_self, and_true, and_self]
    intro fd'
    rw [Assoc.get_del]
    split
    · rename_i h
      rw [h, hf]
    · rename_i h
      exact Assoc.get_put_ne _ _ h
  obtain ⟨sk, gf, sf, ru, bi, li⟩ := env
  refine ⟨?_, ?_, ?_⟩
  · rintro fd flags ⟨h1, h2, h3, h4, h5, h6⟩
    simp only at h1 h2 h3 h4 h5 h6
    subst h1 h2 h3 h4 h5 h6
    refine ⟨_, rfl, rfl, ?_, rfl, ?_, rfl, ?_, rfl⟩
    · simp only [oNonblock]
      intro h
      have := congrArg UInt32.toBitVec h
      have := congrArg (fun b => b.getLsbD 11) this
      simp at this
    · intro bits hb
      simp only [oNonblock]
      apply UInt32.toBitVec_inj.mp
      have := congrArg UInt32.toBitVec hb
      ext i hi
      have := congrArg (fun b => b.getLsbD i) this
      simp at this ⊢
      intro hx
      exact .inl (this hx)
    · simp only [octets_htons]
  · intro sock os' h
    cases sk with
    | none => cases h
    | some fd =>
      cases gf with
      | none => cases h
      | some flags =>
        cases sf <;> cases ru <;> cases bi <;> cases li <;> first
          | exact ⟨fd, flags, rfl, rfl, rfl, rfl, rfl, rfl⟩
          | cases h
  · intro e os' h
    cases sk with
    | none =>
      cases h
      simp
    | some fd =>
      have hc := hclose fd (hfresh fd rfl)
      cases gf with
      | none =>
        cases h
        exact ⟨hc.1, hc.2.1, by simp, fun _ => hc.2.2, by simp⟩
      | some flags =>
        cases sf <;> cases ru <;> cases bi <;> cases li <;> first
          | (cases h; exact ⟨hc.1, hc.2.1, by simp, fun _ => hc.2.2, by simp⟩)
          | cases h

/-- Port 8443 on a little-endian machine; and one that is in use. -/
example : ListenSock.make true 8443 ⟨some 3, some 2, true, true, true, true⟩ {} =
      (.ok { fd := 3, flags := 0x802, reuse := true, bound := some (0, [32, 251]), backlog := some 4096 },
        Os.install {} 3) ∧
    ListenSock.make true 8443 ⟨some 3, some 2, true, true, false, true⟩ {} =
      (.error .bind, { closed := [0], next := 1 }) := by decide +kernel

end Ion.Props

namespace Ion.Server
variable {W : Type}

/-! ### C98: what is left -/

theorem Inv.left {cfg : Cfg W} {s : Server W} (h : Inv s) (ev : PollEv)
    (he : ∀ s', s.handleEvent cfg ev ≠ .ok s') : Inv (s.eventLeft ev) := by
  rw [eventLeft]
  split
  · split
    · split
      · exact h
      · rename_i fd nb tr _ _ hf
        split
        · exact h.overflow (by rwa [Bool.not_eq_true, Assoc.has_false_iff] at hf)
        · exact h
    · exact h
  · rename_i hl
    split
    · rename_i hw
      rcases hc : s.conns.get ev.fd with _ | c
      · exact absurd (by rw [handleEvent, if_neg hl, handleConnection]; simp only [hc]) (he s)
      · have := h.before hc
        rw [Server.before, if_pos hw] at this
        exact this
    · exact h

theorem Inv.eventsLeft {cfg : Cfg W} (evs : List PollEv) : ∀ {s : Server W}, Inv s →
    Inv (eventsLeft cfg evs s) := by
  induction evs with
  | nil => exact fun h => h
  | cons ev evs ih =>
    intro s h
    rw [Server.eventsLeft]
    split
    · rename_i s' he
      exact ih ((h.step he).inv h)
    · rename_i he
      exact h.left ev he

theorem Inv.runLeft {cfg : Cfg W} (its : List Iter) : ∀ {s : Server W}, Inv s → Inv (runLeft cfg its s) := by
  induction its with
  | nil =>
    intro s h
    rw [Server.runLeft]
    split <;> exact h
  | cons it its ih =>
    intro s h
    rw [Server.runLeft]
    split
    · exact h
    · split
      · rename_i s' hx
        exact ih ((iteration_reach (P := anyEv) (fun _ _ _ _ => trivial) hx).inv h)
      · rw [iterationLeft]
        split
        · exact Inv.eventsLeft _ (h.reap it.now)
        · exact h.reap it.now

/-- Descriptors while connections are destroyed: those of `rem` are still open. -/
structure Closing (rem : Assoc (Conn W)) (os : Os) : Prop where
  files : ∀ fd f, os.files.get fd = some f ↔ ∃ c, (fd, c) ∈ rem ∧ c.file = f
  bad : os.bad = 0
  once : os.closed.Nodup
  closed : ∀ f, f ∈ os.closed ↔ f < os.next ∧ ∀ e ∈ rem, e.2.file ≠ f
  lt : ∀ e ∈ rem, e.2.file < os.next
  keys : rem.Pairwise (fun a b => a.1 ≠ b.1)
  inj : rem.Pairwise (fun a b => a.2.file ≠ b.2.file)

theorem Closing.close {e : Nat × Conn W} {rem : Assoc (Conn W)} {os : Os} (h : Closing (e :: rem) os) :
    Closing rem (os.close e.1) := by
  have hg : os.files.get e.1 = some e.2.file := (h.files _ _).2 ⟨e.2, by simp, rfl⟩
  have hk := List.pairwise_cons.mp h.keys
  have hj := List.pairwise_cons.mp h.inj
  simp only [Os.close, hg]
  refine ⟨fun fd f => ?_, h.bad, ?_, fun f => ?_, fun x hx => h.lt x (by simp [hx]), hk.2, hj.2⟩
  · simp only [Assoc.get_del]
    split
    · rename_i hx
      subst hx
      simp only [reduceCtorEq, false_iff, not_exists, not_and]
      exact fun c hm => absurd rfl (hk.1 (e.1, c) hm)
    · rename_i hx
      rw [h.files]
      constructor
      · rintro ⟨c, hm, hf⟩
        rcases List.mem_cons.mp hm with hm | hm
        · exact absurd (congrArg Prod.fst hm) hx
        · exact ⟨c, hm, hf⟩
      · rintro ⟨c, hm, hf⟩
        exact ⟨c, by simp [hm], hf⟩
  · simp only [List.nodup_cons]
    refine ⟨fun hx => ((h.closed _).1 hx).2 e (by simp) rfl, h.once⟩
  · simp only [List.mem_cons]
    rw [h.closed]
    constructor
    · rintro (rfl | ⟨h1, h2⟩)
      · exact ⟨h.lt e (by simp), fun x hx heq => hj.1 x hx heq.symm⟩
      · exact ⟨h1, fun x hx => h2 x (by simp [hx])⟩
    · rintro ⟨h1, h2⟩
      by_cases hf : f = e.2.file
      · exact .inl hf
      · refine .inr ⟨h1, fun x hx => ?_⟩
        rcases List.mem_cons.mp hx with rfl | hx
        · exact fun h => hf h.symm
        · exact h2 x hx

theorem Closing.all (rem : Assoc (Conn W)) : ∀ {os : Os}, Closing rem os →
    Closing ([] : Assoc (Conn W)) (rem.foldl (fun os e => os.close e.1) os) := by
  induction rem with
  | nil => exact fun h => h
  | cons e rem ih => exact fun h => ih h.close

theorem Inv.closing {s : Server W} (h : Inv s) : Closing s.conns (s.os.close s.listener) := by
  have hl : s.os.files.get s.listener = some 0 := (h.files _ _).2 (.inl ⟨rfl, rfl⟩)
  have hmem : ∀ fd c, (fd, c) ∈ s.conns ↔ s.conns.get fd = some c :=
    fun fd c => ⟨Assoc.mem_get h.sorted, Assoc.get_mem⟩
  simp only [Os.close, hl]
  refine ⟨fun fd f => ?_, h.bad, ?_, fun f => ?_, fun e he => (h.lt e.1 e.2 ((hmem _ _).1 he)).2, ?_, ?_⟩
  · simp only [Assoc.get_del, hmem]
    split
    · rename_i hx
      subst hx
      simp [h.notListener]
    · rename_i hx
      rw [h.files]
      simp [hx]
  · simp only [List.nodup_cons]
    exact ⟨fun hx => by have := ((h.closed _).1 hx).1; omega, h.closedOnce⟩
  · simp only [List.mem_cons]
    rw [h.closed]
    constructor
    · rintro (rfl | ⟨h1, h2, h3⟩)
      · exact ⟨h.next, fun e he => by have := (h.lt e.1 e.2 ((hmem _ _).1 he)).1; omega⟩
      · exact ⟨h2, fun e he => h3 e.1 e.2 ((hmem _ _).1 he)⟩
    · rintro ⟨h1, h2⟩
      by_cases hf : f = 0
      · exact .inl hf
      · exact .inr ⟨by omega, h1, fun fd c hc => h2 (fd, c) ((hmem _ _).2 hc)⟩
  · exact h.sorted.imp fun hlt => Nat.ne_of_lt hlt
  · refine List.Pairwise.imp_of_mem ?_ h.sorted
    intro a b ha hb hlt heq
    have := h.inj a.1 b.1 a.2 b.2 ((hmem _ _).1 ha) ((hmem _ _).1 hb) heq
    omega

/-- The state a run leaves behind is the one it returned in. -/
theorem runLeft_returned {cfg : Cfg W} (its : List Iter) : ∀ {s s' : Server W} {unused : List Iter},
    run cfg its s = .returned s' unused → runLeft cfg its s = s' := by
  induction its with
  | nil =>
    intro s s' unused h
    rw [run] at h
    rw [runLeft]
    split at h
    · rename_i ht
      rw [if_pos ht]
      cases h
      rfl
    · cases h
  | cons it its ih =>
    intro s s' unused h
    rw [run] at h
    rw [runLeft]
    split at h
    · rename_i ht
      rw [if_pos ht]
      cases h
      rfl
    · rename_i ht
      rw [if_neg ht]
      rcases hx : s.iteration cfg it with s1 | e | u
      · simp only [hx] at h ⊢
        exact ih h
      · simp only [hx] at h
        cases h
      · simp only [hx] at h
        cases h

/-- C98: however `start` ends (stopped, or left by an exception at any point), once the destructors have run
no descriptor is open, every socket there ever was has been closed exactly once, and no descriptor was closed
that was not open. -/
theorem C98_closed (cfg : Cfg W) (w : W) (listener : Nat) (created fails : Bool) (stops : List StopReason)
    (its : List Iter) :
    let os := (runLeft cfg its (stops.foldl stop (begin w listener created fails))).destroyed
    (∀ fd, os.files.get fd = none) ∧ os.bad = 0 ∧ os.closed.Nodup ∧ ∀ f, f ∈ os.closed ↔ f < os.next := by
  have h0 : Inv (stops.foldl stop (begin w listener created fails)) := by
    have := Inv.begin w listener created fails
    revert this
    generalize begin w listener created fails = s
    induction stops generalizing s with
    | nil => exact fun h => h
    | cons r stops ih => exact fun h => ih (s.stop r) (h.stop r)
  have := Closing.all _ (Inv.closing (Inv.runLeft (cfg := cfg) its h0))
  refine ⟨fun fd => ?_, this.bad, this.once, fun f => ?_⟩
  · rcases hx : (destroyed _).files.get fd with _ | f
    · rfl
    · obtain ⟨c, hm, _⟩ := (this.files fd f).1 hx
      cases hm
  · rw [destroyed, this.closed]
    simp

/-- A run with three clients, one of which hung up, that ends because `accept` fails; with the listener's,
four sockets are closed in the end. -/
example : let its : List Iter := [{ poll := some exEvents }, { poll := some [{ exAccept 9 with accept := .fail }] }]
    (match run Sim.exCfg its (begin 0 3 true false) with
      | .threw .accept => true
      | _ => false) = true ∧
    (runLeft Sim.exCfg its (begin 0 3 true false)).destroyed.closed = [3, 1, 0, 2] := by decide +kernel

theorem eventsLeft_err {cfg : Cfg W} {e : ServerExn} (evs : List PollEv) : ∀ {s : Server W},
    handleEvents cfg evs s = .err e → ∃ pre ev post s2, evs = pre ++ ev :: post ∧
      handleEvents cfg pre s = .ok s2 ∧ s2.handleEvent cfg ev = .err e ∧ eventsLeft cfg evs s = s2.eventLeft ev := by
  induction evs with
  | nil => intro s h; cases h
  | cons ev evs ih =>
    intro s h
    rw [handleEvents] at h
    rcases hx : s.handleEvent cfg ev with s' | e' | u
    · rw [hx] at h
      obtain ⟨pre, ev', post, s2, h1, h2, h3, h4⟩ := ih h
      refine ⟨ev :: pre, ev', post, s2, by rw [h1]; rfl, ?_, h3, ?_⟩
      · rw [handleEvents, hx]; exact h2
      · rw [eventsLeft, hx]; exact h4
    · rw [hx] at h
      cases h
      exact ⟨[], ev, evs, s, rfl, rfl, hx, by rw [eventsLeft, hx]⟩
    · rw [hx] at h; cases h

theorem eventLeft_os {cfg : Cfg W} {s : Server W} {ev : PollEv} {e : ServerExn} (h : s.handleEvent cfg ev = .err e) :
    (s.eventLeft ev).conns = s.conns ∧
    (e = .fcntl ∨ e = .transport → (s.eventLeft ev).os.next = s.os.next + 1 ∧
      (s.eventLeft ev).os.closed = s.os.next :: s.os.closed ∧ (s.eventLeft ev).os.bad = s.os.bad) ∧
    (e ≠ .fcntl → e ≠ .transport → (s.eventLeft ev).os.files = s.os.files ∧ (s.eventLeft ev).os.next = s.os.next ∧
      (s.eventLeft ev).os.closed = s.os.closed ∧ (s.eventLeft ev).os.bad = s.os.bad) := by
  rw [eventLeft]
  rw [handleEvent] at h
  by_cases hl : ev.fd = s.listener
  · rw [if_pos hl] at h ⊢
    have key : ∀ fd nb tr now, ev.accept = .client fd nb tr now →
        (s.os.files.has fd = true ∧ e = .impossible) ∨ (s.os.files.has fd = false ∧ nb = false ∧ e = .fcntl) ∨
          (s.os.files.has fd = false ∧ nb = true ∧ tr = false ∧ e = .transport) := by
      intro fd nb tr now ha
      rw [handleIncoming, establishConn, ha, tryAccept] at h
      cases hf : s.os.files.has fd <;> cases nb <;> cases tr <;> simp [hf] at h ⊢ <;>
        (try split at h) <;> (first | (cases h; rfl) | (cases h; simp) | cases h)
    rcases ha : ev.accept with ⟨fd, nb, tr, now⟩ | _ | _
    · rcases key fd nb tr now ha with ⟨h1, rfl⟩ | ⟨h1, rfl, rfl⟩ | ⟨h1, rfl, rfl, rfl⟩
      · simp [h1]
      · simp [h1, Os.install, Os.close]
      · simp [h1, Os.install, Os.close]
    · rw [handleIncoming, establishConn, ha, tryAccept] at h
      split at h <;> cases h
    · rw [handleIncoming, establishConn, ha, tryAccept] at h
      split at h <;> (cases h; simp)
  · rw [if_neg hl] at h ⊢
    have he : e ≠ .fcntl ∧ e ≠ .transport := by
      rw [handleConnection] at h
      rcases hc : s.conns.get ev.fd with _ | c
      · simp [hc] at h
      · simp only [hc] at h
        split at h
        · cases h
        · split at h
          · cases h
          · split at h
            · cases h; simp
            · cases h
            · split at h <;> cases h
    refine ⟨?_, fun h => absurd h (by simp [he.1, he.2]), fun _ _ => ?_⟩
    · split <;> simp [pollSet]
    · split
      · have hctl : ∀ op fd evs f, ((s.os.ctl op fd evs f).2.files = s.os.files ∧
            (s.os.ctl op fd evs f).2.next = s.os.next ∧ (s.os.ctl op fd evs f).2.closed = s.os.closed ∧
            (s.os.ctl op fd evs f).2.bad = s.os.bad) := by
          intro op fd evs f
          simp only [Os.ctl]
          cases op <;> (repeat' split) <;> simp
        simp only [pollSet, EPoll.set]
        by_cases hp : s.poller.created = true
        · simp only [hp, if_true]
          generalize (if s.poller.table.has ev.fd = true then CtlOp.mod else CtlOp.add) = op
          have := hctl op ev.fd (toEpoll .read) ev.ctlFails1
          rcases hq : s.os.ctl op ev.fd (toEpoll .read) ev.ctlFails1 with ⟨b, os⟩
          rw [hq] at this
          cases b <;> exact this
        · simp [hp]
      · simp

/-- C98: what an exception leaves is the state in which the event began that threw it: all iterations before, the
reaping of that iteration and all events before it in the batch have taken effect. If the exception came from
making a client's socket non-blocking or from creating its transport, there has been one more socket, which is
closed already; otherwise none. -/
theorem C98_thrown (cfg : Cfg W) (its : List Iter) : ∀ (s : Server W) (e : ServerExn), run cfg its s = .threw e →
    ∃ its1 it its2 s1 pre ev post s2, its = its1 ++ it :: its2 ∧ run cfg its1 s = .running s1 ∧
      it.poll = some (pre ++ ev :: post) ∧ handleEvents cfg pre (s1.reapIdle it.now) = .ok s2 ∧
      s2.handleEvent cfg ev = .err e ∧ (runLeft cfg its s).conns = s2.conns ∧
      (e = .fcntl ∨ e = .transport → (runLeft cfg its s).os.next = s2.os.next + 1 ∧
        (runLeft cfg its s).os.closed = s2.os.next :: s2.os.closed ∧ (runLeft cfg its s).os.bad = s2.os.bad) ∧
      (e ≠ .fcntl → e ≠ .transport → (runLeft cfg its s).os.files = s2.os.files ∧
        (runLeft cfg its s).os.next = s2.os.next ∧ (runLeft cfg its s).os.closed = s2.os.closed ∧
        (runLeft cfg its s).os.bad = s2.os.bad) := by
  induction its with
  | nil =>
    intro s e h
    rw [run] at h
    split at h <;> cases h
  | cons it its ih =>
    intro s e h
    rw [run] at h
    split at h
    · cases h
    · rename_i ht
      rcases hx : s.iteration cfg it with s' | e' | u
      · simp only [hx] at h
        obtain ⟨its1, it', its2, s1, pre, ev, post, s2, h1, h2, h3, h4, h5, h6⟩ := ih s' e h
        refine ⟨it :: its1, it', its2, s1, pre, ev, post, s2, by rw [h1]; rfl, ?_, h3, h4, h5, ?_⟩
        · rw [run, if_neg ht]; simp only [hx]; exact h2
        · have : runLeft cfg (it :: its) s = runLeft cfg its s' := by
            rw [runLeft, if_neg ht]; simp only [hx]
          rw [this]; exact h6
      · simp only [hx] at h
        cases h
        have hleft : runLeft cfg (it :: its) s = s.iterationLeft cfg it := by
          rw [runLeft, if_neg ht]; simp only [hx]
        rw [hleft]
        have hb : ∀ (o : Outcome ServerExn (Server W)) (f : Server W → Server W),
            (o >>= fun t => Outcome.ok (f t)) = .err e → o = .err e := by
          intro o f ho
          rcases o with a | b | u
          · cases ho
          · cases ho; rfl
          · cases ho
        rw [iteration] at hx
        by_cases hc : (s.reapIdle it.now).poller.created = true
        · simp only [hc, if_true] at hx
          rcases hp : it.poll with _ | evs
          · simp only [hp] at hx; cases hx
          · simp only [hp] at hx
            obtain ⟨pre, ev, post, s2, h1, h2, h3, h4⟩ := eventsLeft_err evs (hb _ (fun t => it.stops.foldl stop t) hx)
            have hl : s.iterationLeft cfg it = s2.eventLeft ev := by
              simp only [iterationLeft]
              rw [if_pos hc, hp]
              exact h4
            rw [hl]
            refine ⟨[], it, its, s, pre, ev, post, s2, rfl, ?_, by rw [hp, h1], h2, h3, eventLeft_os h3⟩
            rw [run, if_neg ht]
        · simp only [hc] at hx; cases hx
      · simp only [hx] at h; cases h

/-- The second client's socket cannot be made non-blocking: three sockets, of which the last is closed. -/
example : (match run Sim.exCfg [{ poll := some [exAccept 5, { exAccept 6 with accept := .client 6 false true 0 }] }]
      (begin 0 3 true false) with
      | .threw .fcntl => true
      | _ => false) = true := by decide +kernel

end Ion.Server

namespace Ion.Server
variable {W : Type}

/-! ### C39 for servers -/

/-- C39, refuted for servers: whatever happens, and however the connection ends (error, idleness, end of the
server), no client is ever sent an octet of a GOAWAY frame. -/
theorem C39_server {cfg : Cfg W} {s : Server W} (h : Serves cfg s) {fd : Nat} {c : Conn W}
    (hc : s.conns.get fd = some c) (hb : ∀ x ∈ Sim.responses c.sim.trace, x.2.2.length < 2 ^ 24) :
    ∃ fs v, Spec.FramesWire fs v ∧ (∀ f ∈ fs, f.type ≠ 7) ∧ Sim.accepted c.sim.trace <+: v := by
  refine C80_alone (fun tr => (∀ x ∈ Sim.responses tr, x.2.2.length < 2 ^ 24) →
    ∃ fs v, Spec.FramesWire fs v ∧ (∀ f ∈ fs, f.type ≠ 7) ∧ Sim.accepted tr <+: v) ?_ h hc hb
  intro W' cfg' w t sim hu hb
  cases hu with
  | new => exact ⟨[], [], .nil, by simp, by simp [Sim.init, Sim.accepted]⟩
  | step s0 _ env r hs hp hr =>
    obtain ⟨fs, v, h1, h2, h3, -⟩ := Sim.C39_refuted cfg' w t r sim ⟨s0, env, hs, hp⟩ hb
    exact ⟨fs, v, h1, h2, h3⟩

end Ion.Server

namespace Ion.Props

/-! ### C99: exit status -/

/-- C99, success: the process ends with status 0 only if the command line asked for that (help or version),
or the server came up and was asked to stop. -/
theorem C99_success {W : Type} (env : ProcEnv W) (h : mainExit env = .status 0) :
    env.parse = .error 0 ∨ ∃ args sock os, env.parse = .ok args ∧
      constructServer env.fs env.ssl args.toServerConfig = .ok () ∧
      ListenSock.make env.little args.port env.listen {} = (.ok sock, os) ∧
      (env.stops ≠ [] ∨ ∃ it ∈ env.iters, it.stops ≠ []) := by
  have hlog : ∀ e l b k, logLine e l b k = .status 0 → k = .status 0 := by
    intro e l b k hk
    rw [logLine] at hk
    split at hk
    · cases hk
    · exact hk
  have hfatal : ∀ l b, fatal l b ≠ .status 0 := by
    intro l b hk
    have := hlog _ _ _ _ hk
    simp at this
  rw [mainExit] at h
  split at h
  · rename_i code hp
    simp only [Exit.status.injEq] at h
    subst h
    exact .inl hp
  · rename_i args hp
    refine .inr ⟨args, ?_⟩
    split at h
    · cases h
    · rename_i level hl
      have h := hlog _ _ _ _ h
      rw [runServer] at h
      split at h
      · exact absurd h (hfatal _ _)
      · cases h
      · rename_i hc
        split at h
        · exact absurd h (hfatal _ _)
        · rename_i sock os hm
          refine ⟨sock, os, hp, hc, hm, ?_⟩
          simp only at h
          split at h
          · rename_i s' unused hr
            by_cases hs : env.stops = []
            · right
              rw [hs] at hr
              have := Server.C63_runs_start (env.cfg args) env.world sock.fd env.pollerCreated env.ctlFails
                env.iters
              by_cases hx : ∃ it ∈ env.iters, it.stops ≠ []
              · exact hx
              · exfalso
                refine this (fun it hm => ?_) s' unused hr
                by_cases hy : it.stops = []
                · exact hy
                · exact absurd ⟨it, hm, hy⟩ hx
            · exact .inl hs
          · cases h
          · exact absurd h (hfatal _ _)
          · cases h
          · cases h

/-- C99, "a process whose server was asked to stop ends with status 0, and one that cannot serve with status
1", refuted: if standard output is a broken pipe when the last line is logged, `SIGPIPE` ends the process,
since its handler has been removed; and a log level in upper case ends it by `std::terminate`. -/
theorem C99_refuted : ∃ env : ProcEnv Nat,
    env.parse = .ok { cleartext := true } ∧ env.stops = [.signal] ∧ mainExit env = .sigpipe ∧
    mainExit { env with outEnd := false } = .status 0 ∧
    mainExit { env with outEnd := false, parse := .ok { cleartext := true, logLevel := b!"INFO" } } = .terminate :=
  ⟨{ parse := .ok { cleartext := true }, fs := { node := fun _ => none },
     ssl := { useCertificate := fun _ => true, usePrivateKey := fun _ => true, keyMatches := fun _ _ => true },
     listen := ⟨some 3, some 2, true, true, true, true⟩, cfg := fun _ => Sim.exCfg, world := 0,
     stops := [.signal], iters := [], outEnd := true }, by decide +kernel⟩

/-- Log lines do not end the process: standard output is no broken pipe, or logging is off. -/
def Quiet {W : Type} (env : ProcEnv W) (args : Args) : Prop :=
  env.outStart = false ∧ env.outEnd = false ∨ args.logLevel = b!"off"

/-- C99 if log lines do not end the process and the level is in lower case: a server that cannot be
constructed, or cannot listen, ends with status 1; one that is left by a standard exception too; one that
was asked to stop, and got to the end of that iteration, with status 0. -/
theorem C99_status_partial {W : Type} (env : ProcEnv W) (args : Args) (hp : env.parse = .ok args)
    (hl : args.logLevel ∈ Args.levelNames) (hq : Quiet env args) :
    (∀ e, constructServer env.fs env.ssl args.toServerConfig = .err e → mainExit env = .status 1) ∧
    (∀ e os, constructServer env.fs env.ssl args.toServerConfig = .ok () →
      ListenSock.make env.little args.port env.listen {} = (.error e, os) → mainExit env = .status 1) ∧
    (∀ sock os, constructServer env.fs env.ssl args.toServerConfig = .ok () →
      ListenSock.make env.little args.port env.listen {} = (.ok sock, os) →
      ∀ s0, s0 = env.stops.foldl Server.stop (Server.begin env.world sock.fd env.pollerCreated env.ctlFails) →
      (∀ e, Server.run (env.cfg args) env.iters s0 = .threw e → e ≠ .process .escaped →
        mainExit env = .status 1) ∧
      (∀ s unused, Server.run (env.cfg args) env.iters s0 = .returned s unused → mainExit env = .status 0)) := by
  obtain ⟨level, hlev⟩ : ∃ level, args.logLevelEnum = some level := by
    rw [Args.logLevelEnum]
    rcases hx : Args.levelNames.findIdx? (fun n => n = args.logLevel) with _ | i
    · rw [List.findIdx?_eq_none_iff] at hx
      have := hx _ hl
      simp at this
    · exact ⟨i, rfl⟩
  have hlog : ∀ l k, l ≤ 5 → logLine level l env.outStart k = k ∧ logLine level l env.outEnd k = k := by
    intro l k hl5
    rcases hq with ⟨h1, h2⟩ | h
    · simp [logLine, h1, h2]
    · have : level = 6 := by
        rw [Args.logLevelEnum, h] at hlev
        have hx : Args.levelNames.findIdx? (fun n => n = b!"off") = some 6 := by decide +kernel
        rw [hx] at hlev
        cases hlev
        rfl
      subst this
      have : ¬6 ≤ l := by omega
      simp [logLine, this]
  have hmain : mainExit env = runServer env args level := by
    rw [mainExit]
    simp only [hp, hlev]
    exact (hlog 2 _ (by omega)).1
  have hfatal : fatal level env.outEnd = .status 1 := (hlog 5 _ (by omega)).2
  rw [hmain, runServer]
  refine ⟨?_, ?_, ?_⟩
  · intro e h
    simp only [h]
    exact hfatal
  · intro e os h1 h2
    simp only [h1, h2]
    exact hfatal
  · rintro sock os h1 h2 s0 rfl
    simp only [h1, h2]
    refine ⟨?_, ?_⟩
    · intro e h3 h4
      simp only [h3]
      exact hfatal
    · intro s unused h3
      simp only [h3]
      exact (hlog 2 _ (by omega)).2

/-- The hypotheses of `C99_status_partial` can be met, with each of the three ends: a private key that does
not exist, a port already in use, and a stop request during an iteration. -/
example : ∃ env : ProcEnv Nat, ∃ args : Args, env.parse = .ok args ∧ args.logLevel ∈ Args.levelNames ∧
    Quiet env args ∧ env.stops = [] ∧ mainExit env = .status 0 ∧
    mainExit { env with listen := { env.listen with bind := false } } = .status 1 ∧
    mainExit { env with parse := .ok { args with cleartext := false } } = .status 1 ∧
    mainExit { env with iters := [] } = .running :=
  ⟨{ parse := .ok { cleartext := true }, fs := { node := fun _ => none },
     ssl := { useCertificate := fun _ => true, usePrivateKey := fun _ => true, keyMatches := fun _ _ => true },
     listen := ⟨some 3, some 2, true, true, true, true⟩, cfg := fun _ => Sim.exCfg, world := 0,
     stops := [], iters := [{}, { poll := some [], stops := [.signal] }] },
   { cleartext := true }, rfl, by decide +kernel, .inl ⟨rfl, rfl⟩, by decide +kernel⟩

/-! ### C100: broken pipes -/

/-- C100, "when standard output is a broken pipe the server stops", refuted for both things a kernel can do
with the empty `write` the handler tries: if it succeeds, the signal changes nothing; if it fails with
`EPIPE`, `SIGPIPE` is pending again when the handler returns, which never lets the program go on. -/
theorem C100_refuted (s : SigState) (errBroken : Bool) (n : Nat) :
    s.pipeRuns .succeeds true errBroken (n + 1) = (s, true) ∧
    (s.pipeRuns .fails true errBroken n).2 = false := by
  refine ⟨by cases errBroken <;> rfl, ?_⟩
  induction n generalizing s with
  | zero => rfl
  | succ n ih =>
    rw [SigState.pipeRuns]
    have : ∃ s', s.pipeHandler .fails true errBroken = (s', true) := ⟨_, rfl⟩
    obtain ⟨s', h⟩ := this
    rw [h]
    exact ih s'

/-- C100 for the other pipes: after `SIGPIPE` because of a client's socket the program goes on, and the
server is not stopped. -/
theorem C100_client_partial (s : SigState) (k : NullWrite) (n : Nat) :
    s.pipeRuns k false false (n + 1) = (s, true) := by cases k <;> rfl

end Ion.Props
