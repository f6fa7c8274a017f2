import Verif.Props.AppLive
import Verif.Props.ServerEvents
import Verif.Props.ServerIter

/-! # C130: a conforming client of a shared server is served -/

namespace Ion

/-- The worlds an application's handlers get to, one call after the other, from the world `w0`. -/
inductive Spec.WorldFrom {W : Type} (cfg : Cfg W) (w0 : W) : W → Prop
  | start : WorldFrom cfg w0 w0
  | call (w : W) (path method : Bytes) (req : HttpRequest) (h : WorldFrom cfg w0 w) :
      WorldFrom cfg w0 (cfg.getHandler path method req w).2

/-- `Answered cfg w0 ins calls answers T`: for the client's frames `ins` the application `cfg`, which started in
the world `w0`, gets the handler calls `calls`, each working on a world that calls of handlers lead to, and the
responses are `answers`. As `Serves`, for a client that shares the application with others. -/
inductive Spec.Answered {W : Type} (cfg : Cfg W) (w0 : W) : List Spec.Frame → List (HttpRequest × HOut) →
    List (Nat × List Header × Bytes) → Spec.Table → Prop
  | nil : Answered cfg w0 [] [] [] ⟨[], 65536⟩
  | request (ins : List Spec.Frame) (calls : List (HttpRequest × HOut))
      (answers : List (Nat × List Header × Bytes)) (T T' : Spec.Table) (w w' : W) (f : Spec.Frame)
      (block : Bytes) (fields : List Header) (path method : Bytes) (o : HOut) (r : HttpResponse)
      (out : List Header) (h : Answered cfg w0 ins calls answers T) (ht : f.type = 1)
      (hb : Spec.FieldBlock f block) (hr : Spec.ReadsAs T block fields T')
      (hp : Spec.FirstField fields b!":path" path) (hm : Spec.FirstField fields b!":method" method)
      (hw : Spec.WorldFrom cfg w0 w) (hh : cfg.getHandler path method ⟨method, path, fields⟩ w = (o, w'))
      (ho : o = .resp r ∨ (o = .stdExn ∧ r = { status := 500 })) (hf : Spec.ResponseFields r out) :
      Answered cfg w0 (ins ++ [f]) (calls ++ [(⟨method, path, fields⟩, o)])
        (answers ++ [(f.stream, out, r.body)]) T'
  | incomplete (ins : List Spec.Frame) (calls : List (HttpRequest × HOut))
      (answers : List (Nat × List Header × Bytes)) (T T' : Spec.Table) (f : Spec.Frame) (block : Bytes)
      (fields : List Header) (h : Answered cfg w0 ins calls answers T) (ht : f.type = 1)
      (hb : Spec.FieldBlock f block) (hr : Spec.ReadsAs T block fields T')
      (hn : (∀ x ∈ fields, x.name ≠ b!":path") ∨ ∀ x ∈ fields, x.name ≠ b!":method") :
      Answered cfg w0 (ins ++ [f]) calls (answers ++ [(f.stream, [], [])]) T'
  | other (ins : List Spec.Frame) (calls : List (HttpRequest × HOut))
      (answers : List (Nat × List Header × Bytes)) (T : Spec.Table) (f : Spec.Frame)
      (h : Answered cfg w0 ins calls answers T) (ht : f.type ≠ 1) (hs : ¬ Spec.BadSettings f) :
      Answered cfg w0 (ins ++ [f]) calls answers T

namespace Sim
open Spec
variable {W : Type}

theorem keeps_worldFrom (cfg : Cfg W) (w0 : W) : Keeps cfg (WorldFrom cfg w0) :=
  fun path method req w h => .call w path method req h

theorem answered_of_serves {cfg : Cfg W} {w0 : W} {v v' : List W × W} {fs : List Frame} {calls answers T}
    (h : Spec.Serves (replay cfg) v fs calls answers T v') (h1 : ∀ u ∈ v.1, WorldFrom cfg w0 u)
    (h2 : WorldFrom cfg w0 v.2) : Answered cfg w0 fs calls answers T := by
  suffices hx : Answered cfg w0 fs calls answers T ∧ (∀ u ∈ v'.1, WorldFrom cfg w0 u) ∧ WorldFrom cfg w0 v'.2 from
    hx.1
  induction h with
  | nil => exact ⟨.nil, h1, h2⟩
  | request ins calls answers T T' w w' f block fields path method o r out h ht hb hr hp hm hh ho hf ih =>
    obtain ⟨ih, i1, i2⟩ := ih
    have : ∃ u u', WorldFrom cfg w0 u ∧ cfg.getHandler path method ⟨method, path, fields⟩ u = (o, u') ∧
        (∀ u ∈ w'.1, WorldFrom cfg w0 u) ∧ WorldFrom cfg w0 w'.2 := by
      obtain ⟨ws, u⟩ := w
      cases ws with
      | nil =>
        simp only [replay, Prod.mk.injEq] at hh
        obtain ⟨hh, rfl⟩ := hh
        exact ⟨u, _, i2, Prod.ext hh rfl, by simp, .call _ _ _ _ i2⟩
      | cons x ws =>
        simp only [replay, Prod.mk.injEq] at hh
        obtain ⟨hh, rfl⟩ := hh
        exact ⟨x, _, i1 x (by simp), Prod.ext hh rfl, fun y hy => i1 y (by simp [hy]), i2⟩
    obtain ⟨u, u', hw, hu, j1, j2⟩ := this
    exact ⟨.request _ _ _ _ _ u u' _ _ _ _ _ _ _ _ ih ht hb hr hp hm hw hu ho hf, j1, j2⟩
  | incomplete ins calls answers T T' w f block fields h ht hb hr hn ih =>
    exact ⟨.incomplete _ _ _ _ _ _ _ _ ih.1 ht hb hr hn, ih.2⟩
  | other ins calls answers T w f h ht hs ih => exact ⟨.other _ _ _ _ _ ih.1 ht hs, ih.2⟩

theorem GoodApp.replay {cfg : Cfg W} (h : GoodApp cfg) : GoodApp (replay cfg) := by
  intro path method req v
  obtain ⟨ws, u⟩ := v
  cases ws with
  | nil => exact h path method req u
  | cons x ws => exact h path method req x

theorem loops_live {cfg : Cfg W} {s : Sim W} {t : Sim (List W × W)} (h : Loops (replay cfg) s.live t) :
    ∃ u, t = u.live ∧ Loops cfg s u := by
  generalize hx : s.live = x at h
  induction h generalizing s with
  | refl => exact ⟨s, hx.symm, .refl s⟩
  | step h1 _ ih =>
    subst hx
    have hp : Par _ _ _ := live_iter cfg s
    rw [Par, h1] at hp
    obtain ⟨⟨r, u⟩, h2, h3⟩ := Outcome.bind_eq_ok.mp hp.symm
    simp only [withLive, Outcome.ok.injEq, Prod.mk.injEq] at h3
    obtain ⟨rfl, h3⟩ := h3
    obtain ⟨u', k1, k2⟩ := ih h3
    exact ⟨u', k1, .step h2 k2⟩

end Sim

namespace Server
open Spec Sim
variable {W : Type}

/-- A server that was started in the world `w0`. -/
def Started (cfg : Cfg W) (w0 : W) (s : Server W) : Prop :=
  ∃ listener created fails, Reach cfg anyEv (begin w0 listener created fails) s

theorem Started.serves {cfg : Cfg W} {w0 : W} {s : Server W} (h : Started cfg w0 s) : Serves cfg s := ⟨w0, h⟩

theorem Started.reach {cfg : Cfg W} {w0 : W} {s s' : Server W} (h : Started cfg w0 s)
    (h' : Reach cfg anyEv s s') : Started cfg w0 s' := by
  obtain ⟨l, c, f, h⟩ := h
  exact ⟨l, c, f, h.trans h'⟩

/-- As `Alone`, with a property of the worlds. -/
def AloneIn (cfg : Cfg W) (Q : W → Prop) (sim : Sim W) (t : Nat) : Prop :=
  ∃ ws : List W, (∀ u ∈ ws, Q u) ∧ ∀ rest, Sim.InUse (Sim.replay cfg) (Sim.feed ws rest) t (sim.reworld rest)

theorem AloneIn.process {cfg : Cfg W} {Q : W → Prop} (hQ : Keeps cfg Q) {sim sim' : Sim W} {w : W} {t : Nat}
    {env : Env} {r : ProcRes} (h : AloneIn cfg Q sim t) (hw : Q w)
    (hp : ({ sim with world := w } : Sim W).process cfg env = .ok (r, sim')) (hr : r ≠ .discard) :
    AloneIn cfg Q sim' t := by
  obtain ⟨ws, hq, h⟩ := h
  obtain ⟨-, ws', hq', h'⟩ := Sim.rep_process_in hQ env _ hw _ hp
  refine ⟨ws ++ ws', fun u hu => (List.mem_append.mp hu).elim (hq u) (hq' u),
    fun rest => .step (sim.reworld (Sim.feed ws' rest)) _ env r ?_ (h' rest) hr⟩
  have := h (Sim.feed ws' rest)
  rwa [← Sim.feed_append] at this

theorem EvStep.world {cfg : Cfg W} {Q : W → Prop} (hQ : Keeps cfg Q) {s s' : Server W} {ev : PollEv}
    (hs : EvStep cfg s ev s') (hw : Q s.world) : Q s'.world := by
  cases hs with
  | accepted fd now hl ha hf hlen => rw [(pollSet_conns _ _ _ _).2.1]; exact hw
  | processed c r sim hl hc he hr hp =>
    have := (Sim.rep_process_in hQ ev.env _ hw _ hp).1
    cases r with
    | wantRead => exact this
    | wantWrite => simp only [after]; rw [(pollSet_conns _ _ _ _).2.1]; exact this
    | discard => exact this
  | _ => exact hw

theorem Reach.aloneIn {cfg : Cfg W} {Q : W → Prop} (hQ : Keeps cfg Q) {P : PollEv → Prop} {s0 s : Server W}
    (h0 : Inv s0) (h00 : s0.conns = []) (hw : Q s0.world) (h : Reach cfg P s0 s) :
    Q s.world ∧ ∀ fd c, s.conns.get fd = some c → ∃ t, AloneIn cfg Q c.sim t := by
  induction h with
  | start =>
    refine ⟨hw, fun fd c hc => ?_⟩
    rw [h00] at hc
    simp [Assoc.get] at hc
  | reap s now hr ih =>
    refine (reap_induct (P := fun s => Q s.world ∧ ∀ fd c, s.conns.get fd = some c → ∃ t, AloneIn cfg Q c.sim t) now
      ?_ (hr.inv h0) ih).2
    intro s fd c hi hp hc ht
    refine ⟨hp.1, fun fd' c' hx => ?_⟩
    simp only [dropped, Assoc.get_del] at hx
    split at hx
    · cases hx
    · exact hp.2 fd' c' hx
  | event s s' ev hr hp he ih =>
    have hi := hr.inv h0
    refine ⟨EvStep.world hQ (hi.step he) ih.1, fun fd c hc => ?_⟩
    rcases (hi.step he).conns hi hc with h | ⟨_, _, now, h⟩ | ⟨_, c0, r, h1, _, h2, h3⟩
    · exact ih.2 fd c h
    · exact ⟨now, [], by simp, by rw [h]; exact fun _ => .new⟩
    · obtain ⟨t, ht⟩ := ih.2 fd c0 h1
      exact ⟨t, ht.process hQ ih.1 h3 h2⟩
  | stop s r hr ih => exact ih

theorem begin_world (w : W) (listener : Nat) (created fails : Bool) :
    (begin w listener created fails).world = w := (pollSet_conns _ _ _ _).2.1

theorem Started.alone {cfg : Cfg W} {w0 : W} {s : Server W} (h : Started cfg w0 s) : WorldFrom cfg w0 s.world ∧
    ∀ {fd c}, s.conns.get fd = some c → ∃ t, AloneIn cfg (WorldFrom cfg w0) c.sim t := by
  obtain ⟨l, cr, f, h⟩ := h
  have := h.aloneIn (keeps_worldFrom cfg w0) (Inv.begin _ _ _ _) (begin_conns _ _ _ _)
    (by rw [begin_world]; exact .start)
  exact ⟨this.1, fun {fd c} hc => this.2 fd c hc⟩

/-- The connection as it is called: with the shared world. -/
private abbrev callee (s : Server W) (c : Conn W) : Sim W := { c.sim with world := s.world }

/-- C130, the connection is kept: the socket of a client that follows RFC 7541 and RFC 9113 becomes readable
or writable, in any state of the server and whatever its other clients have done. Handling the event
succeeds and the connection stays, unless the transport fails. -/
theorem C130_kept {cfg : Cfg W} {s : Server W} (h : Serves cfg s) {ev : PollEv} {c : Conn W}
    (hc : s.conns.get ev.fd = some c) (happ : GoodApp cfg) {fs : List Frame} {v : Bytes} (hcf : Conforming fs)
    (hv : FramesWire fs v) (he : hasEvent ev.events .error = false) (hh : hasEvent ev.events .hangup = false)
    (hrw : hasEvent ev.events .read = true ∨ hasEvent ev.events .write = true)
    (hon : Honest cfg ev.env { c.sim with world := s.world }) (hu : Unbroken c.sim.trace) (hs : Sound ev.env)
    (hin : received c.sim.trace ++ pending ev.env.reads <+: Spec.preface ++ v) :
    ∃ s' sim, s.handleEvent cfg ev = .ok s' ∧ s'.conns.get ev.fd = some ⟨c.file, sim⟩ ∧
      s'.os.files.get ev.fd = some c.file ∧ s'.os.closed = s.os.closed ∧ Unbroken sim.trace ∧
      ∃ rest, received c.sim.trace ++ pending ev.env.reads = received sim.trace ++ rest := by
  obtain ⟨t, ws, ha⟩ := h.alone hc
  obtain ⟨r, x, h1, h2, h3, h4⟩ := C129_kept (replay cfg) _ t (callee s c).live ev.env fs v
    (ha ([], s.world)) happ.replay hcf hv (by
      intro s1 k1 k2 n u k3
      obtain ⟨s2, rfl, k4⟩ := loops_live (s := { callee s c with hs := ev.env.hs, reads := ev.env.reads, writes := ev.env.writes }) k1
      exact hon s2 k4 k2 n u k3) hu hs hin
  have hp : Par _ _ _ := live_process cfg ev.env (callee s c)
  rw [Par, h1] at hp
  obtain ⟨⟨r', sim⟩, g1, g2⟩ := Outcome.bind_eq_ok.mp hp.symm
  simp only [withLive, Outcome.ok.injEq, Prod.mk.injEq] at g2
  obtain ⟨rfl, rfl⟩ := g2
  obtain ⟨s', e1, -, -, e4⟩ := (C93_event h hc).2.2 he hh hrw r' sim g1
  obtain ⟨e4, e5, e6⟩ := e4 h2
  exact ⟨s', sim, e1, e4, by rw [e5]; exact h.inv.isOpen hc, e6, h3, h4⟩

/-- C130, requests are answered: once everything the client sends has arrived, the event for it ends with all
its requests answered, each by the handler the application has for it, and all octets of the answers handed
to the transport. -/
theorem C130_answered {cfg : Cfg W} {w0 : W} {s : Server W} (h : Started cfg w0 s) {ev : PollEv} {c : Conn W}
    (hc : s.conns.get ev.fd = some c) (happ : GoodApp cfg) {fs : List Frame} {v : Bytes} (hcf : Conforming fs)
    (hv : FramesWire fs v) (he : hasEvent ev.events .error = false) (hh : hasEvent ev.events .hangup = false)
    (hrw : hasEvent ev.events .read = true ∨ hasEvent ev.events .write = true)
    (hp : Prompt cfg ev.env { c.sim with world := s.world }) (hu : Unbroken c.sim.trace) (hs : Sound ev.env)
    (hin : received c.sim.trace ++ pending ev.env.reads = Spec.preface ++ v) :
    ∃ s' sim T, s.handleEvent cfg ev = .ok s' ∧ s'.conns.get ev.fd = some ⟨c.file, sim⟩ ∧
      s'.os.files.get ev.fd = some c.file ∧ received sim.trace = Spec.preface ++ v ∧
      (frames sim.trace).map asFrame = fs ∧
      Answered cfg w0 fs (handled sim.trace) ((responses sim.trace).map asAnswer) T ∧
      (fs ≠ [] → accepted sim.trace = produced sim.trace) := by
  obtain ⟨t, ws, hq, ha⟩ := h.alone.2 hc
  obtain ⟨x, T, h1, h2, h3, h4, h5⟩ := C129_answered (replay cfg) _ t (callee s c).live ev.env fs v
    (ha ([], s.world)) happ.replay hcf hv hu hs ⟨hp.hs, hp.reads, by
      intro s1 k1 k2
      obtain ⟨s2, rfl, k4⟩ := loops_live (s := { callee s c with hs := ev.env.hs, reads := ev.env.reads, writes := ev.env.writes }) k1
      exact hp.writes s2 k4 k2⟩ hin
  have hp : Par _ _ _ := live_process cfg ev.env (callee s c)
  rw [Par, h1] at hp
  obtain ⟨⟨r', sim⟩, g1, g2⟩ := Outcome.bind_eq_ok.mp hp.symm
  simp only [withLive, Outcome.ok.injEq, Prod.mk.injEq] at g2
  obtain ⟨rfl, rfl⟩ := g2
  obtain ⟨s', e1, -, -, e4⟩ := (C93_event h.serves hc).2.2 he hh hrw .wantRead sim g1
  obtain ⟨e4, e5, e6⟩ := e4 (by simp)
  exact ⟨s', sim, T, e1, e4, by rw [e5]; exact h.serves.inv.isOpen hc, h2, h3, answered_of_serves h4 (by simpa [feed] using hq) h.alone.1, h5⟩

/-- An event that does not end the connection on `fd`: no error and no hangup is reported, the transport does
not fail, and what it delivers is a part of `x`. -/
structure Fair (cfg : Cfg W) (x : Bytes) (s : Server W) (ev : PollEv) : Prop where
  error : hasEvent ev.events .error = false
  hangup : hasEvent ev.events .hangup = false
  sound : Sound ev.env
  honest : ∀ c, s.conns.get ev.fd = some c → Honest cfg ev.env { c.sim with world := s.world }
  input : ∀ c, s.conns.get ev.fd = some c → received c.sim.trace ++ pending ev.env.reads <+: x

/-- What happens to a server during the life of a connection on `fd`, created at clock value `t0`, whose client
sends `x`: anything at all, but the events for this connection are fair and no more than five seconds pass
without progress on it. -/
inductive Cares (cfg : Cfg W) (fd t0 : Nat) (x : Bytes) (s0 : Server W) : Server W → Prop
  | start : Cares cfg fd t0 x s0 s0
  | reap (s : Server W) (now : Nat → Nat) (h : Cares cfg fd t0 x s0 s)
      (hn : ∀ c, s.conns.get fd = some c → ¬ lastProgress t0 c.sim.trace + 5 * 10 ^ 9 < now fd) :
      Cares cfg fd t0 x s0 (s.reapIdle now)
  | event (s s' : Server W) (ev : PollEv) (h : Cares cfg fd t0 x s0 s) (he : s.handleEvent cfg ev = .ok s')
      (hg : ev.fd = fd → Fair cfg x s ev) : Cares cfg fd t0 x s0 s'
  | stop (s : Server W) (r : StopReason) (h : Cares cfg fd t0 x s0 s) : Cares cfg fd t0 x s0 (s.stop r)

theorem Cares.reach {cfg : Cfg W} {fd t0 : Nat} {x : Bytes} {s0 s : Server W} (h : Cares cfg fd t0 x s0 s) :
    Reach cfg anyEv s0 s := by
  induction h with
  | start => exact .start
  | reap s now _ _ ih => exact .reap s now ih
  | event s s' ev _ he _ ih => exact .event s s' ev ih trivial he
  | stop s r _ ih => exact .stop s r ih

/-- C130, over the whole life of the connection: whatever the other clients do, a client that follows the RFCs,
is not idle for five seconds and whose transport does not fail keeps its connection. -/
theorem C130_life {cfg : Cfg W} {s0 s : Server W} (h0 : Serves cfg s0) {fd t0 : Nat} {w : W} {c0 : Conn W}
    (hc0 : s0.conns.get fd = some c0) (hn : c0.sim = Sim.init w t0) (happ : GoodApp cfg) {fs : List Frame}
    {v : Bytes} (hcf : Conforming fs) (hv : FramesWire fs v) (h : Cares cfg fd t0 (Spec.preface ++ v) s0 s) :
    ∃ c, s.conns.get fd = some c ∧ c.file = c0.file ∧ s.os.files.get fd = some c0.file ∧
      c0.file ∉ s.os.closed ∧ Unbroken c.sim.trace ∧ received c.sim.trace <+: Spec.preface ++ v := by
  suffices hx : ∃ c, s.conns.get fd = some c ∧ c.file = c0.file ∧ Unbroken c.sim.trace ∧
      received c.sim.trace <+: Spec.preface ++ v by
    obtain ⟨c, h1, h2, h3, h4⟩ := hx
    have hi := (h0.reach h.reach).inv
    refine ⟨c, h1, h2, by rw [← h2]; exact hi.isOpen h1, fun hx => ?_, h3, h4⟩
    exact ((hi.closed _).1 hx).2.2 _ _ h1 h2
  induction h with
  | start => exact ⟨c0, hc0, rfl, by rw [hn]; simp [Unbroken, Sim.init], by rw [hn]; exact List.nil_prefix⟩
  | reap s now h hidle ih =>
    obtain ⟨c, h1, h2, h3, h4⟩ := ih
    have := (C62_reap h0 hc0 hn h.reach h1 h2 now).2 (hidle c h1)
    exact ⟨c, this.1, h2, h3, h4⟩
  | event s s' ev h he hg ih =>
    obtain ⟨c, h1, h2, h3, h4⟩ := ih
    have hs := h0.reach h.reach
    by_cases hfd : fd = ev.fd
    · have hg := hg hfd.symm
      rw [hfd] at h1
      by_cases hrw : hasEvent ev.events .read = true ∨ hasEvent ev.events .write = true
      · obtain ⟨s1, sim, k1, k2, -, -, k3, rest, k4⟩ := C130_kept hs h1 happ hcf hv hg.error hg.hangup hrw
          (hg.honest c h1) h3 hg.sound (hg.input c h1)
        rw [k1] at he
        cases he
        exact ⟨⟨c.file, sim⟩, by rw [hfd]; exact k2, h2, k3, List.IsPrefix.trans ⟨rest, k4.symm⟩ (hg.input c h1)⟩
      · have := (C93_event hs h1).2.1 hg.error hg.hangup (by simpa using fun h => hrw (.inl h))
          (by simpa using fun h => hrw (.inr h))
        rw [this] at he
        cases he
        exact ⟨c, by rw [hfd]; exact h1, h2, h3, h4⟩
    · exact ⟨c, (C61_isolated hs he h1 hfd).1, h2, h3, h4⟩
  | stop s r h ih => exact ih

/-- C130 for the program, with any arguments: a client that follows the RFCs connects; the program does
whatever its other clients make it do; when everything the client sends has arrived and the transport takes
what it is given, all its requests are answered. Nothing is assumed about the application. -/
theorem C130_program (page : Page) (a : Args) (sgn : Bool) {w0 : World} {s0 s : Server World}
    (h0 : Started (progCfg page a sgn) w0 s0) {t0 : Nat} {w : World} {c0 : Conn World} {ev : PollEv}
    (hc0 : s0.conns.get ev.fd = some c0) (hn : c0.sim = Sim.init w t0) {fs : List Frame} {v : Bytes}
    (hcf : Conforming fs) (hv : FramesWire fs v)
    (h : Cares (progCfg page a sgn) ev.fd t0 (Spec.preface ++ v) s0 s)
    (he : hasEvent ev.events .error = false) (hh : hasEvent ev.events .hangup = false)
    (hrw : hasEvent ev.events .read = true ∨ hasEvent ev.events .write = true) (hs : Sound ev.env)
    (hp : ∀ c, s.conns.get ev.fd = some c → Prompt (progCfg page a sgn) ev.env { c.sim with world := s.world } ∧
      received c.sim.trace ++ pending ev.env.reads = Spec.preface ++ v) :
    ∃ s' c T, s.handleEvent (progCfg page a sgn) ev = .ok s' ∧ s'.conns.get ev.fd = some c ∧
      c.file = c0.file ∧ s'.os.files.get ev.fd = some c0.file ∧
      (frames c.sim.trace).map asFrame = fs ∧
      Answered (progCfg page a sgn) w0 fs (handled c.sim.trace) ((responses c.sim.trace).map asAnswer) T ∧
      (fs ≠ [] → accepted c.sim.trace = produced c.sim.trace) := by
  obtain ⟨c, h1, h2, -, -, h5, -⟩ := C130_life h0.serves hc0 hn (progCfg_good page a sgn) hcf hv h
  obtain ⟨s', sim, T, k1, k2, k3, -, k5, k6, k7⟩ := C130_answered (h0.reach h.reach) h1
    (progCfg_good page a sgn) hcf hv he hh hrw (hp c h1).1 h5 hs (hp c h1).2
  exact ⟨s', ⟨c.file, sim⟩, T, k1, k2, h2, by rw [← h2]; exact k3, k5, k6, k7⟩

theorem Cares.events {cfg : Cfg W} {fd t0 : Nat} {x : Bytes} {s0 : Server W} (evs : List PollEv) :
    ∀ {s s' : Server W}, Cares cfg fd t0 x s0 s → (∀ ev ∈ evs, ev.fd ≠ fd) →
      handleEvents cfg evs s = .ok s' → Cares cfg fd t0 x s0 s' := by
  induction evs with
  | nil =>
    intro s s' h _ he
    cases he
    exact h
  | cons ev evs ih =>
    intro s s' h hn he
    rw [handleEvents] at he
    obtain ⟨s1, h1, h2⟩ := Outcome.bind_eq_ok.mp he
    exact ih (.event s s1 ev h h1 fun hx => absurd hx (hn ev (by simp))) (fun e he => hn e (by simp [he])) h2

/-- A client connects on 5, another on 6 that does not speak HTTP/2; then the first one sends the preface, its
settings and a request for `/`, and is answered. -/
example : ∃ s0 c0 s s' sim T, Started Sim.exCfg 0 s0 ∧ s0.conns.get 5 = some c0 ∧ c0.sim = Sim.init 0 0 ∧
    Cares Sim.exCfg 5 0 (Spec.preface ++ (exSettings ++ exGet)) s0 s ∧ s.os.closed = [2] ∧
    s.handleEvent Sim.exCfg (exRead 5 (exEnv (Spec.preface ++ (exSettings ++ exGet)) [36, 44])) = .ok s' ∧
    s'.conns.get 5 = some ⟨c0.file, sim⟩ ∧
    Answered Sim.exCfg 0 [⟨4, 0, 0, []⟩, ⟨1, 5, 1, [0x82, 0x84]⟩] (handled sim.trace)
      ((responses sim.trace).map asAnswer) T ∧
    accepted sim.trace = produced sim.trace := by
  have hgood : GoodApp Sim.exCfg := fun _ _ _ _ => .inl ⟨_, rfl, by simp⟩
  obtain ⟨s0, c0, h1, h2, h3, h4⟩ : ∃ s0 c0,
      handleEvents Sim.exCfg [exAccept 5] (begin 0 3 true false) = .ok s0 ∧ s0.conns.get 5 = some c0 ∧
      c0.sim = Sim.init 0 0 ∧
      (match handleEvents Sim.exCfg [exAccept 6, exRead 6 (exEnv (List.replicate 24 0x47) [])] s0 with
        | .ok s => s.os.closed == [2] && (match s.conns.get 5 with
          | some c => c.sim.trace.isEmpty &&
            prompt Sim.exCfg 5 { c.sim with
              world := s.world,
              hs := (exEnv (Spec.preface ++ (exSettings ++ exGet)) [36, 44]).hs,
              reads := (exEnv (Spec.preface ++ (exSettings ++ exGet)) [36, 44]).reads,
              writes := (exEnv (Spec.preface ++ (exSettings ++ exGet)) [36, 44]).writes }
          | none => false)
        | _ => false) = true :=
    ⟨_, _, rfl, rfl, rfl, by decide +kernel⟩
  have hs0 : Started Sim.exCfg 0 s0 := ⟨3, true, false, events_reach _ (fun _ _ => trivial) h1⟩
  cases hx : handleEvents Sim.exCfg [exAccept 6, exRead 6 (exEnv (List.replicate 24 0x47) [])] s0 with
  | err e => rw [hx] at h4; cases h4
  | ub u => rw [hx] at h4; cases h4
  | ok s =>
    simp only [hx] at h4
    have hcare : Cares Sim.exCfg 5 0 (Spec.preface ++ (exSettings ++ exGet)) s0 s :=
      Cares.events _ .start (by simp [exAccept, exRead]) hx
    obtain ⟨c, k1, k2, -, -, k5, -⟩ := C130_life hs0.serves h2 h3 hgood exConforming exConforming_wire hcare
    simp only [k1, Bool.and_eq_true, beq_iff_eq, List.isEmpty_iff] at h4
    obtain ⟨hcl, htr, hpr⟩ := h4
    obtain ⟨s', sim, T, g1, g2, -, -, -, g6, g7⟩ := C130_answered (hs0.reach hcare.reach)
      (ev := exRead 5 (exEnv (Spec.preface ++ (exSettings ++ exGet)) [36, 44])) k1 hgood exConforming
      exConforming_wire (by decide) (by decide) (by decide)
      ⟨fun _ => ⟨_, rfl⟩, by simp [exRead, exEnv], fun s1 h => prompt_loops h 5 hpr⟩ k5
      ⟨by simp [exRead, exEnv], by simp [exRead, exEnv], by simp [exRead, exEnv]⟩
      (by simp [exRead, exEnv, htr, received, pending])
    exact ⟨s0, c0, s, s', sim, T, hs0, h2, h3, hcare, hcl, g1, by rw [← k2]; exact g2, g6, g7 (by simp)⟩

end Server
end Ion
