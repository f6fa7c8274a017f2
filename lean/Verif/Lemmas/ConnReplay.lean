import Verif.Lemmas.ConnStep

/-!
# A connection among others

In a server the world a connection's handlers work on also changes between its calls, by the handlers
of other connections. A connection cannot tell: there is another application, whose world is a list of
worlds and a last one, for which the connection alone does the same.
-/

namespace Ion.Sim
variable {W V : Type}

/-- The same connection with another world. -/
def reworld (s : Sim W) (v : V) : Sim V :=
  { st := s.st, rbuf := s.rbuf, wbuf := s.wbuf, dec := s.dec, enc := s.enc, last := s.last, world := v,
    hs := s.hs, reads := s.reads, writes := s.writes, trace := s.trace }

/-- The application whose handlers find in a list the worlds to work on, one for each call; when the list
is used up they work on a world of their own, as usual. -/
def replay (cfg : Cfg W) : Cfg (List W × W) where
  getHandler path method req v :=
    match v.1 with
    | [] => ((cfg.getHandler path method req v.2).1, ([], (cfg.getHandler path method req v.2).2))
    | w :: ws => ((cfg.getHandler path method req w).1, (ws, v.2))
  charSigned := cfg.charSigned

/-- Worlds put in front. -/
def feed (ws : List W) (rest : List W × W) : List W × W := (ws ++ rest.1, rest.2)

@[simp] theorem feed_nil (rest : List W × W) : feed [] rest = rest := rfl

theorem feed_append (a b : List W) (rest : List W × W) : feed (a ++ b) rest = feed a (feed b rest) := by
  simp [feed]

/-- A property of worlds that all handlers of an application preserve. -/
def Keeps (cfg : Cfg W) (Q : W → Prop) : Prop :=
  ∀ path method req w, Q w → Q (cfg.getHandler path method req w).2

/-- If `x` succeeds, `x'` does the same given the right list of worlds, and leaves the rest of the list. The
worlds of the list, and the one `x` leaves, have the property `Q`. -/
def Rep {α α' : Type} (Q : W → Prop) (wd : α → W) (x : Outcome Stop α) (x' : List W × W → Outcome Stop α')
    (out : α → List W × W → α') : Prop :=
  ∀ a, x = .ok a → Q (wd a) ∧ ∃ ws : List W, (∀ u ∈ ws, Q u) ∧ ∀ rest, x' (feed ws rest) = .ok (out a rest)

theorem Rep.pure {α α' : Type} {Q : W → Prop} {wd : α → W} {a : α} {x' : List W × W → Outcome Stop α'}
    {out : α → List W × W → α'} (hq : Q (wd a)) (h : ∀ v, x' v = .ok (out a v)) : Rep Q wd (.ok a) x' out := by
  intro b hb
  cases hb
  exact ⟨hq, [], by simp, fun rest => h rest⟩

theorem Rep.bind {α α' β β' : Type} {Q : W → Prop} {wd : α → W} {wd2 : β → W} {x : Outcome Stop α}
    {x' : List W × W → Outcome Stop α'} {out : α → List W × W → α'} {k : α → Outcome Stop β}
    {k' : α' → Outcome Stop β'} {out2 : β → List W × W → β'}
    (hx : Rep Q wd x x' out) (hk : ∀ a, Q (wd a) → Rep Q wd2 (k a) (fun v => k' (out a v)) out2) :
    Rep Q wd2 (x >>= k) (fun v => x' v >>= k') out2 := by
  intro b hb
  obtain ⟨a, ha, hb⟩ := Outcome.bind_eq_ok.1 hb
  obtain ⟨hq, ws1, q1, h1⟩ := hx a ha
  obtain ⟨hq2, ws2, q2, h2⟩ := hk a hq b hb
  refine ⟨hq2, ws1 ++ ws2, fun u hu => (List.mem_append.mp hu).elim (q1 u) (q2 u), fun rest => ?_⟩
  simp only
  rw [feed_append, h1]
  exact h2 rest

/-- A computation that does not involve the world. -/
theorem Rep.const {α β β' : Type} {Q : W → Prop} {wd2 : β → W} {x : Outcome Stop α} {k : α → Outcome Stop β}
    {x' : List W × W → Outcome Stop α} {k' : List W × W → α → Outcome Stop β'} {out2 : β → List W × W → β'}
    (hx : ∀ v, x' v = x)
    (hk : ∀ a, Rep Q wd2 (k a) (fun v => k' v a) out2) :
    Rep Q wd2 (x >>= k) (fun v => x' v >>= k' v) out2 := by
  intro b hb
  obtain ⟨a, ha, hb⟩ := Outcome.bind_eq_ok.1 hb
  obtain ⟨hq, ws, q, h⟩ := hk a b hb
  refine ⟨hq, ws, q, fun rest => ?_⟩
  simp only
  rw [hx, ha]
  exact h rest

theorem reworld_enq (s : Sim W) (v : V) (cs : List Bytes) :
    (s.reworld v).enq cs = (s.enq cs).reworld v := rfl

/-- Results with a state. -/
def withWorld {α : Type} (x : α × Sim W) (v : V) : α × Sim V := (x.1, x.2.reworld v)

theorem rep_processRequest {cfg : Cfg W} {Q : W → Prop} (hQ : Keeps cfg Q) (s : Sim W) (hs : List Header)
    (hw : Q s.world) :
    Rep Q (fun x => x.2.world) (processRequest cfg s hs) (fun v => processRequest (replay cfg) (s.reworld v) hs)
      withWorld := by
  cases hp : getHeader hs b!":path" with
  | none =>
    simp only [processRequest, hp]
    exact .pure hw fun v => rfl
  | some path =>
    cases hm : getHeader hs b!":method" with
    | none =>
      simp only [processRequest, hp, hm]
      exact .pure hw fun v => rfl
    | some method =>
      rintro ⟨resp, s'⟩ h
      rcases hh : cfg.getHandler path method ⟨method, path, hs⟩ s.world with ⟨o, w'⟩
      have hq : Q w' := by
        have := hQ path method ⟨method, path, hs⟩ s.world hw
        rwa [hh] at this
      refine ⟨?_, [s.world], by simpa using hw, fun rest => ?_⟩
      · simp only [processRequest, hp, hm, hh] at h
        cases o with
        | resp r =>
          simp only [Outcome.ok.injEq, Prod.mk.injEq] at h
          rw [← h.2]
          exact hq
        | stdExn =>
          simp only [Outcome.ok.injEq, Prod.mk.injEq] at h
          rw [← h.2]
          exact hq
        | otherExn => cases h
      have hr : (replay cfg).getHandler path method ⟨method, path, hs⟩ (feed [s.world] rest) =
          (o, rest) := by
        simp [replay, feed, hh]
      simp only [processRequest, hp, hm, hh] at h
      have hw : (s.reworld (feed [s.world] rest)).world = feed [s.world] rest := rfl
      simp only [processRequest, hp, hm, hw, hr]
      cases o with
      | resp r =>
        simp only [Outcome.ok.injEq, Prod.mk.injEq] at h
        obtain ⟨h1, h2⟩ := h
        rw [← h1, ← h2]
        rfl
      | stdExn =>
        simp only [Outcome.ok.injEq, Prod.mk.injEq] at h
        obtain ⟨h1, h2⟩ := h
        rw [← h1, ← h2]
        rfl
      | otherExn => cases h

theorem rep_answerRequest {cfg : Cfg W} {Q : W → Prop} (hQ : Keeps cfg Q) (s : Sim W) (sid : UInt32) (hs : List Header)
    (hw : Q s.world) :
    Rep Q Sim.world (answerRequest cfg s sid hs) (fun v => answerRequest (replay cfg) (s.reworld v) sid hs)
      reworld := by
  simp only [answerRequest]
  refine Rep.bind (rep_processRequest hQ s hs hw) ?_
  rintro ⟨resp, s1⟩ hw
  refine Rep.const (x := encodeBlock cfg.charSigned s1.enc resp.headers) (fun v => rfl) ?_
  rintro ⟨block, enc⟩
  refine .pure ?_ fun v => ?_
  · by_cases hb : resp.body = []
    · simp only [hb, if_true, writeHeadersResponse_eq]
      exact hw
    · simp only [hb, if_false, writeHeadersResponse_eq]
      rw [writeDataResponse_eq sid _ _ rfl]
      exact hw
  simp only [withWorld]
  by_cases hb : resp.body = []
  · simp only [hb, if_true, writeHeadersResponse_eq]
    rfl
  · simp only [hb, if_false, writeHeadersResponse_eq]
    rw [writeDataResponse_eq sid _ _ rfl, writeDataResponse_eq sid _ _ rfl]
    rfl

theorem rep_processFrame {cfg : Cfg W} {Q : W → Prop} (hQ : Keeps cfg Q) (s : Sim W) (f : FrameReader)
    (hw : Q s.world) :
    Rep Q Sim.world (processFrame cfg s f) (fun v => processFrame (replay cfg) (s.reworld v) f) reworld := by
  simp only [processFrame]
  split
  · split
    · exact .pure hw fun v => rfl
    · cases f.readSettings with
      | ok l => exact .pure hw fun v => rfl
      | err e => exact .pure hw fun v => rfl
      | ub u => intro a h; cases h
  · split
    · refine Rep.const (x := f.headersBlock) (fun v => rfl) ?_
      intro block
      have e : ∀ v : List W × W, (s.reworld v).dec = s.dec := fun v => rfl
      simp only [e]
      cases hd : decodeBlock s.dec block with
      | ok hs dec => exact rep_answerRequest hQ { s with dec } _ hs hw
      | err e dec => exact .pure hw fun v => rfl
      | ub u => intro a h; cases h
    · split
      · refine Rep.const (x := f.readWindowUpdate) (fun v => rfl) ?_
        intro _
        exact .pure hw fun v => rfl
      · split
        · exact .pure hw fun v => rfl
        · exact .pure hw fun v => rfl

theorem rep_frameCase {cfg : Cfg W} {Q : W → Prop} (hQ : Keeps cfg Q) (s : Sim W)
    (hw : Q s.world) :
    Rep Q (fun x => x.2.world) (frameCase cfg s) (fun v => frameCase (replay cfg) (s.reworld v)) withWorld := by
  simp only [frameCase]
  refine Rep.bind (wd := fun x => x.2.world) (out := withWorld) ?_ ?_
  · simp only [tryReadFrame]
    have e : ∀ v : List W × W, (s.reworld v).rbuf = s.rbuf := fun v => rfl
    simp only [e]
    split
    · exact .pure hw fun v => rfl
    · refine Rep.const (x := FrameHeader.parse s.rbuf) (fun v => rfl) ?_
      intro hd
      split
      · exact .pure hw fun v => rfl
      · split
        · exact .pure hw fun v => rfl
        · refine Rep.bind (wd := Sim.world) (out := reworld) ?_ (fun a hw => .pure hw fun v => rfl)
          exact rep_processFrame hQ (s.emit _) _ hw
  · rintro ⟨again, s⟩ hw
    cases again
    · exact .pure hw fun v => rfl
    · exact .pure hw fun v => rfl

theorem reworld_fill (rs : List ReadRes) (s : Sim W) (v : V) :
    fillLoop rs (s.reworld v) = (fillLoop rs s).reworld v := by
  induction rs generalizing s with
  | nil =>
    simp only [fillLoop]
    show (if s.rbuf.length + _ ≥ _ then _ else _) = _
    split <;> rfl
  | cons r rs ih =>
    simp only [fillLoop]
    show (if s.rbuf.length + _ ≥ _ then _ else _) = _
    split
    · rfl
    · cases r with
      | fail e => cases e <;> rfl
      | data bs t =>
        simp only
        rw [← ih]
        rfl

theorem reworld_readPreface (s : Sim W) (v : V) :
    readPreface (s.reworld v) = withWorld (readPreface s) v := by
  simp only [readPreface, writeServerSettings_eq]
  by_cases h1 : s.rbuf.length < clientPreface.length
  · have h1' : (s.reworld v).rbuf.length < clientPreface.length := h1
    rw [if_pos h1, if_pos h1']
    rfl
  · have h1' : ¬ (s.reworld v).rbuf.length < clientPreface.length := h1
    rw [if_neg h1, if_neg h1']
    by_cases h2 : s.rbuf.take clientPreface.length ≠ clientPreface
    · have h2' : (s.reworld v).rbuf.take clientPreface.length ≠ clientPreface := h2
      rw [if_pos h2, if_pos h2']
      rfl
    · have h2' : ¬ (s.reworld v).rbuf.take clientPreface.length ≠ clientPreface := h2
      rw [if_neg h2, if_neg h2']
      rfl

theorem rep_flush {Q : W → Prop} (s : Sim W)
    (hw : Q s.world) :
    Rep Q Sim.world (flush s) (fun v => flush (s.reworld v)) (reworld : Sim W → List W × W → _) := by
  by_cases h : s.wbuf = []
  · have h' : ∀ v : List W × W, (s.reworld v).wbuf = [] := fun v => h
    simp only [flush, h, h', if_true]
    exact .pure hw fun v => rfl
  · have h' : ∀ v : List W × W, (s.reworld v).wbuf = s.wbuf := fun v => rfl
    have h'' : ∀ v : List W × W, (s.reworld v).writes = s.writes := fun v => rfl
    simp only [flush, h, h', h'', if_false]
    generalize s.writes.headD (.fail .wantReadOrWrite) = r
    cases r with
    | fail e => cases e <;> exact .pure hw fun v => rfl
    | wrote n t =>
      simp only [emit]
      by_cases hn : n > s.wbuf.length
      · intro a ha
        simp [hn] at ha
      · simp only [hn, if_false]
        exact .pure hw fun v => rfl

theorem reworld_handshake (s : Sim W) (v : V) :
    handleHandshake (s.reworld v) = withWorld (handleHandshake s) v := by
  obtain ⟨st, rbuf, wbuf, dec, enc, last, world, hs, reads, writes, trace⟩ := s
  cases hs with
  | done t => rfl
  | fail e => cases e <;> rfl

theorem fillLoop_world (rs : List ReadRes) (s : Sim W) : (fillLoop rs s).world = s.world := by
  induction rs generalizing s with
  | nil => simp only [fillLoop]; split <;> rfl
  | cons r rs ih =>
    simp only [fillLoop]
    split
    · rfl
    · cases r with
      | fail e => cases e <;> rfl
      | data bs t => simp only; rw [ih]; rfl

theorem readPreface_world (s : Sim W) : (readPreface s).2.world = s.world := by
  simp only [readPreface, writeServerSettings_eq]
  split
  · rfl
  · split <;> rfl

theorem handleHandshake_world (s : Sim W) : (handleHandshake s).2.world = s.world := by
  obtain ⟨st, rbuf, wbuf, dec, enc, last, world, hs, reads, writes, trace⟩ := s
  cases hs with
  | done t => rfl
  | fail e => cases e <;> rfl

theorem rep_dispatch {cfg : Cfg W} {Q : W → Prop} (hQ : Keeps cfg Q) (s : Sim W)
    (hw : Q s.world) :
    Rep Q (fun x => x.2.world) (dispatch cfg s) (fun v => dispatch (replay cfg) (s.reworld v)) withWorld := by
  have e : ∀ v : List W × W, (s.reworld v).st = s.st := fun v => rfl
  simp only [dispatch, e]
  cases hst : s.st with
  | awaitingPreface =>
    simp only [reworld_readPreface]
    have hw' := readPreface_world s
    rcases hx : readPreface s with ⟨r, t⟩
    rw [hx] at hw'
    have hw : Q t.world := by rw [show t.world = s.world from hw']; exact hw
    cases r with
    | success => exact rep_frameCase hQ t hw
    | notEnoughData => exact .pure hw fun v => rfl
    | protocolError => exact .pure hw fun v => rfl
  | awaitingFrame => exact rep_frameCase hQ s hw
  | closing => exact .pure hw fun v => rfl
  | protocolError =>
    refine .pure (by rw [close_eq s (by rw [hst]; simp)]; exact hw) fun v => ?_
    rw [close_eq (s.reworld v) (by rw [e, hst]; simp), close_eq s (by rw [hst]; simp)]
    rfl
  | clientClosed => exact .pure hw fun v => rfl
  | awaitingHandshake => exact .pure hw fun v => rfl

theorem rep_turn {cfg : Cfg W} {Q : W → Prop} (hQ : Keeps cfg Q) (s : Sim W)
    (hw : Q s.world) :
    Rep Q (fun x => x.2.world) (turn cfg s) (fun v => turn (replay cfg) (s.reworld v)) withWorld := by
  simp only [turn]
  refine Rep.bind (rep_flush s hw) ?_
  intro s hw
  have e : ∀ v : List W × W, (s.reworld v).wbuf = s.wbuf := fun v => rfl
  simp only [e]
  split
  · exact .pure hw fun v => rfl
  · have e2 : ∀ v : List W × W, (s.reworld v).fill = s.fill.reworld v := fun v => reworld_fill _ s v
    simp only [e2]
    exact rep_dispatch hQ s.fill (by rw [Sim.fill, fillLoop_world]; exact hw)

theorem rep_iter {cfg : Cfg W} {Q : W → Prop} (hQ : Keeps cfg Q) (s : Sim W)
    (hw : Q s.world) :
    Rep Q (fun x => x.2.world) (iter cfg s) (fun v => iter (replay cfg) (s.reworld v)) withWorld := by
  have e : ∀ v : List W × W, (s.reworld v).st = s.st := fun v => rfl
  simp only [iter, e]
  split
  · simp only [reworld_handshake]
    have hw' := handleHandshake_world s
    rcases hx : handleHandshake s with ⟨r, t⟩
    rw [hx] at hw'
    have hw : Q t.world := by rw [show t.world = s.world from hw']; exact hw
    cases r with
    | some r => exact .pure hw fun v => rfl
    | none => exact rep_turn hQ t hw
  · exact rep_turn hQ s hw

theorem rep_loop {cfg : Cfg W} {Q : W → Prop} (hQ : Keeps cfg Q) (n : Nat) (s : Sim W)
    (hw : Q s.world) :
    Rep Q (fun x => x.2.world) (loop cfg n s) (fun v => loop (replay cfg) n (s.reworld v)) withWorld := by
  induction n generalizing s with
  | zero => intro a h; cases h
  | succ n ih =>
    simp only [loop]
    refine Rep.bind (rep_iter hQ s hw) ?_
    rintro ⟨r, s⟩ hw
    cases r with
    | some r => exact .pure hw fun v => rfl
    | none => exact ih s hw

theorem rep_process_in {cfg : Cfg W} {Q : W → Prop} (hQ : Keeps cfg Q) (env : Env) (s : Sim W)
    (hw : Q s.world) :
    Rep Q (fun x => x.2.world) (process cfg env s) (fun v => process (replay cfg) env (s.reworld v)) withWorld := by
  simp only [process]
  refine Rep.bind (rep_loop hQ _ { s with hs := env.hs, reads := env.reads, writes := env.writes } hw) ?_
  rintro ⟨r, s⟩ hw
  exact .pure hw fun v => rfl

theorem rep_process (cfg : Cfg W) (env : Env) (s : Sim W) (a : ProcRes × Sim W) (h : process cfg env s = .ok a) :
    ∃ ws : List W, ∀ rest, process (replay cfg) env (s.reworld (feed ws rest)) = .ok (withWorld a rest) := by
  obtain ⟨-, ws, -, h⟩ := rep_process_in (cfg := cfg) (Q := fun _ => True) (fun _ _ _ _ _ => trivial) env s trivial a h
  exact ⟨ws, h⟩

/-! ### Exactly the same -/

/-- `x'` is `x`, with another kind of result. -/
def Par {α α' : Type} (x : Outcome Stop α) (x' : Outcome Stop α') (out : α → α') : Prop :=
  x' = x >>= fun a => .ok (out a)

theorem Par.pure {α α' : Type} {a : α} {a' : α'} {out : α → α'} (h : a' = out a) :
    Par (.ok a) (.ok a') out := by rw [h]; rfl

theorem Par.bind {α α' β β' : Type} {x : Outcome Stop α} {x' : Outcome Stop α'} {out : α → α'}
    {k : α → Outcome Stop β} {k' : α' → Outcome Stop β'} {out2 : β → β'}
    (hx : Par x x' out) (hk : ∀ a, Par (k a) (k' (out a)) out2) : Par (x >>= k) (x' >>= k') out2 := by
  cases x with
  | ok a =>
    have hx : x' = .ok (out a) := hx
    rw [hx]
    exact hk a
  | err e => have hx : x' = .err e := hx; rw [hx]; rfl
  | ub u => have hx : x' = .ub u := hx; rw [hx]; rfl

theorem Par.const {α β β' : Type} {x : Outcome Stop α} {k : α → Outcome Stop β} {k' : α → Outcome Stop β'}
    {out : β → β'} (hk : ∀ a, Par (k a) (k' a) out) : Par (x >>= k) (x >>= k') out := by
  cases x with
  | ok a => exact hk a
  | err e => rfl
  | ub u => rfl

/-- The connection whose application has no list of worlds left. -/
def live (s : Sim W) : Sim (List W × W) := s.reworld ([], s.world)

/-- Results with a state. -/
def withLive {α : Type} (x : α × Sim W) : α × Sim (List W × W) := (x.1, x.2.live)

theorem live_processRequest (cfg : Cfg W) (s : Sim W) (hs : List Header) :
    Par (processRequest cfg s hs) (processRequest (replay cfg) s.live hs) withLive := by
  cases hp : getHeader hs b!":path" with
  | none => simp only [processRequest, hp]; exact .pure rfl
  | some path =>
    cases hm : getHeader hs b!":method" with
    | none => simp only [processRequest, hp, hm]; exact .pure rfl
    | some method =>
      rcases hh : cfg.getHandler path method ⟨method, path, hs⟩ s.world with ⟨o, w'⟩
      have hr : (replay cfg).getHandler path method ⟨method, path, hs⟩ ([], s.world) = (o, ([], w')) := by
        simp [replay, hh]
      have hw : s.live.world = ([], s.world) := rfl
      simp only [processRequest, hp, hm, hh, hw, hr]
      cases o with
      | resp r => exact .pure rfl
      | stdExn => exact .pure rfl
      | otherExn => rfl

theorem live_answerRequest (cfg : Cfg W) (s : Sim W) (sid : UInt32) (hs : List Header) :
    Par (answerRequest cfg s sid hs) (answerRequest (replay cfg) s.live sid hs) live := by
  simp only [answerRequest]
  refine Par.bind (live_processRequest cfg s hs) ?_
  rintro ⟨resp, s1⟩
  refine Par.const (x := encodeBlock cfg.charSigned s1.enc resp.headers) ?_
  rintro ⟨block, enc⟩
  refine .pure ?_
  simp only [withLive]
  by_cases hb : resp.body = []
  · simp only [hb, if_true, writeHeadersResponse_eq]
    rfl
  · simp only [hb, if_false, writeHeadersResponse_eq]
    rw [writeDataResponse_eq sid _ _ rfl, writeDataResponse_eq sid _ _ rfl]
    rfl

theorem live_processFrame (cfg : Cfg W) (s : Sim W) (f : FrameReader) :
    Par (processFrame cfg s f) (processFrame (replay cfg) s.live f) live := by
  simp only [processFrame]
  split
  · split
    · exact .pure rfl
    · cases f.readSettings with
      | ok l => exact .pure rfl
      | err e => exact .pure rfl
      | ub u => rfl
  · split
    · refine Par.const (x := f.headersBlock) ?_
      intro block
      have e : s.live.dec = s.dec := rfl
      simp only [e]
      cases hd : decodeBlock s.dec block with
      | ok hs dec => exact live_answerRequest cfg { s with dec } _ hs
      | err e dec => exact .pure rfl
      | ub u => rfl
    · split
      · refine Par.const (x := f.readWindowUpdate) ?_
        intro _
        exact .pure rfl
      · split
        · exact .pure rfl
        · exact .pure rfl

theorem live_frameCase (cfg : Cfg W) (s : Sim W) :
    Par (frameCase cfg s) (frameCase (replay cfg) s.live) withLive := by
  simp only [frameCase]
  refine Par.bind (out := withLive) ?_ ?_
  · simp only [tryReadFrame]
    have e : s.live.rbuf = s.rbuf := rfl
    simp only [e]
    split
    · exact .pure rfl
    · refine Par.const (x := FrameHeader.parse s.rbuf) ?_
      intro hd
      split
      · exact .pure rfl
      · split
        · exact .pure rfl
        · refine Par.bind (out := live) ?_ (fun a => .pure rfl)
          exact live_processFrame cfg (s.emit _) _
  · rintro ⟨again, s⟩
    cases again
    · exact .pure rfl
    · exact .pure rfl

theorem live_flush (s : Sim W) : Par (flush s) (flush s.live) live := by
  have h' : s.live.wbuf = s.wbuf := rfl
  by_cases h : s.wbuf = []
  · simp only [flush, h', h, if_true]
    exact .pure rfl
  · have h'' : s.live.writes = s.writes := rfl
    simp only [flush, h, h', h'', if_false]
    generalize s.writes.headD (.fail .wantReadOrWrite) = r
    cases r with
    | fail e => cases e <;> exact .pure rfl
    | wrote n t =>
      simp only [emit]
      by_cases hn : n > s.wbuf.length
      · simp only [hn, if_true]; rfl
      · simp only [hn, if_false]
        exact .pure rfl

theorem live_dispatch (cfg : Cfg W) (s : Sim W) :
    Par (dispatch cfg s) (dispatch (replay cfg) s.live) withLive := by
  have e : s.live.st = s.st := rfl
  simp only [dispatch, e]
  cases hst : s.st with
  | awaitingPreface =>
    have e : readPreface s.live = withLive (readPreface s) := by
      rw [live, reworld_readPreface, withLive, withWorld, live, readPreface_world]
    simp only [e]
    rcases readPreface s with ⟨r, t⟩
    cases r with
    | success => exact live_frameCase cfg t
    | notEnoughData => exact .pure rfl
    | protocolError => exact .pure rfl
  | awaitingFrame => exact live_frameCase cfg s
  | closing => exact .pure rfl
  | protocolError =>
    refine .pure ?_
    rw [close_eq s.live (by rw [e, hst]; simp), close_eq s (by rw [hst]; simp)]
    rfl
  | clientClosed => exact .pure rfl
  | awaitingHandshake => exact .pure rfl

theorem live_turn (cfg : Cfg W) (s : Sim W) :
    Par (turn cfg s) (turn (replay cfg) s.live) withLive := by
  simp only [turn]
  refine Par.bind (live_flush s) ?_
  intro s
  have e : s.live.wbuf = s.wbuf := rfl
  simp only [e]
  split
  · exact .pure rfl
  · have e2 : s.live.fill = s.fill.live := by
      show fillLoop _ _ = _
      rw [live, reworld_fill]
      show _ = (fillLoop _ _).live
      rw [live, fillLoop_world]
      rfl
    simp only [e2]
    exact live_dispatch cfg s.fill

theorem live_iter (cfg : Cfg W) (s : Sim W) :
    Par (iter cfg s) (iter (replay cfg) s.live) withLive := by
  have e : s.live.st = s.st := rfl
  simp only [iter, e]
  split
  · have e : handleHandshake s.live = withLive (handleHandshake s) := by
      rw [live, reworld_handshake, withLive, withWorld, live, handleHandshake_world]
    simp only [e]
    rcases handleHandshake s with ⟨r, t⟩
    cases r with
    | some r => exact .pure rfl
    | none => exact live_turn cfg t
  · exact live_turn cfg s

theorem live_loop (cfg : Cfg W) (n : Nat) (s : Sim W) :
    Par (loop cfg n s) (loop (replay cfg) n s.live) withLive := by
  induction n generalizing s with
  | zero => rfl
  | succ n ih =>
    simp only [loop]
    refine Par.bind (live_iter cfg s) ?_
    rintro ⟨r, s⟩
    cases r with
    | some r => exact .pure rfl
    | none => exact ih s

/-- With no list of worlds left, a call is the same, whatever its outcome. -/
theorem live_process (cfg : Cfg W) (env : Env) (s : Sim W) :
    Par (process cfg env s) (process (replay cfg) env s.live) withLive := by
  simp only [process]
  refine Par.bind (live_loop cfg _ { s with hs := env.hs, reads := env.reads, writes := env.writes }) ?_
  rintro ⟨r, s⟩
  exact .pure rfl

end Ion.Sim
