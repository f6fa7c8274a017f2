import Verif.Lemmas.ConnStep
import Verif.Spec.Connection

/-!
# Invariants of a connection
-/

namespace Ion

open Spec

/-! ### Unique reading of frames -/

namespace Spec

theorem FrameWire.len {f : Frame} {w : Bytes} (h : FrameWire f w) :
    w.length = 9 + f.payload.length := by
  obtain ⟨len, sid, h1, h2, rfl, -⟩ := h
  simp [h1, h2]; omega

/-- Two frames at the front of the same octets are the same. -/
theorem FrameWire.unique {f f' : Frame} {w w' r r' : Bytes} (h : FrameWire f w) (h' : FrameWire f' w')
    (e : w ++ r = w' ++ r') : f = f' ∧ w = w' ∧ r = r' := by
  have l := h.len
  have l' := h'.len
  obtain ⟨len, sid, h1, h2, rfl, h3, h4⟩ := h
  obtain ⟨len', sid', h1', h2', rfl, h3', h4'⟩ := h'
  simp only [List.append_assoc] at e
  obtain ⟨rfl, e2⟩ := List.append_inj e (by rw [h1, h1'])
  have hp : f.payload.length = f'.payload.length := by rw [← h3, ← h3']
  simp only [List.cons_append, List.nil_append, List.cons.injEq] at e2
  obtain ⟨et, ef, e3⟩ := e2
  obtain ⟨rfl, e4⟩ := List.append_inj e3 (by rw [h2, h2'])
  obtain ⟨ep, er⟩ := List.append_inj e4 hp
  refine ⟨?_, ?_, er⟩
  · cases f; cases f'; simp_all
  · rw [et, ef, ep]

theorem Waiting.no_frame {f : Frame} {w r rest : Bytes} (hr : Waiting rest) (h : FrameWire f w)
    (e : rest = w ++ r) : False := by
  rcases hr with hr | ⟨f', w', ext, h', -, hx, e'⟩
  · have := h.len; rw [e] at hr; simp at hr; omega
  · rw [e, List.append_assoc] at e'
    have := (h.unique h' (r := r ++ ext) (r' := []) (by rw [← e']; simp)).2.2
    simp at this
    exact hx this.2

/-- Reading as many frames as possible is unambiguous. -/
theorem FramesWire.unique {fs fs' : List Frame} {w w' r r' : Bytes} (h : FramesWire fs w)
    (h' : FramesWire fs' w') (e : w ++ r = w' ++ r') (hr : Waiting r) (hr' : Waiting r') :
    fs = fs' ∧ w = w' ∧ r = r' := by
  induction h generalizing fs' w' with
  | nil =>
    cases h' with
    | nil => exact ⟨rfl, rfl, by simpa using e⟩
    | cons f fs v vs hf hs => exact (hr.no_frame hf (by simpa using e)).elim
  | cons f fs v vs hf hs ih =>
    cases h' with
    | nil => exact (hr'.no_frame hf (r := vs ++ r) (by simpa using e.symm)).elim
    | cons f' fs' v' vs' hf' hs' =>
      simp only [List.append_assoc] at e
      obtain ⟨rfl, rfl, e2⟩ := hf.unique hf' e
      obtain ⟨rfl, rfl, e3⟩ := ih hs' e2
      exact ⟨rfl, rfl, e3⟩

/-- The leading frames are a prefix of any other reading of the same octets. -/
theorem FramesWire.prefix {fs fs' : List Frame} {w w' r r' : Bytes} (h : FramesWire fs w)
    (h' : FramesWire fs' w') (e : w ++ r = w' ++ r') (hr' : Waiting r') : fs <+: fs' := by
  induction h generalizing fs' w' with
  | nil => exact List.nil_prefix
  | cons f fs v vs hf hs ih =>
    cases h' with
    | nil => exact (hr'.no_frame hf (r := vs ++ r) (by simpa using e.symm)).elim
    | cons f' fs' v' vs' hf' hs' =>
      simp only [List.append_assoc] at e
      obtain ⟨rfl, rfl, e2⟩ := hf.unique hf' e
      exact List.cons_prefix_cons.mpr ⟨rfl, ih hs' e2⟩

theorem FramesWire.append {fs gs : List Frame} {w v : Bytes} (h : FramesWire fs w)
    (h' : FramesWire gs v) : FramesWire (fs ++ gs) (w ++ v) := by
  induction h with
  | nil => exact h'
  | cons f fs x xs hf hs ih => rw [List.append_assoc]; exact .cons f _ x _ hf ih

theorem FramesWire.snoc {fs : List Frame} {f : Frame} {w v : Bytes} (h : FramesWire fs w)
    (hf : FrameWire f v) : FramesWire (fs ++ [f]) (w ++ v) := by
  have := FramesWire.cons f [] v [] hf .nil
  rw [List.append_nil] at this
  exact h.append this

theorem FramesWire.one {f : Frame} {w : Bytes} (h : FrameWire f w) : FramesWire [f] w := by
  have := FramesWire.cons f [] w [] h .nil
  rwa [List.append_nil] at this

end Spec

namespace Sim
variable {W : Type}

/-! ### The read buffer -/

theorem HasHeader.split {rbuf : Bytes} {hd : FrameHeader} (h : HasHeader rbuf hd) :
    ∃ a b c t f s0 s1 s2 s3 rest, rbuf = a :: b :: c :: t :: f :: s0 :: s1 :: s2 :: s3 :: rest ∧
      hd = ⟨loadU24 a b c, t, f, loadU32 s0 s1 s2 s3 &&& 0x7FFFFFFF⟩ := by
  obtain ⟨-, h⟩ := h
  unfold FrameHeader.parse at h
  split at h
  · simp only [Outcome.ok.injEq] at h
    exact ⟨_, _, _, _, _, _, _, _, _, _, rfl, h.symm⟩
  · cases h

theorem HasHeader.exists {rbuf : Bytes} (h : 9 ≤ rbuf.length) : ∃ hd, HasHeader rbuf hd := by
  match rbuf, h with
  | a :: b :: c :: t :: f :: s0 :: s1 :: s2 :: s3 :: rest, h => exact ⟨_, h, rfl⟩

theorem HasHeader.unique {rbuf : Bytes} {h1 h2 : FrameHeader} (a : HasHeader rbuf h1)
    (b : HasHeader rbuf h2) : h1 = h2 := by
  have := a.2.symm.trans b.2; cases this; rfl

theorem HasHeader.append {rbuf : Bytes} {hd : FrameHeader} (h : HasHeader rbuf hd) (x : Bytes) :
    HasHeader (rbuf ++ x) hd := by
  obtain ⟨a, b, c, t, f, s0, s1, s2, s3, rest, rfl, rfl⟩ := h.split
  exact ⟨by simp, rfl⟩

/-- The frame at the front of the read buffer. -/
theorem HasHeader.wire {rbuf : Bytes} {hd : FrameHeader} (h : HasHeader rbuf hd)
    (hl : 9 + hd.length.toNat ≤ rbuf.length) :
    FrameWire (asFrame ⟨hd, (rbuf.drop 9).take hd.length.toNat⟩)
      (rbuf.take (9 + hd.length.toNat)) ∧
    ((rbuf.drop 9).take hd.length.toNat).length = hd.length.toNat := by
  obtain ⟨a, b, c, t, f, s0, s1, s2, s3, rest, rfl, rfl⟩ := h.split
  have hlen : (rest.take (loadU24 a b c).toNat).length = (loadU24 a b c).toNat := by
    simp only [List.length_cons, List.length_take] at hl ⊢; omega
  refine ⟨⟨[a, b, c], [s0, s1, s2, s3], rfl, rfl, ?_, ?_, ?_⟩, hlen⟩
  · rw [Nat.add_comm]; rfl
  · rw [be_three, ← loadU24_toNat]; exact hlen.symm
  · rw [be_four, ← loadU32_toNat]; exact (and_31 _).symm

theorem NoFrame.waiting {rbuf : Bytes} (h : NoFrame rbuf) : Waiting rbuf := by
  rcases h with h | ⟨hd, hh, hl, hs⟩
  · exact .inl h
  · right
    obtain ⟨a, b, c, t, f, s0, s1, s2, s3, rest, rfl, rfl⟩ := hh.split
    have hx : 0 < (loadU24 a b c).toNat - rest.length := by
      simp only [List.length_cons] at hs; omega
    have hlen : (rest ++ List.replicate ((loadU24 a b c).toNat - rest.length) 0).length =
        (loadU24 a b c).toNat := by simp; omega
    refine ⟨⟨t, f, (loadU32 s0 s1 s2 s3).toNat % 2 ^ 31,
      rest ++ List.replicate ((loadU24 a b c).toNat - rest.length) 0⟩, _,
      List.replicate ((loadU24 a b c).toNat - rest.length) 0,
      ⟨[a, b, c], [s0, s1, s2, s3], rfl, rfl, rfl, ?_, ?_⟩, ?_, ?_, ?_⟩
    · rw [be_three, ← loadU24_toNat]; exact hlen.symm
    · rw [be_four, ← loadU32_toNat]
    · show List.length (rest ++ _) ≤ 16384; rw [hlen]; exact hl
    · intro h0
      have := congrArg List.length h0
      simp at this; omega
    · simp

theorem HasHeader.oversized {rbuf : Bytes} {hd : FrameHeader} (h : HasHeader rbuf hd)
    (hl : 16384 < hd.length.toNat) : Oversized rbuf := by
  obtain ⟨a, b, c, t, f, s0, s1, s2, s3, rest, rfl, rfl⟩ := h.split
  exact ⟨[a, b, c], _, rfl, rfl, by simp, by rw [be_three, ← loadU24_toNat]; exact hl⟩

theorem clientPreface_eq : clientPreface = Spec.preface := by decide

/-! ### More projections -/

@[simp] theorem responses_append (a b : List Ev) : responses (a ++ b) = responses a ++ responses b := by
  induction a with
  | nil => rfl
  | cons e a ih => cases e <;> simp [responses, ih]

@[simp] theorem logs_append (a b : List Ev) : logs (a ++ b) = logs a ++ logs b := by
  induction a with
  | nil => rfl
  | cons e a ih => cases e <;> simp [logs, ih]

@[simp] theorem responses_enqueues (cs : List Bytes) : responses (cs.map Ev.enqueue) = [] := by
  induction cs with
  | nil => rfl
  | cons c cs ih => simp [responses, ih]

@[simp] theorem logs_enqueues (cs : List Bytes) : logs (cs.map Ev.enqueue) = [] := by
  induction cs with
  | nil => rfl
  | cons c cs ih => simp [logs, ih]

/-! ### What the frames acted on amount to -/

/-- A connection waiting for frames with the given tables and world, and no history. -/
def blank (dec enc : DynTable) (w : W) : Sim W :=
  { st := .awaitingFrame, dec, enc, last := 0, world := w }

/-- `Served cfg w0 fs dec enc w evs`: acting on the frames `fs` from a new connection in world `w0`
leads to these tables and world, with these events. -/
inductive Served (cfg : Cfg W) (w0 : W) :
    List FrameReader → DynTable → DynTable → W → List Ev → Prop
  | nil : Served cfg w0 [] {} {} w0 []
  | snoc (fs : List FrameReader) (f : FrameReader) (dec enc : DynTable) (w : W) (evs : List Ev)
      (s' : Sim W) (h : Served cfg w0 fs dec enc w evs) (ha : Acts cfg (blank dec enc w) f s') :
      Served cfg w0 (fs ++ [f]) s'.dec s'.enc s'.world (evs ++ s'.trace)

theorem Acts.det {cfg : Cfg W} {s s1 s2 : Sim W} {f : FrameReader} (h1 : Acts cfg s f s1)
    (h2 : Acts cfg s f s2) : s1 = s2 := by
  have := h1.processFrame.symm.trans h2.processFrame
  cases this; rfl

theorem Served.det {cfg : Cfg W} {w0 : W} {fs : List FrameReader} {d1 e1 d2 e2 : DynTable}
    {w1 w2 : W} {v1 v2 : List Ev} (h1 : Served cfg w0 fs d1 e1 w1 v1)
    (h2 : Served cfg w0 fs d2 e2 w2 v2) : d1 = d2 ∧ e1 = e2 ∧ w1 = w2 ∧ v1 = v2 := by
  induction h1 generalizing d2 e2 w2 v2 with
  | nil =>
    generalize hx : ([] : List FrameReader) = x at h2
    cases h2 with
    | nil => simp
    | snoc fs f dec enc w evs s' h ha => simp at hx
  | snoc fs f dec enc w evs s' h ha ih =>
    generalize hx : fs ++ [f] = x at h2
    cases h2 with
    | nil => simp at hx
    | snoc fs' f' dec' enc' w' evs' s'' h' ha' =>
      obtain ⟨rfl, hf⟩ := List.append_inj' hx rfl
      cases hf
      obtain ⟨rfl, rfl, rfl, rfl⟩ := ih h'
      have := ha.det ha'
      subst this
      simp

/-- Acting on a frame depends only on the tables and the world. -/
theorem Acts.transport {cfg : Cfg W} {s s' : Sim W} {f : FrameReader} (h : Acts cfg s f s') :
    ∃ t', Acts cfg (blank s.dec s.enc s.world) f t' ∧ t'.dec = s'.dec ∧ t'.enc = s'.enc ∧
      t'.world = s'.world ∧ s'.trace = s.trace ++ t'.trace ∧ s'.wbuf = s.wbuf ++ t'.wbuf ∧
      ((t'.st = .awaitingFrame ∧ s'.st = s.st) ∨ (t'.st = s'.st ∧ (s'.st = .protocolError ∨
        s'.st = .clientClosed))) := by
  cases h with
  | settingsAck ht hf =>
    exact ⟨_, .settingsAck ht hf, rfl, rfl, rfl, by simp [blank], by simp [blank], .inl ⟨rfl, rfl⟩⟩
  | settings l ht hf h =>
    exact ⟨_, .settings l ht hf h, rfl, rfl, rfl, by simp [blank, enq], by simp [blank, enq],
      .inl ⟨rfl, rfl⟩⟩
  | badSettings e ht hf h =>
    exact ⟨_, .badSettings e ht hf h, rfl, rfl, rfl, by simp [blank], by simp [blank],
      .inr ⟨rfl, .inl rfl⟩⟩
  | badHeaders block e dec' ht hb hd =>
    exact ⟨_, .badHeaders block e dec' ht hb hd, rfl, rfl, rfl, by simp [blank], by simp [blank],
      .inr ⟨rfl, .inl rfl⟩⟩
  | request data hs dec' resp evs w' block enc' ht hb hd hr he =>
    exact ⟨_, .request data hs dec' resp evs w' block enc' ht hb hd hr he, rfl, rfl, rfl,
      by simp [blank], by simp [blank], .inl ⟨rfl, rfl⟩⟩
  | windowUpdate w ht h =>
    exact ⟨_, .windowUpdate w ht h, rfl, rfl, rfl, by simp [blank], by simp [blank],
      .inl ⟨rfl, rfl⟩⟩
  | goaway ht =>
    exact ⟨_, .goaway ht, rfl, rfl, rfl, by simp [blank], by simp [blank], .inr ⟨rfl, .inr rfl⟩⟩
  | other h1 h4 h7 h8 =>
    exact ⟨_, .other h1 h4 h7 h8, rfl, rfl, rfl, by simp [blank], by simp [blank],
      .inl ⟨rfl, rfl⟩⟩

/-! ### The main invariant -/

/-- The connection will act on no more frames. -/
def Ended (st : CState) : Prop := st = .closing ∨ st = .protocolError ∨ st = .clientClosed

/-- The invariant: `passed` says whether the preface was accepted, `evs` are the events the frames
amount to, `post` the GOAWAY octets produced after them. -/
structure InvAt (cfg : Cfg W) (w0 : W) (c passed : Bool) (evs : List Ev) (post : Bytes) (s : Sim W) :
    Prop where
  served : Served cfg w0 (frames s.trace) s.dec s.enc s.world evs
  handled : handled s.trace = handled evs
  responses : responses s.trace = responses evs
  logs : logs s.trace = logs evs
  recv : if passed then ∃ w, FramesWire ((frames s.trace).map asFrame) w ∧
      received s.trace = Spec.preface ++ (w ++ s.rbuf) else
      frames s.trace = [] ∧ received s.trace = s.rbuf
  sizes : ∀ f ∈ frames s.trace, f.payload.length ≤ 16384 ∧ f.header.length.toNat = f.payload.length
  prod : produced s.trace = (if passed then settingsChunks.flatten else []) ++ (produced evs ++ post)
  state : if passed then s.st ≠ .awaitingHandshake ∧ s.st ≠ .awaitingPreface else
      s.st ≠ .awaitingFrame
  post_plain : c = false → post = []
  post_ended : post ≠ [] → Ended s.st
  hs : s.st = .awaitingHandshake → s.rbuf = []
  acc : produced s.trace = accepted s.trace ++ s.wbuf
  silent : c = false → passed = false → writeAttempts s.trace = []

/-- The invariant for some witnesses. -/
def Inv (cfg : Cfg W) (w0 : W) (c : Bool) (s : Sim W) : Prop :=
  ∃ passed evs post, InvAt cfg w0 c passed evs post s

theorem Inv.init (cfg : Cfg W) (w0 : W) (c : Bool) (now : Nat) : Inv cfg w0 c (Sim.init w0 now) :=
  ⟨false, [], [], .nil, rfl, rfl, rfl, by simp [Sim.init, frames, received], by simp [Sim.init, frames],
    by simp [Sim.init, produced], by simp [Sim.init], fun _ => rfl, by simp, fun _ => rfl,
    by simp [Sim.init, produced, accepted], fun _ _ => rfl⟩

/-- Steps that neither act on a frame nor produce output. -/
theorem InvAt.quiet {cfg : Cfg W} {w0 : W} {c passed : Bool} {evs : List Ev} {post : Bytes}
    {s t : Sim W} (i : InvAt cfg w0 c passed evs post s) (es : List Ev)
    (ht : t.trace = s.trace ++ es)
    (hq : frames es = [] ∧ Sim.handled es = [] ∧ Sim.responses es = [] ∧ Sim.logs es = [] ∧
      produced es = [])
    (hd : t.dec = s.dec ∧ t.enc = s.enc ∧ t.world = s.world)
    (hr : t.rbuf = s.rbuf ++ received es) (ha : s.wbuf = accepted es ++ t.wbuf)
    (hst : t.st = s.st ∨ (Ended t.st ∧ s.st ≠ .awaitingHandshake) ∨
      (s.st = .awaitingHandshake ∧ t.st = .awaitingPreface))
    (hh : s.st = .awaitingHandshake → received es = [])
    (hwa : writeAttempts es = [] ∨ s.wbuf ≠ []) :
    InvAt cfg w0 c passed evs post t := by
  obtain ⟨q1, q2, q3, q4, q5⟩ := hq
  obtain ⟨d1, d2, d3⟩ := hd
  constructor
  · rw [ht, frames_append, q1, List.append_nil, d1, d2, d3]; exact i.served
  · rw [ht, handled_append, q2, List.append_nil]; exact i.handled
  · rw [ht, responses_append, q3, List.append_nil]; exact i.responses
  · rw [ht, logs_append, q4, List.append_nil]; exact i.logs
  · rw [ht, frames_append, q1, List.append_nil, received_append, hr]
    have := i.recv
    split
    · rename_i hp
      rw [if_pos hp] at this
      obtain ⟨w, h1, h2⟩ := this
      exact ⟨w, h1, by rw [h2]; simp⟩
    · rename_i hp
      rw [if_neg hp] at this
      exact ⟨this.1, by rw [this.2]⟩
  · rw [ht, frames_append, q1, List.append_nil]; exact i.sizes
  · rw [ht, produced_append, q5, List.append_nil]; exact i.prod
  · have := i.state
    rcases hst with h | ⟨h, -⟩ | ⟨h, h'⟩
    · rw [h]; exact this
    · rcases h with h | h | h <;> rw [h] <;> simp
    · rw [h] at this; rw [h']
      cases passed with
      | true => simp at this
      | false => simp
  · exact i.post_plain
  · intro hp
    have := i.post_ended hp
    rcases hst with h | ⟨h, -⟩ | ⟨h, -⟩
    · rw [h]; exact this
    · exact h
    · rw [h] at this; simp [Ended] at this
  · intro h
    rcases hst with h' | ⟨h', -⟩ | ⟨-, h'⟩
    · rw [h'] at h; rw [hr, i.hs h, hh h]; rfl
    · rw [h] at h'; simp [Ended] at h'
    · rw [h] at h'; cases h'
  · rw [ht, produced_append, accepted_append, q5, List.append_nil, List.append_assoc, ← ha]
    exact i.acc
  · intro hc hp
    rw [ht, writeAttempts_append, i.silent hc hp, List.nil_append]
    rcases hwa with h | h
    · exact h
    · exfalso
      have h1 := i.acc
      have h2 := i.prod
      have h3 := i.recv
      simp only [hp, Bool.false_eq_true, if_false] at h2 h3
      have h4 := i.served
      rw [h3.1] at h4
      rw [(h4.det .nil).2.2.2, i.post_plain hc, h1] at h2
      simp [produced] at h2
      exact h h2.2

theorem Inv.step {cfg : Cfg W} {w0 : W} {c b : Bool} {s t : Sim W} (hb : b = true → c = true)
    (h : Step cfg b s t) (hi : Inv cfg w0 c s) : Inv cfg w0 c t := by
  obtain ⟨passed, evs, post, i⟩ := hi
  cases h with
  | env => exact ⟨passed, evs, post, { i with }⟩
  | readsLeft => exact ⟨passed, evs, post, { i with }⟩
  | handshake _ t h =>
    exact ⟨passed, evs, post, i.quiet [.handshake t] rfl ⟨rfl, rfl, rfl, rfl, rfl⟩ ⟨rfl, rfl, rfl⟩
      (by simp [received]) rfl (.inr (.inr ⟨h, rfl⟩)) (fun _ => rfl) (.inl rfl)⟩
  | writeBlocked _ ws h hst =>
    exact ⟨passed, evs, post, i.quiet [.write s.wbuf (.fail .wantReadOrWrite)] rfl
      ⟨rfl, rfl, rfl, rfl, rfl⟩ ⟨rfl, rfl, rfl⟩ (by simp [received]) rfl (.inl rfl) (fun _ => rfl) (.inr h)⟩
  | writeFailed _ ws e h he hst =>
    exact ⟨passed, evs, post, i.quiet [.write s.wbuf (.fail e)] rfl
      ⟨rfl, rfl, rfl, rfl, rfl⟩ ⟨rfl, rfl, rfl⟩ (by simp [received]) rfl
      (.inr (.inl ⟨.inr (.inl rfl), hst⟩)) (fun _ => rfl) (.inr h)⟩
  | wrote _ ws n t h hn hst =>
    exact ⟨passed, evs, post, i.quiet [.write s.wbuf (.wrote n t)] rfl
      ⟨rfl, rfl, rfl, rfl, rfl⟩ ⟨rfl, rfl, rfl⟩ (by simp [received]) (by simp [accepted])
      (.inl rfl) (fun _ => rfl) (.inr h)⟩
  | read _ bs t hw hst hr =>
    exact ⟨passed, evs, post, i.quiet [.read bs t] rfl
      ⟨rfl, rfl, rfl, rfl, rfl⟩ ⟨rfl, rfl, rfl⟩ (by simp [received]) rfl
      (.inl rfl) (fun h => absurd h hst) (.inl rfl)⟩
  | readFailed _ e hw hst hr =>
    refine ⟨passed, evs, post, i.quiet [.readFail e] (by cases e <;> rfl)
      ⟨rfl, rfl, rfl, rfl, rfl⟩ (by cases e <;> exact ⟨rfl, rfl, rfl⟩)
      (by cases e <;> simp [readFailed, emit, updateState, received]) (by cases e <;> rfl)
      ?_ (fun h => absurd h hst) (.inl rfl)⟩
    cases e with
    | connectionClosed => exact .inr (.inl ⟨.inr (.inr rfl), hst⟩)
    | protocolError => exact .inr (.inl ⟨.inr (.inl rfl), hst⟩)
    | _ => exact .inl rfl
  | oversized _ h hd hh hl hw =>
    exact ⟨passed, evs, post, i.quiet [] (by simp) ⟨rfl, rfl, rfl, rfl, rfl⟩ ⟨rfl, rfl, rfl⟩
      (by simp [received]) rfl (.inr (.inl ⟨.inr (.inl rfl), by rw [h]; simp⟩)) (fun _ => rfl) (.inl rfl)⟩
  | shutdown _ h hw =>
    exact ⟨passed, evs, post, i.quiet [.shutdown] rfl ⟨rfl, rfl, rfl, rfl, rfl⟩ ⟨rfl, rfl, rfl⟩
      (by simp [received]) rfl (.inr (.inl ⟨.inr (.inr rfl), by rw [h]; simp⟩)) (fun _ => rfl) (.inl rfl)⟩
  | wantRead _ h =>
    exact ⟨passed, evs, post, i.quiet [.returned .wantRead] rfl ⟨rfl, rfl, rfl, rfl, rfl⟩
      ⟨rfl, rfl, rfl⟩ (by simp [received]) rfl (.inl rfl) (fun _ => rfl) (.inl rfl)⟩
  | wantWrite _ h =>
    exact ⟨passed, evs, post, i.quiet [.returned .wantWrite] rfl ⟨rfl, rfl, rfl, rfl, rfl⟩
      ⟨rfl, rfl, rfl⟩ (by simp [received]) rfl (.inl rfl) (fun _ => rfl) (.inl rfl)⟩
  | discard _ h =>
    exact ⟨passed, evs, post, i.quiet [.returned .discard] rfl ⟨rfl, rfl, rfl, rfl, rfl⟩
      ⟨rfl, rfl, rfl⟩ (by simp [received]) rfl (.inl rfl) (fun _ => rfl) (.inl rfl)⟩
  | close _ h =>
    refine ⟨passed, evs, post ++ (goawayChunks s.st).flatten, ?_⟩
    constructor
    · simpa [enq, emit, frames, Sim.handled, Sim.responses, Sim.logs, received] using i.served
    · simpa [enq, emit, frames, Sim.handled, Sim.responses, Sim.logs, received] using i.handled
    · simpa [enq, emit, frames, Sim.handled, Sim.responses, Sim.logs, received] using i.responses
    · simpa [enq, emit, frames, Sim.handled, Sim.responses, Sim.logs, received] using i.logs
    · simpa [enq, emit, frames, Sim.handled, Sim.responses, Sim.logs, received] using i.recv
    · simpa [enq, emit, frames, Sim.handled, Sim.responses, Sim.logs, received] using i.sizes
    · have := i.prod; simp [enq, this]
    · cases passed <;> simp
    · intro hc; simp [hb] at hc
    · intro _; exact .inl rfl
    · simp
    · have := i.acc; simp [enq, this]
    · intro hc; simp [hb] at hc
  | preface _ rest h hw hr =>
    have hp : passed = false := by
      cases passed with
      | false => rfl
      | true => have := i.state; simp [h] at this
    subst hp
    have hpost : post = [] := by
      rcases Decidable.em (post = []) with h' | h'
      · exact h'
      · have := i.post_ended h'; simp [Ended, h] at this
    subst hpost
    have hrecv := i.recv
    simp only [Bool.false_eq_true, if_false] at hrecv
    have hprod := i.prod
    have hserved := i.served
    rw [hrecv.1] at hserved
    have hevs : evs = [] := (hserved.det .nil).2.2.2
    subst hevs
    refine ⟨true, [], [], ?_⟩
    constructor
    · simpa [enq, emit, frames, Sim.handled, Sim.responses, Sim.logs, received] using i.served
    · simpa [enq, emit, frames, Sim.handled, Sim.responses, Sim.logs, received] using i.handled
    · simpa [enq, emit, frames, Sim.handled, Sim.responses, Sim.logs, received] using i.responses
    · simpa [enq, emit, frames, Sim.handled, Sim.responses, Sim.logs, received] using i.logs
    · simp only [if_true, enq, emit, frames_append, frames_enqueues, List.append_nil, received_append,
        received_enqueues, frames, received]
      rw [hrecv.1, hrecv.2, hr, clientPreface_eq]
      exact ⟨[], .nil, rfl⟩
    · simpa [enq, emit, frames, Sim.handled, Sim.responses, Sim.logs, received] using i.sizes
    · simp [enq, emit, hprod, produced]
    · simp
    · simp
    · simp
    · simp
    · have := i.acc; simp [enq, emit, produced, accepted, this]
    · simp
  | frame _ s1 h hd hh hl hr hw ha =>
    have hp : passed = true := by
      cases passed with
      | true => rfl
      | false => have := i.state; simp [h] at this
    subst hp
    have hpost : post = [] := by
      rcases Decidable.em (post = []) with h' | h'
      · exact h'
      · have := i.post_ended h'; simp [Ended, h] at this
    subst hpost
    obtain ⟨t', k1, k2, k3, k4, k5, k6, k7⟩ := ha.transport
    obtain ⟨es, m1, m2, m3, m4, m5, m6⟩ := ha.trace_mono
    obtain ⟨n1, n2, n3, n4, n5⟩ := ha.rbuf
    have hes : es = t'.trace := by
      have := m1.symm.trans k5; exact List.append_cancel_left this
    subst hes
    simp only at m1 k1 m6 n1
    obtain ⟨wire, plen⟩ := hh.wire hr
    have hrecv := i.recv
    simp only [if_true] at hrecv
    obtain ⟨w, f1, f2⟩ := hrecv
    refine ⟨true, evs ++ t'.trace, [], ?_⟩
    constructor
    · simp only [m1, frames_append, m2, List.append_nil]
      have := Served.snoc _ _ _ _ _ _ t' i.served k1
      rw [k2, k3, k4] at this
      exact this
    · have := i.handled; simp [m1, Sim.handled, this]
    · have := i.responses; simp [m1, Sim.responses, this]
    · have := i.logs; simp [m1, Sim.logs, this]
    · simp only [if_true, m1, frames_append, m2, List.append_nil, received_append, m3, frames,
        received, List.map_append, List.map_cons, List.map_nil, n1]
      refine ⟨w ++ s.rbuf.take (9 + hd.length.toNat), f1.snoc wire, ?_⟩
      rw [f2, List.append_assoc, List.take_append_drop]
    · intro f hf
      simp only [m1, frames_append, m2, List.append_nil, frames, List.mem_append,
        List.mem_singleton] at hf
      rcases hf with hf | rfl
      · exact i.sizes f hf
      · exact ⟨by rw [plen]; exact hl, plen.symm⟩
    · have := i.prod; simp [m1, produced, this]
    · rcases ha.state with h' | h' | h' <;> simp [h', h]
    · simp
    · simp
    · rcases ha.state with h' | h' | h' <;> simp [h', h]
    · have := i.acc; simp [m1, produced, accepted, m4, m6, this]
    · simp

theorem Inv.steps {cfg : Cfg W} {w0 : W} {c : Bool} {s t : Sim W} (h : Steps cfg c s t)
    (hi : Inv cfg w0 c s) : Inv cfg w0 c t :=
  Steps.inv (fun _ _ _ hb st => Inv.step hb st) h hi

theorem InUse.steps {cfg : Cfg W} {w : W} {now : Nat} {s : Sim W} (h : InUse cfg w now s) :
    Steps cfg false (Sim.init w now) s := by
  induction h with
  | new => exact .refl _
  | step s s' env r _ hp hr ih => exact ih.trans (process_steps_plain cfg hp hr)

theorem InUse.inv {cfg : Cfg W} {w : W} {now : Nat} {s : Sim W} (h : InUse cfg w now s) :
    Inv cfg w false s := Inv.steps h.steps (Inv.init cfg w false now)

end Sim
end Ion
