import Verif.Props.ConnAnswer
import Verif.Props.ConnDet
import Verif.Spec.StreamStates

/-! # C152, C153: stream identifiers are copied to the answer, and mean nothing else; stream states do not exist -/

namespace Ion.Spec

/-- A frame but for its stream identifier. -/
def Frame.anonymous (f : Frame) : UInt8 × UInt8 × Bytes := (f.type, f.flags, f.payload)

end Ion.Spec

namespace Ion.Sim
open Spec
variable {W : Type}

/-! ### Specification -/

/-- The second connection has done all that the first has, and maybe more, but for stream identifiers: frames
acted on, calls of handlers with their requests and results, responses with their header blocks, log entries. -/
structure AnonBehind (s t : Sim W) : Prop where
  frames : (frames s.trace).map (fun f => (asFrame f).anonymous) <+:
    (frames t.trace).map (fun f => (asFrame f).anonymous)
  handled : handled s.trace <+: handled t.trace
  responses : (responses s.trace).map Prod.snd <+: (responses t.trace).map Prod.snd
  logs : logs s.trace <+: logs t.trace

/-- The responses so far are for the first HEADERS frames acted on, in order, each on its stream. -/
def OnStreams (s : Sim W) : Prop :=
  (responses s.trace).map (fun x => x.1.toNat) <+:
    (((frames s.trace).map asFrame).filter (fun f => f.type == 1)).map Frame.stream

/-! ### Proof -/

/-- Two frames equal but for the stream, and for flags that ion does not look at. -/
def Alike (f g : FrameReader) : Prop :=
  f.header.length = g.header.length ∧ f.header.type = g.header.type ∧
    (f.header.type = 4 → f.header.flags &&& 1 = g.header.flags &&& 1) ∧
    (f.header.type = 1 → f.header.flags &&& 0x20 = g.header.flags &&& 0x20) ∧ f.payload = g.payload

/-- Events equal but for streams. -/
def AlikeEvs (v v' : List Ev) : Prop :=
  handled v = handled v' ∧ (responses v).map Prod.snd = (responses v').map Prod.snd ∧ logs v = logs v'

theorem AlikeEvs.append {a a' b b' : List Ev} (h : AlikeEvs a a') (k : AlikeEvs b b') :
    AlikeEvs (a ++ b) (a' ++ b') := by
  obtain ⟨h1, h2, h3⟩ := h
  obtain ⟨k1, k2, k3⟩ := k
  refine ⟨?_, ?_, ?_⟩
  · rw [handled_append, handled_append, h1, k1]
  · rw [responses_append, responses_append, List.map_append, List.map_append, h2, k2]
  · rw [logs_append, logs_append, h3, k3]

theorem enqueues_plain (l : List Bytes) : handled (l.map Ev.enqueue) = [] ∧
    responses (l.map Ev.enqueue) = [] ∧ logs (l.map Ev.enqueue) = [] := by
  induction l with
  | nil => exact ⟨rfl, rfl, rfl⟩
  | cons x l ih => simp [handled, responses, logs]

theorem answerEvs_alike (evs : List Ev) (i j : UInt32) (hs : List Header) (resp : HttpResponse) (block : Bytes) :
    AlikeEvs (answerEvs evs i hs resp block) (answerEvs evs j hs resp block) := by
  unfold answerEvs
  refine AlikeEvs.append (AlikeEvs.append (AlikeEvs.append ⟨rfl, rfl, rfl⟩ ⟨rfl, rfl, rfl⟩) ?_) ⟨rfl, rfl, rfl⟩
  obtain ⟨a1, a2, a3⟩ := enqueues_plain (responseChunks i resp block)
  obtain ⟨b1, b2, b3⟩ := enqueues_plain (responseChunks j resp block)
  exact ⟨by rw [a1, b1], by rw [a2, b2], by rw [a3, b3]⟩

theorem Acts.alike {cfg : Cfg W} {dec enc : DynTable} {w : W} {f g : FrameReader} {s : Sim W}
    (h : Acts cfg (blank dec enc w) f s) (hfg : Alike f g) :
    ∃ t, Acts cfg (blank dec enc w) g t ∧ t.dec = s.dec ∧ t.enc = s.enc ∧ t.world = s.world ∧
      AlikeEvs s.trace t.trace := by
  obtain ⟨⟨len, ty, fl, i⟩, p⟩ := f
  obtain ⟨⟨len', ty', fl', j⟩, p'⟩ := g
  obtain ⟨e1, e2, e3, e4, e5⟩ := hfg
  simp only at e1 e2 e3 e4 e5
  subst e1 e2 e5
  cases h with
  | settingsAck ht hf => exact ⟨_, .settingsAck ht (e3 ht ▸ hf), rfl, rfl, rfl, rfl, rfl, rfl⟩
  | settings l ht hf h => exact ⟨_, .settings l ht (e3 ht ▸ hf) h, rfl, rfl, rfl, rfl, rfl, rfl⟩
  | badSettings e ht hf h => exact ⟨_, .badSettings e ht (e3 ht ▸ hf) h, rfl, rfl, rfl, rfl, rfl, rfl⟩
  | badHeaders block e dec' ht hb hd =>
    refine ⟨_, .badHeaders block e dec' ht ?_ hd, rfl, rfl, rfl, rfl, rfl, rfl⟩
    simpa [FrameReader.headersBlock, FrameReader.priority, FrameReader.hasFlag, e4 ht] using hb
  | request data hs dec' resp evs w' block enc' ht hb hd hr he =>
    refine ⟨_, .request data hs dec' resp evs w' block enc' ht ?_ hd hr he, rfl, rfl, rfl,
      AlikeEvs.append ⟨rfl, rfl, rfl⟩ (answerEvs_alike evs i j hs resp block)⟩
    simpa [FrameReader.headersBlock, FrameReader.priority, FrameReader.hasFlag, e4 ht] using hb
  | windowUpdate u ht h => exact ⟨_, .windowUpdate u ht h, rfl, rfl, rfl, rfl, rfl, rfl⟩
  | goaway ht => exact ⟨_, .goaway ht, rfl, rfl, rfl, rfl, rfl, rfl⟩
  | other h1 h4 h7 h8 => exact ⟨_, .other h1 h4 h7 h8, rfl, rfl, rfl, rfl, rfl, rfl⟩

theorem Served.alike {cfg : Cfg W} {w0 : W} {fs : List FrameReader} {d e : DynTable} {w : W} {v : List Ev}
    (h : Served cfg w0 fs d e w v) : ∀ {gs : List FrameReader}, fs.length = gs.length →
    (∀ k (h1 : k < fs.length) (h2 : k < gs.length), Alike fs[k] gs[k]) →
    ∃ v', Served cfg w0 gs d e w v' ∧ AlikeEvs v v' := by
  induction h with
  | nil =>
    intro gs hl _
    have : gs = [] := List.eq_nil_of_length_eq_zero (by simpa using hl.symm)
    subst this
    exact ⟨_, .nil, rfl, rfl, rfl⟩
  | snoc fs f dec enc w evs s' h ha ih =>
    intro gs hl hg
    have hne : gs ≠ [] := by rintro rfl; simp at hl
    obtain ⟨gs, g, rfl⟩ : ∃ gs' g, gs = gs' ++ [g] := ⟨gs.dropLast, gs.getLast hne, (List.dropLast_concat_getLast hne).symm⟩
    have hl' : fs.length = gs.length := by simpa using hl
    obtain ⟨v', k1, k2⟩ := ih hl' fun k h1 h2 => by
      have := hg k (by simp; omega) (by simp; omega)
      rwa [List.getElem_append_left h1, List.getElem_append_left h2] at this
    have hlast : Alike f g := by
      have := hg fs.length (by simp) (by simp [hl'])
      rw [List.getElem_append_right (by omega), List.getElem_append_right (by omega)] at this
      simpa [hl'] using this
    obtain ⟨t, a1, a2, a3, a4, a5⟩ := ha.alike hlast
    refine ⟨_, a2 ▸ a3 ▸ a4 ▸ .snoc gs g dec enc w v' t k1 a1, k2.append a5⟩

theorem alike_of_anonymous {f g : FrameReader} (hf : f.header.length.toNat = f.payload.length)
    (hg : g.header.length.toNat = g.payload.length) (h : (asFrame f).anonymous = (asFrame g).anonymous) :
    Alike f g := by
  simp only [asFrame, Frame.anonymous, Prod.mk.injEq] at h
  obtain ⟨h1, h2, h3⟩ := h
  exact ⟨UInt32.toNat_inj.mp (by rw [hf, hg, h3]), h1, fun _ => by rw [h2], fun _ => by rw [h2], h3⟩

theorem InvAt.anonymous {cfg : Cfg W} {w0 : W} {c1 c2 p1 p2 : Bool} {v1 v2 : List Ev} {q1 q2 : Bytes}
    {s1 s2 : Sim W} (i1 : InvAt cfg w0 c1 p1 v1 q1 s1) (i2 : InvAt cfg w0 c2 p2 v2 q2 s2)
    (h : (Sim.frames s1.trace).map (fun f => (asFrame f).anonymous) <+:
      (Sim.frames s2.trace).map (fun f => (asFrame f).anonymous)) :
    AnonBehind s1 s2 ∧ ((Sim.frames s1.trace).length = (Sim.frames s2.trace).length → s1.world = s2.world) := by
  have hle : (Sim.frames s1.trace).length ≤ (Sim.frames s2.trace).length := by simpa using h.length_le
  obtain ⟨v', k1, k2⟩ := i1.served.alike (gs := (Sim.frames s2.trace).take (Sim.frames s1.trace).length)
    (by simp [hle]) (fun k h1 h2 => by
      rw [List.getElem_take]
      refine alike_of_anonymous (i1.sizes _ (List.getElem_mem _)).2 (i2.sizes _ (List.getElem_mem _)).2 ?_
      have := h.getElem (i := k) (by simpa using h1)
      simpa using this)
  have hv := i2.served.behind k1 (List.take_prefix _ _)
  refine ⟨⟨h, ?_, ?_, ?_⟩, ?_⟩
  · rw [i1.handled, i2.handled, k2.1]
    exact prefix_map _ handled_append hv
  · rw [i1.responses, i2.responses, k2.2.1]
    exact (prefix_map _ responses_append hv).map _
  · rw [i1.logs, i2.logs, k2.2.2]
    exact prefix_map _ logs_append hv
  · intro hl
    rw [hl, List.take_length] at k1
    exact (k1.det i2.served).2.2.1

/-- The frames acted on are the first of the frames sent. -/
theorem InvAt.first {cfg : Cfg W} {w0 : W} {c p : Bool} {v : List Ev} {q : Bytes} {s : Sim W}
    (i : InvAt cfg w0 c p v q s) {fs : List Frame} {x : Bytes} (hx : FramesWire fs x)
    (hr : received s.trace <+: Spec.preface ++ x) : (Sim.frames s.trace).map asFrame <+: fs := by
  have r := i.recv
  cases p with
  | false => simp only [Bool.false_eq_true, if_false] at r; rw [r.1]; exact List.nil_prefix
  | true =>
    simp only [if_true] at r
    obtain ⟨u, f, g⟩ := r
    obtain ⟨y, hy⟩ := hr
    rw [g] at hy
    simp only [List.append_assoc] at hy
    have hy := List.append_cancel_left hy
    exact f.prefix hx (r := s.rbuf ++ y) (r' := []) (by simpa using hy) (.inl (by simp))

theorem Steps.on_streams {cfg : Cfg W} {c : Bool} {w0 : W} {now : Nat} {s : Sim W}
    (h : Steps cfg c (Sim.init w0 now) s) :
    (¬ Ended s.st → (responses s.trace).map Prod.fst = requestStreams (frames s.trace)) ∧
      (responses s.trace).map Prod.fst <+: requestStreams (frames s.trace) := by
  refine Steps.inv (P := fun s => (¬ Ended s.st →
    (responses s.trace).map Prod.fst = requestStreams (frames s.trace)) ∧
      (responses s.trace).map Prod.fst <+: requestStreams (frames s.trace)) ?_ h ⟨fun _ => rfl, List.prefix_refl _⟩
  intro b s t hb st i
  have j : (¬ Ended t.st → (responses s.trace).map Prod.fst = requestStreams (frames s.trace)) ∧
      (responses s.trace).map Prod.fst <+: requestStreams (frames s.trace) :=
    ⟨fun hne => i.1 fun he => hne (st.ended he).1, i.2⟩
  cases st with
  | frame _ s1 h hd hh hl hr hw ha =>
    clear j
    replace i := i.1 (by simp [h, Ended])
    generalize (⟨hd, (s.rbuf.drop 9).take hd.length.toNat⟩ : FrameReader) = f at ha
    cases ha with
    | request data hs dec' resp evs w' block enc' ht hb hd' hr' he =>
      have h1 : responses evs = [] ∧ frames evs = [] := by cases hr' <;> exact ⟨rfl, rfl⟩
      simp [answerEvs, responses, frames, h1.1, h1.2, requestStreams, ht, i]
    | badHeaders block e dec' ht hb hd' =>
      refine ⟨fun hne => by simp [Ended] at hne, ?_⟩
      simp [responses, frames, i, requestStreams, ht]
    | badSettings e ht hf h =>
      refine ⟨fun hne => by simp [Ended] at hne, ?_⟩
      simp [responses, frames, i, requestStreams, ht]
    | settings l ht hf h => simp [enq, responses, frames, requestStreams, ht, i]
    | settingsAck ht hf => simp [responses, frames, requestStreams, ht, i]
    | windowUpdate w ht h => simp [responses, frames, requestStreams, ht, i]
    | goaway ht => simp [responses, frames, requestStreams, ht, i]
    | other h1 h4 h7 h8 => simp [responses, frames, requestStreams, h1, i]
  | readFailed _ e hw hst hr =>
    cases e <;> simpa [Sim.readFailed, emit, updateState, frames, responses] using j
  | preface _ rest h hw hr => simpa [enq, emit, frames, responses] using j
  | close _ h => simpa [enq, frames, responses] using j
  | _ => simpa [frames, responses] using j

theorem OnStreams.steps {cfg : Cfg W} {c : Bool} {w0 : W} {now : Nat} {s : Sim W}
    (h : Steps cfg c (Sim.init w0 now) s) : OnStreams s := by
  have := h.on_streams.2.map UInt32.toNat
  unfold OnStreams
  simpa [requestStreams, asFrame, Function.comp_def, List.filter_map] using this

/-! ### C152 -/

/-- C152: two clients send the same frames but for the stream identifiers, in whatever order and however often
these are used. At every moment one of the connections has done exactly the first things the other has done:
the same kinds of frames acted on with the same payloads, the same requests handed to handlers with the same
results, responses with the same status, body and header block, and the same log entries. Each response is on the
stream of its request. If they have acted on equally many frames, their applications are in the same state. -/
theorem C152_streams {cfg : Cfg W} {w : W} {now1 now2 : Nat} {r1 r2 : ProcRes} {s1 s2 : Sim W}
    (h1 : Called cfg w now1 r1 s1) (h2 : Called cfg w now2 r2 s2) {fs1 fs2 : List Frame} {x1 x2 : Bytes}
    (hx1 : FramesWire fs1 x1) (hx2 : FramesWire fs2 x2)
    (hr1 : received s1.trace <+: Spec.preface ++ x1) (hr2 : received s2.trace <+: Spec.preface ++ x2)
    (hfs : fs1.map Frame.anonymous = fs2.map Frame.anonymous) :
    (AnonBehind s1 s2 ∨ AnonBehind s2 s1) ∧ OnStreams s1 ∧ OnStreams s2 ∧
    ((frames s1.trace).length = (frames s2.trace).length →
      AnonBehind s1 s2 ∧ AnonBehind s2 s1 ∧ s1.world = s2.world) := by
  obtain ⟨p1, v1, q1, i1⟩ := h1.inv
  obtain ⟨p2, v2, q2, i2⟩ := h2.inv
  have f1 := (i1.first hx1 hr1).map Frame.anonymous
  have f2 := (i2.first hx2 hr2).map Frame.anonymous
  rw [← hfs] at f2
  simp only [List.map_map, Function.comp_def] at f1 f2
  refine ⟨?_, .steps h1.steps, .steps h2.steps, ?_⟩
  · rcases List.prefix_or_prefix_of_prefix f1 f2 with h | h
    · exact .inl (i1.anonymous i2 h).1
    · exact .inr (i2.anonymous i1 h).1
  · intro hl
    have h : (frames s1.trace).map (fun f => (asFrame f).anonymous) =
        (frames s2.trace).map (fun f => (asFrame f).anonymous) := by
      rcases List.prefix_or_prefix_of_prefix f1 f2 with h | h
      · exact h.eq_of_length (by simpa using hl)
      · exact (h.eq_of_length (by simpa using hl.symm)).symm
    have k := i1.anonymous i2 (h ▸ List.prefix_refl _)
    exact ⟨k.1, (i2.anonymous i1 (h ▸ List.prefix_refl _)).1, k.2 hl⟩

/-- Requests on streams 1 and 3 with DATA between, and the same frames all on stream 1: both are answered twice,
the second client twice on stream 1. -/
example : (∃ r s, Called exCfg 0 0 r s ∧ ((responses s.trace).map (·.1.toNat) == [1, 3] &&
      (logs s.trace).length == 2 &&
      received s.trace == clientPreface ++ (exGet ++ [0, 0, 1, 0, 0, 0, 0, 0, 3, 7] ++ [0, 0, 2, 1, 5, 0, 0, 0, 3, 0x82, 0x84])) = true) ∧
    ∃ r s, Called exCfg 0 0 r s ∧ ((responses s.trace).map (·.1.toNat) == [1, 1] && (logs s.trace).length == 2 &&
      received s.trace == clientPreface ++ (exGet ++ [0, 0, 1, 0, 0, 0, 0, 0, 1, 7] ++ exGet)) = true :=
  ⟨Shows.called (e := exEnv (clientPreface ++ (exGet ++ [0, 0, 1, 0, 0, 0, 0, 0, 3, 7] ++ [0, 0, 2, 1, 5, 0, 0, 0, 3, 0x82, 0x84])) [71, 24]) (es := []) (by decide +kernel),
    Shows.called (e := exEnv (clientPreface ++ (exGet ++ [0, 0, 1, 0, 0, 0, 0, 0, 1, 7] ++ exGet)) [71, 24]) (es := []) (by decide +kernel)⟩

/-! ### C153 -/

/-- The frames ion looks at, but for their streams: HEADERS, SETTINGS and GOAWAY. -/
def essentials (fs : List Frame) : List (UInt8 × UInt8 × Bytes) :=
  (fs.filter fun f => f.type == 1 || f.type == 4 || f.type == 7).map Frame.anonymous

/-- The second connection has done all that the first has, and maybe more, but for stream identifiers and frames
that are skipped. -/
structure DoneBehind (s t : Sim W) : Prop where
  handled : handled s.trace <+: handled t.trace
  responses : (responses s.trace).map Prod.snd <+: (responses t.trace).map Prod.snd
  logs : logs s.trace <+: logs t.trace

/-- The frames `process_frame` does more for than reading them. -/
def kept (f : FrameReader) : Bool := f.header.type == 1 || f.header.type == 4 || f.header.type == 7

theorem Served.kept {cfg : Cfg W} {w0 : W} {fs : List FrameReader} {d e : DynTable} {w : W} {v : List Ev}
    (h : Served cfg w0 fs d e w v) : Served cfg w0 (fs.filter Sim.kept) d e w v := by
  induction h with
  | nil => exact .nil
  | snoc fs f dec enc w evs s' h ha ih =>
    rw [List.filter_append]
    by_cases hk : Sim.kept f = true
    · rw [List.filter_cons_of_pos hk, List.filter_nil]
      exact .snoc _ f dec enc w evs s' ih ha
    · rw [List.filter_cons_of_neg hk, List.filter_nil, List.append_nil]
      cases ha with
      | windowUpdate u ht h => simpa [blank] using ih
      | other h1 h4 h7 h8 => simpa [blank] using ih
      | settingsAck ht => simp [Sim.kept, ht] at hk
      | settings l ht => simp [Sim.kept, ht] at hk
      | badSettings e ht => simp [Sim.kept, ht] at hk
      | badHeaders b e d ht => simp [Sim.kept, ht] at hk
      | request a b c d e f g h ht => simp [Sim.kept, ht] at hk
      | goaway ht => simp [Sim.kept, ht] at hk

theorem essentials_frames (fs : List FrameReader) :
    essentials (fs.map asFrame) = (fs.filter kept).map (fun f => (asFrame f).anonymous) := by
  unfold essentials
  rw [List.filter_map, List.map_map]
  rfl

theorem InvAt.essential {cfg : Cfg W} {w0 : W} {c1 c2 p1 p2 : Bool} {v1 v2 : List Ev} {q1 q2 : Bytes}
    {s1 s2 : Sim W} (i1 : InvAt cfg w0 c1 p1 v1 q1 s1) (i2 : InvAt cfg w0 c2 p2 v2 q2 s2)
    (h : essentials ((Sim.frames s1.trace).map asFrame) <+: essentials ((Sim.frames s2.trace).map asFrame)) :
    DoneBehind s1 s2 ∧ (essentials ((Sim.frames s1.trace).map asFrame) =
      essentials ((Sim.frames s2.trace).map asFrame) → s1.world = s2.world) := by
  rw [essentials_frames, essentials_frames] at h ⊢
  have z1 : ∀ f ∈ (Sim.frames s1.trace).filter Sim.kept, f.header.length.toNat = f.payload.length :=
    fun f hf => (i1.sizes f (List.mem_filter.mp hf).1).2
  have z2 : ∀ f ∈ (Sim.frames s2.trace).filter Sim.kept, f.header.length.toNat = f.payload.length :=
    fun f hf => (i2.sizes f (List.mem_filter.mp hf).1).2
  have k1 := i1.served.kept
  have k2 := i2.served.kept
  generalize (Sim.frames s1.trace).filter Sim.kept = fs at *
  generalize (Sim.frames s2.trace).filter Sim.kept = gs at *
  have hle : fs.length ≤ gs.length := by simpa using h.length_le
  obtain ⟨v', k3, k4⟩ := k1.alike (gs := gs.take fs.length) (by simp [hle]) (fun k h1 h2 => by
      rw [List.getElem_take]
      refine alike_of_anonymous (z1 _ (List.getElem_mem _)) (z2 _ (List.getElem_mem _)) ?_
      have := h.getElem (i := k) (by simpa using h1)
      simpa using this)
  have hv := k2.behind k3 (List.take_prefix _ _)
  refine ⟨⟨?_, ?_, ?_⟩, ?_⟩
  · rw [i1.handled, i2.handled, k4.1]
    exact prefix_map _ handled_append hv
  · rw [i1.responses, i2.responses, k4.2.1]
    exact (prefix_map _ responses_append hv).map _
  · rw [i1.logs, i2.logs, k4.2.2]
    exact prefix_map _ logs_append hv
  · intro hl
    have hl := congrArg List.length hl
    rw [List.length_map, List.length_map] at hl
    rw [hl, List.take_length] at k3
    exact (k3.det k2).2.2.1

/-- The property as stated, that frames the state of their stream does not allow are treated as errors: a
connection that has acted on such a frame does not go on waiting for input. -/
def RefusesByState (cfg : Cfg W) : Prop :=
  ∀ w now s, Called cfg w now .wantRead s → StatesKept ((frames s.trace).map asFrame)

/-- C153 is false: DATA on a stream the client has ended, then HEADERS on it again, then RST_STREAM and
WINDOW_UPDATE on idle streams and a lone CONTINUATION are all accepted, and the second request is answered on the
ended stream. -/
theorem C153_refuted : ¬ RefusesByState exCfg ∧ ∃ s, Called exCfg 0 0 .wantRead s ∧
    (responses s.trace).map (fun x => x.1.toNat) = [1, 1] ∧
    (frames s.trace).map asFrame = [⟨1, 5, 1, [0x82, 0x84]⟩, ⟨0, 0, 1, [7]⟩, ⟨1, 5, 1, [0x82, 0x84]⟩,
        ⟨3, 0, 5, [0, 0, 0, 8]⟩, ⟨8, 0, 7, [0, 0, 0, 1]⟩, ⟨9, 4, 9, []⟩] ∧
    NotAllowed (streamState [⟨1, 5, 1, [0x82, 0x84]⟩] 1) ⟨0, 0, 1, [7]⟩ ∧
    NotAllowed (streamState [⟨1, 5, 1, [0x82, 0x84]⟩, ⟨0, 0, 1, [7]⟩] 1) ⟨1, 5, 1, [0x82, 0x84]⟩ ∧
    NotAllowed .idle ⟨3, 0, 5, [0, 0, 0, 8]⟩ ∧ NotAllowed .idle ⟨8, 0, 7, [0, 0, 0, 1]⟩ ∧
    NotAllowed .idle ⟨9, 4, 9, []⟩ := by
  obtain ⟨r, s, h, k⟩ : ∃ r s, Called exCfg 0 0 r s ∧ (r == .wantRead &&
      (responses s.trace).map (fun x => x.1.toNat) == [1, 1] &&
      (frames s.trace).map asFrame == [⟨1, 5, 1, [0x82, 0x84]⟩, ⟨0, 0, 1, [7]⟩, ⟨1, 5, 1, [0x82, 0x84]⟩,
        ⟨3, 0, 5, [0, 0, 0, 8]⟩, ⟨8, 0, 7, [0, 0, 0, 1]⟩, ⟨9, 4, 9, []⟩]) = true :=
    Shows.called (e := exEnv (clientPreface ++ (exGet ++ [0, 0, 1, 0, 0, 0, 0, 0, 1, 7] ++ exGet ++
      [0, 0, 4, 3, 0, 0, 0, 0, 5, 0, 0, 0, 8] ++ [0, 0, 4, 8, 0, 0, 0, 0, 7, 0, 0, 0, 1] ++
      [0, 0, 0, 9, 4, 0, 0, 0, 9])) [71, 24]) (es := []) (by decide +kernel)
  simp only [Bool.and_eq_true, beq_iff_eq] at k
  obtain ⟨⟨rfl, k2⟩, k3⟩ := k
  refine ⟨fun hn => ?_, s, h, k2, k3, by decide, by decide, by decide, by decide, by decide⟩
  have := hn 0 0 s h [⟨1, 5, 1, [0x82, 0x84]⟩] ⟨0, 0, 1, [7]⟩ _ k3
  exact this (by decide)

/-- C153, what holds: only HEADERS, SETTINGS and GOAWAY frames make a difference, and their streams make none. If two
clients send the same frames of these three types, whatever their streams, and any other frames among them, then one
connection has done exactly the first things the other has: requests handed to handlers with their results,
responses, log entries. So a frame that the state of its stream does not allow is skipped, or if it is a HEADERS frame,
treated as if it opened a new stream. Missing: that the client is told. -/
theorem C153_states_partial {cfg : Cfg W} {w : W} {now1 now2 : Nat} {r1 r2 : ProcRes} {s1 s2 : Sim W}
    (h1 : Called cfg w now1 r1 s1) (h2 : Called cfg w now2 r2 s2) {fs1 fs2 : List Frame} {x1 x2 : Bytes}
    (hx1 : FramesWire fs1 x1) (hx2 : FramesWire fs2 x2)
    (hr1 : received s1.trace <+: Spec.preface ++ x1) (hr2 : received s2.trace <+: Spec.preface ++ x2)
    (hfs : essentials fs1 = essentials fs2) :
    (DoneBehind s1 s2 ∨ DoneBehind s2 s1) ∧
    (essentials ((frames s1.trace).map asFrame) = essentials ((frames s2.trace).map asFrame) →
      DoneBehind s1 s2 ∧ DoneBehind s2 s1 ∧ s1.world = s2.world) := by
  obtain ⟨p1, v1, q1, i1⟩ := h1.inv
  obtain ⟨p2, v2, q2, i2⟩ := h2.inv
  have f1 : essentials _ <+: essentials fs1 := ((i1.first hx1 hr1).filter _).map _
  have f2 : essentials _ <+: essentials fs2 := ((i2.first hx2 hr2).filter _).map _
  rw [← hfs] at f2
  refine ⟨?_, ?_⟩
  · rcases List.prefix_or_prefix_of_prefix f1 f2 with h | h
    · exact .inl (i1.essential i2 h).1
    · exact .inr (i2.essential i1 h).1
  · intro h
    have k := i1.essential i2 (h ▸ List.prefix_refl _)
    exact ⟨k.1, (i2.essential i1 (h ▸ List.prefix_refl _)).1, k.2 h⟩

/-- A client that makes two requests on one stream, with DATA after the first has ended, RST_STREAM on an idle
stream, and one that makes them properly: the same essentials, and the same doings. -/
example : essentials [⟨1, 5, 1, [0x82, 0x84]⟩, ⟨0, 0, 1, [7]⟩, ⟨1, 5, 1, [0x82, 0x84]⟩, ⟨3, 0, 5, [0, 0, 0, 8]⟩] =
      essentials [⟨1, 5, 1, [0x82, 0x84]⟩, ⟨1, 5, 3, [0x82, 0x84]⟩] ∧
    (∃ r s, Called exCfg 0 0 r s ∧ ((handled s.trace).length == 2 && received s.trace == clientPreface ++ (exGet ++
      [0, 0, 1, 0, 0, 0, 0, 0, 1, 7] ++ exGet ++ [0, 0, 4, 3, 0, 0, 0, 0, 5, 0, 0, 0, 8])) = true) ∧
    ∃ r s, Called exCfg 0 0 r s ∧ ((handled s.trace).length == 2 && received s.trace == clientPreface ++ (exGet ++
      [0, 0, 2, 1, 5, 0, 0, 0, 3, 0x82, 0x84])) = true :=
  ⟨by decide, Shows.called (e := exEnv (clientPreface ++ (exGet ++ [0, 0, 1, 0, 0, 0, 0, 0, 1, 7] ++ exGet ++
      [0, 0, 4, 3, 0, 0, 0, 0, 5, 0, 0, 0, 8])) [71, 24]) (es := []) (by decide +kernel),
    Shows.called (e := exEnv (clientPreface ++ (exGet ++ [0, 0, 2, 1, 5, 0, 0, 0, 3, 0x82, 0x84])) [71, 24])
      (es := []) (by decide +kernel)⟩

end Ion.Sim
