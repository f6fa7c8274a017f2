import Verif.Props.ConnStreams

/-! # C155: flags that a type of frame does not define are ignored -/

namespace Ion.Spec

/-- RFC 9113 section 6: the flags defined for each type of frame. DATA: END_STREAM, PADDED. HEADERS: END_STREAM,
END_HEADERS, PADDED, PRIORITY. SETTINGS and PING: ACK. PUSH_PROMISE: END_HEADERS, PADDED. CONTINUATION:
END_HEADERS. -/
def definedFlags (type : UInt8) : UInt8 :=
  match type with
  | 0 => 0x09
  | 1 => 0x2d
  | 4 => 0x01
  | 5 => 0x0c
  | 6 => 0x01
  | 9 => 0x04
  | _ => 0

/-- A frame without the flags its type does not define. -/
def Frame.plain (f : Frame) : Frame := { f with flags := f.flags &&& definedFlags f.type }

/-- What is left of a frame when only ACK of SETTINGS and PRIORITY of HEADERS count among the flags, and nothing of
the stream. -/
def Frame.essence (f : Frame) : UInt8 × Bool × Bytes :=
  (f.type, (f.type == 4 && f.flags &&& 0x1 != 0) || (f.type == 1 && f.flags &&& 0x20 != 0), f.payload)

end Ion.Spec

namespace Ion.Sim
open Spec
variable {W : Type}

/-! ### Specification -/

/-- The second connection has done all that the first has, and maybe more: frames acted on, but for undefined flags,
calls of handlers with their requests and results, responses with streams and header blocks, log entries. -/
structure PlainBehind (s t : Sim W) : Prop where
  frames : (frames s.trace).map (fun f => (asFrame f).plain) <+: (frames t.trace).map (fun f => (asFrame f).plain)
  handled : handled s.trace <+: handled t.trace
  responses : responses s.trace <+: responses t.trace
  logs : logs s.trace <+: logs t.trace

/-- The same, but for streams and for all flags but ACK of SETTINGS and PRIORITY of HEADERS. -/
structure EssenceBehind (s t : Sim W) : Prop where
  frames : (frames s.trace).map (fun f => (asFrame f).essence) <+: (frames t.trace).map (fun f => (asFrame f).essence)
  handled : handled s.trace <+: handled t.trace
  responses : (responses s.trace).map Prod.snd <+: (responses t.trace).map Prod.snd
  logs : logs s.trace <+: logs t.trace

/-! ### Proof -/

theorem bit_of_ne {a b m : UInt8} (hm : m = 1 ∨ m = 0x20) (h : (a &&& m != 0) = (b &&& m != 0)) :
    a &&& m = b &&& m := by
  have key : ∀ x : UInt8, x &&& m = 0 ∨ x &&& m = m := by
    intro x
    rcases hm with rfl | rfl
    · revert x; decide +kernel
    · revert x; decide +kernel
  have hm0 : m ≠ 0 := by rcases hm with rfl | rfl <;> decide
  rcases key a with ha | ha <;> rcases key b with hb | hb <;> rw [ha, hb] at h ⊢
  · simp [hm0] at h
  · simp [hm0] at h

theorem alike_of_essence {f g : FrameReader} (hf : f.header.length.toNat = f.payload.length)
    (hg : g.header.length.toNat = g.payload.length) (h : (asFrame f).essence = (asFrame g).essence) :
    Alike f g := by
  simp only [asFrame, Frame.essence, Prod.mk.injEq] at h
  obtain ⟨h1, h2, h3⟩ := h
  refine ⟨UInt32.toNat_inj.mp (by rw [hf, hg, h3]), h1, fun ht => ?_, fun ht => ?_, h3⟩
  · have hg : g.header.type = 4 := h1 ▸ ht
    simp only [ht, hg] at h2
    exact bit_of_ne (.inl rfl) (by simpa using h2)
  · have hg : g.header.type = 1 := h1 ▸ ht
    simp only [ht, hg] at h2
    exact bit_of_ne (.inr rfl) (by simpa using h2)

theorem InvAt.essence {cfg : Cfg W} {w0 : W} {c1 c2 p1 p2 : Bool} {v1 v2 : List Ev} {q1 q2 : Bytes}
    {s1 s2 : Sim W} (i1 : InvAt cfg w0 c1 p1 v1 q1 s1) (i2 : InvAt cfg w0 c2 p2 v2 q2 s2)
    (h : (Sim.frames s1.trace).map (fun f => (asFrame f).essence) <+:
      (Sim.frames s2.trace).map (fun f => (asFrame f).essence)) :
    EssenceBehind s1 s2 ∧ ((Sim.frames s1.trace).length = (Sim.frames s2.trace).length → s1.world = s2.world) := by
  have hle : (Sim.frames s1.trace).length ≤ (Sim.frames s2.trace).length := by simpa using h.length_le
  obtain ⟨v', k1, k2⟩ := i1.served.alike (gs := (Sim.frames s2.trace).take (Sim.frames s1.trace).length)
    (by simp [hle]) (fun k h1 h2 => by
      rw [List.getElem_take]
      refine alike_of_essence (i1.sizes _ (List.getElem_mem _)).2 (i2.sizes _ (List.getElem_mem _)).2 ?_
      have := h.getElem (i := k) (by simpa using h1)
      simpa using this)
  have hv := i2.served.behind k1 (List.take_prefix _ _)
  refine ⟨⟨h, ?_, ?_, ?_⟩, ?_⟩
  · rw [i1.handled, i2.handled, k2.1]
    exact prefix_map _ handled_append hv
  · rw [i1.responses, i2.responses, k2.2.1]
    exact (prefix_map _ responses_append hv).map _
  · rw [i1.logs, i2.logs, k2.2.2]
    exact prefix_map _ logs_append hv
  · intro hl
    rw [hl, List.take_length] at k1
    exact (k1.det i2.served).2.2.1

theorem essence_of_plain {f g : Frame} (h : f.plain = g.plain) : f.essence = g.essence := by
  obtain ⟨t, fl, i, p⟩ := f
  obtain ⟨t', fl', i', p'⟩ := g
  simp only [Frame.plain, Frame.mk.injEq] at h
  obtain ⟨rfl, h2, rfl, rfl⟩ := h
  simp only [Frame.essence, Prod.mk.injEq, true_and, and_true]
  by_cases h4 : t = 4
  · subst h4
    have : fl &&& 1 = fl' &&& 1 := by simpa [definedFlags] using h2
    simp [this]
  · by_cases h1 : t = 1
    · subst h1
      have e : fl &&& 0x2d = fl' &&& 0x2d := by simpa [definedFlags] using h2
      have : fl &&& 0x20 = fl' &&& 0x20 := by
        have e2 := congrArg (· &&& (0x20 : UInt8)) e
        have k : (0x2d &&& 0x20 : UInt8) = 0x20 := by decide
        simpa only [UInt8.and_assoc, k] using e2
      rw [this]
      rfl
    · have a : (t == 4) = false := beq_eq_false_iff_ne.mpr h4
      have b : (t == 1) = false := beq_eq_false_iff_ne.mpr h1
      rw [a, b]
      rfl

/-- Lists of pairs of which both halves are prefixes. -/
theorem prefix_of_halves {α β : Type} : ∀ {a b : List (α × β)}, a.map Prod.fst <+: b.map Prod.fst →
    a.map Prod.snd <+: b.map Prod.snd → a <+: b
  | [], _, _, _ => List.nil_prefix
  | _ :: _, [], h, _ => by simp at h
  | (x, y) :: a, (x', y') :: b, h, k => by
    simp only [List.map_cons, List.cons_prefix_cons] at h k
    obtain ⟨rfl, h⟩ := h
    obtain ⟨rfl, k⟩ := k
    exact List.cons_prefix_cons.mpr ⟨rfl, prefix_of_halves h k⟩

theorem requestStreams_plain (fs : List FrameReader) :
    (requestStreams fs).map UInt32.toNat = ((fs.map fun f => (asFrame f).plain).filter (fun f => f.type == 1)).map Frame.stream := by
  simp [requestStreams, asFrame, Frame.plain, Function.comp_def, List.filter_map]

theorem Steps.responses_plain {cfg : Cfg W} {c1 c2 : Bool} {w1 w2 : W} {now1 now2 : Nat} {s t : Sim W}
    (h1 : Steps cfg c1 (Sim.init w1 now1) s) (h2 : Steps cfg c2 (Sim.init w2 now2) t)
    (hf : (Sim.frames s.trace).map (fun f => (asFrame f).plain) <+: (Sim.frames t.trace).map (fun f => (asFrame f).plain))
    (hr : (Sim.responses s.trace).map Prod.snd <+: (Sim.responses t.trace).map Prod.snd) :
    Sim.responses s.trace <+: Sim.responses t.trace := by
  refine prefix_of_halves ?_ hr
  have a := h1.on_streams.2
  have b := h2.on_streams.2
  have c : requestStreams (Sim.frames s.trace) <+: requestStreams (Sim.frames t.trace) := by
    have := (hf.filter (fun f => f.type == 1)).map Frame.stream
    rw [← requestStreams_plain, ← requestStreams_plain] at this
    obtain ⟨r, hr⟩ := this
    refine List.prefix_iff_eq_take.mpr (List.map_inj_right (fun _ _ => UInt32.toNat_inj.mp) |>.mp ?_)
    rw [List.map_take, ← hr]
    simp
  have hl : (Sim.responses s.trace).length ≤ (Sim.responses t.trace).length := by simpa using hr.length_le
  exact List.prefix_of_prefix_length_le (a.trans c) b (by simpa using hl)

theorem PlainBehind.of {cfg : Cfg W} {w0 : W} {now1 now2 : Nat} {c1 c2 p1 p2 : Bool} {v1 v2 : List Ev} {q1 q2 : Bytes}
    {s1 s2 : Sim W} (i1 : InvAt cfg w0 c1 p1 v1 q1 s1) (i2 : InvAt cfg w0 c2 p2 v2 q2 s2)
    {d1 d2 : Bool} (h1 : Steps cfg d1 (Sim.init w0 now1) s1) (h2 : Steps cfg d2 (Sim.init w0 now2) s2)
    (h : (Sim.frames s1.trace).map (fun f => (asFrame f).plain) <+:
      (Sim.frames s2.trace).map (fun f => (asFrame f).plain)) :
    PlainBehind s1 s2 ∧ ((Sim.frames s1.trace).length = (Sim.frames s2.trace).length → s1.world = s2.world) := by
  have he : (Sim.frames s1.trace).map (fun f => (asFrame f).essence) <+:
      (Sim.frames s2.trace).map (fun f => (asFrame f).essence) := by
    have hle : (Sim.frames s1.trace).length ≤ (Sim.frames s2.trace).length := by simpa using h.length_le
    refine List.prefix_iff_eq_take.mpr (List.ext_getElem (by simp [hle]) fun k a b => ?_)
    have := h.getElem (i := k) (by simpa using a)
    simp only [List.getElem_map, List.getElem_take] at this ⊢
    exact essence_of_plain this
  obtain ⟨k, kw⟩ := i1.essence i2 he
  exact ⟨⟨h, k.handled, h1.responses_plain h2 h k.responses, k.logs⟩, kw⟩

/-! ### C155 -/

/-- C155: two clients send the same frames but for flags that are not defined for the types of the frames (and for
the reserved bits before stream identifiers, which `FramesWire` leaves open). At every moment one of the connections
has done exactly the first things the other has done, on the same streams; if they have acted on equally many
frames, they have done the same, and their applications are in the same state. -/
theorem C155_undefined {cfg : Cfg W} {w : W} {now1 now2 : Nat} {r1 r2 : ProcRes} {s1 s2 : Sim W}
    (h1 : Called cfg w now1 r1 s1) (h2 : Called cfg w now2 r2 s2) {fs1 fs2 : List Frame} {x1 x2 : Bytes}
    (hx1 : FramesWire fs1 x1) (hx2 : FramesWire fs2 x2)
    (hr1 : received s1.trace <+: Spec.preface ++ x1) (hr2 : received s2.trace <+: Spec.preface ++ x2)
    (hfs : fs1.map Frame.plain = fs2.map Frame.plain) :
    (PlainBehind s1 s2 ∨ PlainBehind s2 s1) ∧
    ((frames s1.trace).length = (frames s2.trace).length →
      PlainBehind s1 s2 ∧ PlainBehind s2 s1 ∧ s1.world = s2.world) := by
  obtain ⟨p1, v1, q1, i1⟩ := h1.inv
  obtain ⟨p2, v2, q2, i2⟩ := h2.inv
  have f1 := (i1.first hx1 hr1).map Frame.plain
  have f2 := (i2.first hx2 hr2).map Frame.plain
  rw [← hfs] at f2
  simp only [List.map_map, Function.comp_def] at f1 f2
  refine ⟨?_, ?_⟩
  · rcases List.prefix_or_prefix_of_prefix f1 f2 with h | h
    · exact .inl (PlainBehind.of i1 i2 h1.steps h2.steps h).1
    · exact .inr (PlainBehind.of i2 i1 h2.steps h1.steps h).1
  · intro hl
    have h : (frames s1.trace).map (fun f => (asFrame f).plain) =
        (frames s2.trace).map (fun f => (asFrame f).plain) := by
      rcases List.prefix_or_prefix_of_prefix f1 f2 with h | h
      · exact h.eq_of_length (by simpa using hl)
      · exact (h.eq_of_length (by simpa using hl.symm)).symm
    have k := PlainBehind.of i1 i2 h1.steps h2.steps (h ▸ List.prefix_refl _)
    exact ⟨k.1, (PlainBehind.of i2 i1 h2.steps h1.steps (h ▸ List.prefix_refl _)).1, k.2 hl⟩

/-- C155, what is looked at: also among the defined flags only ACK of SETTINGS and PRIORITY of HEADERS count.
END_STREAM, END_HEADERS and PADDED can be set or not. -/
theorem C155_only {cfg : Cfg W} {w : W} {now1 now2 : Nat} {r1 r2 : ProcRes} {s1 s2 : Sim W}
    (h1 : Called cfg w now1 r1 s1) (h2 : Called cfg w now2 r2 s2) {fs1 fs2 : List Frame} {x1 x2 : Bytes}
    (hx1 : FramesWire fs1 x1) (hx2 : FramesWire fs2 x2)
    (hr1 : received s1.trace <+: Spec.preface ++ x1) (hr2 : received s2.trace <+: Spec.preface ++ x2)
    (hfs : fs1.map Frame.essence = fs2.map Frame.essence) :
    (EssenceBehind s1 s2 ∨ EssenceBehind s2 s1) ∧
    ((frames s1.trace).length = (frames s2.trace).length →
      EssenceBehind s1 s2 ∧ EssenceBehind s2 s1 ∧ s1.world = s2.world) := by
  obtain ⟨p1, v1, q1, i1⟩ := h1.inv
  obtain ⟨p2, v2, q2, i2⟩ := h2.inv
  have f1 := (i1.first hx1 hr1).map Frame.essence
  have f2 := (i2.first hx2 hr2).map Frame.essence
  rw [← hfs] at f2
  simp only [List.map_map, Function.comp_def] at f1 f2
  refine ⟨?_, ?_⟩
  · rcases List.prefix_or_prefix_of_prefix f1 f2 with h | h
    · exact .inl (i1.essence i2 h).1
    · exact .inr (i2.essence i1 h).1
  · intro hl
    have h : (frames s1.trace).map (fun f => (asFrame f).essence) =
        (frames s2.trace).map (fun f => (asFrame f).essence) := by
      rcases List.prefix_or_prefix_of_prefix f1 f2 with h | h
      · exact h.eq_of_length (by simpa using hl)
      · exact (h.eq_of_length (by simpa using hl.symm)).symm
    have k := i1.essence i2 (h ▸ List.prefix_refl _)
    exact ⟨k.1, (i2.essence i1 (h ▸ List.prefix_refl _)).1, k.2 hl⟩

/-- The request of `exGet` with the flags 0x05 (as `exGet` itself), and with all undefined flags and the reserved
bit set as well: the frames are the same but for undefined flags, and both get an answer on stream 1. -/
example : (Frame.mk 1 0x05 1 [0x82, 0x84]).plain = (Frame.mk 1 0xd7 1 [0x82, 0x84]).plain ∧
    (∃ r s, Called exCfg 0 0 r s ∧ ((responses s.trace).map (·.1.toNat) == [1] &&
      received s.trace == clientPreface ++ [0, 0, 2, 1, 0x05, 0, 0, 0, 1, 0x82, 0x84]) = true) ∧
    ∃ r s, Called exCfg 0 0 r s ∧ ((responses s.trace).map (·.1.toNat) == [1] &&
      received s.trace == clientPreface ++ [0, 0, 2, 1, 0xd7, 0x80, 0, 0, 1, 0x82, 0x84]) = true :=
  ⟨by decide +kernel,
    Shows.called (e := exEnv (clientPreface ++ [0, 0, 2, 1, 0x05, 0, 0, 0, 1, 0x82, 0x84]) [71]) (es := []) (by decide +kernel),
    Shows.called (e := exEnv (clientPreface ++ [0, 0, 2, 1, 0xd7, 0x80, 0, 0, 1, 0x82, 0x84]) [71]) (es := []) (by decide +kernel)⟩

/-- Without END_HEADERS, without END_STREAM and with PADDED the same octets are still a whole request (although
with PADDED the first octet should be the length of the padding). -/
example : (Frame.mk 1 0x05 1 [0x82, 0x84]).essence = (Frame.mk 1 0x08 1 [0x82, 0x84]).essence ∧
    (Frame.mk 1 0x05 1 [0x82, 0x84]).plain ≠ (Frame.mk 1 0x08 1 [0x82, 0x84]).plain ∧
    ∃ r s, Called exCfg 0 0 r s ∧ ((responses s.trace).map (·.1.toNat) == [1] &&
      received s.trace == clientPreface ++ [0, 0, 2, 1, 0x08, 0, 0, 0, 1, 0x82, 0x84]) = true :=
  ⟨by decide +kernel, by decide +kernel,
    Shows.called (e := exEnv (clientPreface ++ [0, 0, 2, 1, 0x08, 0, 0, 0, 1, 0x82, 0x84]) [71]) (es := []) (by decide +kernel)⟩

end Ion.Sim
