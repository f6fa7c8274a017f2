import Verif.Lemmas.ConnExample
import Verif.Lemmas.ConnMore
import Verif.Props.TlsSize
import Verif.Props.ConnSend
import Verif.Props.ConnStreams

/-! # C154: how much is sent for what was received -/

namespace Ion.Sim
open Spec
variable {W : Type}

/-! ### Specification -/

/-- SETTINGS frames that are acknowledged: without ACK, of a length that is a multiple of six. -/
def acknowledged (fs : List Frame) : Nat :=
  (fs.filter fun f => f.type == 4 && f.flags &&& 1 == 0 && f.payload.length % 6 == 0).length

/-- Octets of a response on the wire: a frame with the header block, and the body in frames of at most 16256 octets,
each with nine octets in front. -/
def wireSize (x : UInt32 × HttpResponse × Bytes) : Nat :=
  9 + x.2.2.length + x.2.1.body.length + 9 * ((x.2.1.body.length + 16255) / 16256)

/-- Octets of frames on the wire. -/
def framesSize (fs : List Frame) : Nat := (fs.map fun f => 9 + f.payload.length).sum

/-! ### Proof -/

theorem serialize_len (h : FrameHeader) : h.serialize.length = 9 := by
  simp [FrameHeader.serialize, storeU24, storeU32]

theorem answerEvs_size (evs : List Ev) (he : produced evs = [] ∧ responses evs = []) (i : UInt32) (hs : List Header)
    (resp : HttpResponse) (block : Bytes) :
    (produced (answerEvs evs i hs resp block)).length =
      ((responses (answerEvs evs i hs resp block)).map wireSize).sum := by
  have h1 : responses (answerEvs evs i hs resp block) = [(i, resp, block)] := by
    have : ∀ l : List Bytes, responses (l.map Ev.enqueue) = [] := by
      intro l
      induction l with
      | nil => rfl
      | cons x l ih => simp [responses]
    simp only [answerEvs, responses_append, this, he.2]
    rfl
  have h2 : produced (answerEvs evs i hs resp block) = (responseChunks i resp block).flatten := by
    simp only [answerEvs, produced_append, produced_enqueues, he.1]
    simp [produced]
  rw [h1, h2, responseChunks]
  simp only [List.flatten_cons, List.length_append, serialize_len, dataChunks_length i _ resp.body rfl]
  simp [wireSize]
  omega

theorem Served.size {cfg : Cfg W} {w0 : W} {fs : List FrameReader} {d e : DynTable} {w : W} {v : List Ev}
    (h : Served cfg w0 fs d e w v) :
    (produced v).length = 9 * acknowledged (fs.map asFrame) + ((responses v).map wireSize).sum := by
  induction h with
  | nil => rfl
  | snoc fs f dec enc w evs s' h ha ih =>
    rw [produced_append, responses_append, List.map_append, List.map_append, List.sum_append, List.length_append, ih]
    have ha' : acknowledged (fs.map asFrame ++ [f].map asFrame) =
        acknowledged (fs.map asFrame) + acknowledged [asFrame f] := by
      simp [acknowledged, List.filter_append]
    rw [ha']
    suffices (produced s'.trace).length = 9 * acknowledged [asFrame f] + ((responses s'.trace).map wireSize).sum by omega
    cases ha with
    | settingsAck ht hf =>
      simp [blank, produced, responses, acknowledged, asFrame, ht, hf]
    | settings l ht hf h =>
      simp [blank, enq, produced, responses, acknowledged, asFrame, ht, hf, readSettings_len h, serialize_len]
    | badSettings e ht hf h =>
      simp [blank, produced, responses, acknowledged, asFrame, ht, hf, readSettings_err h]
    | badHeaders block e dec' ht hb hd =>
      simp [blank, produced, responses, acknowledged, asFrame, ht]
    | request data hs dec' resp evs' w' block enc' ht hb hd hr he =>
      have := answerEvs_size evs' (by cases hr <;> exact ⟨rfl, rfl⟩) f.header.streamId hs resp block
      simp [blank, this, acknowledged, asFrame, ht]
    | windowUpdate u ht h => simp [blank, produced, responses, acknowledged, asFrame, ht]
    | goaway ht => simp [blank, produced, responses, acknowledged, asFrame, ht]
    | other h1 h4 h7 h8 => simp [blank, produced, responses, acknowledged, asFrame, h4]

theorem FramesWire.size {fs : List Frame} {w : Bytes} (h : FramesWire fs w) : w.length = framesSize fs := by
  induction h with
  | nil => rfl
  | cons f fs v vs hf hs ih => simp [framesSize, hf.len, ih] at *

/-! ### C154 -/

/-- C154: how many octets the server has produced, exactly: 27 for its settings once the preface has arrived, nine for
each SETTINGS frame it acknowledges, the sizes of the responses, and, at the end, seventeen for GOAWAY. For every
frame acted on, its octets and the preface have been received. -/
theorem C154_size (cfg : Cfg W) (w : W) (now : Nat) (r : ProcRes) (s : Sim W) (h : Called cfg w now r s) :
    ∃ first last, (first = 0 ∧ frames s.trace = [] ∧ responses s.trace = [] ∨
        first = 27 ∧ 24 + framesSize ((frames s.trace).map asFrame) ≤ (received s.trace).length) ∧
      (last = 0 ∨ last = 17 ∧ r = .discard) ∧
      (produced s.trace).length = first + 9 * acknowledged ((frames s.trace).map asFrame) +
        ((responses s.trace).map wireSize).sum + last := by
  obtain ⟨s1, s2, k1, k2, k3⟩ := h.elim
  obtain ⟨p, v, q, i⟩ := k1.inv_false
  have hq := i.post_plain rfl
  subst hq
  have hs := i.served.size
  have hp := congrArg List.length i.prod
  rw [List.append_nil, List.length_append, hs, ← i.responses] at hp
  have base : ∃ first, (first = 0 ∧ frames s1.trace = [] ∧ responses s1.trace = [] ∨
        first = 27 ∧ 24 + framesSize ((frames s1.trace).map asFrame) ≤ (received s1.trace).length) ∧
      (produced s1.trace).length = first + 9 * acknowledged ((frames s1.trace).map asFrame) +
        ((responses s1.trace).map wireSize).sum := by
    cases p with
    | false =>
      have hr := i.recv
      simp only [Bool.false_eq_true, if_false] at hr hp
      refine ⟨0, .inl ⟨rfl, hr.1, ?_⟩, by simpa using hp⟩
      have := i.served
      rw [hr.1] at this
      rw [i.responses, (this.det .nil).2.2.2]
      rfl
    | true =>
      obtain ⟨x, hx, hr⟩ := (by simpa using i.recv : ∃ w, FramesWire ((frames s1.trace).map asFrame) w ∧
        received s1.trace = Spec.preface ++ (w ++ s1.rbuf))
      have h27 : settingsChunks.flatten.length = 27 := by decide +kernel
      simp only [if_true, h27] at hp
      refine ⟨27, .inr ⟨rfl, ?_⟩, by omega⟩
      have h24 : Spec.preface.length = 24 := by decide
      rw [hr, List.length_append, List.length_append, h24, FramesWire.size hx]
      omega
  obtain ⟨first, b1, b2⟩ := base
  rcases k2 with ⟨rfl, -⟩ | ⟨e1, -, -, rfl⟩
  · subst k3
    refine ⟨first, 0, ?_, .inl rfl, ?_⟩
    · simpa [frames, responses, received] using b1
    · simpa [frames, responses, produced] using b2
  · subst k3
    refine ⟨first, 17, ?_, .inr ⟨rfl, ?_⟩, ?_⟩
    · simpa [enq, frames, responses, received] using b1
    · first | exact e1 | assumption
    · have hg : ∀ st, (goawayChunks st).flatten.length = 17 := by
        intro st
        simp [goawayChunks, serialize_len, GoAway.serialize, storeU32]
      simp [enq, frames, responses, produced, produced_append, hg, b2]

theorem acknowledged_le (fs : List Frame) : acknowledged fs + (fs.filter fun f => f.type == 1).length ≤ fs.length := by
  induction fs with
  | nil => exact Nat.le_refl _
  | cons f fs ih =>
    unfold acknowledged at *
    simp only [List.filter_cons, List.length_cons]
    by_cases h1 : f.type = 1
    · simp [h1] at *; omega
    · simp only [beq_iff_eq, h1, if_false]
      split
      · simp only [List.length_cons]; omega
      · omega

theorem framesSize_ge (fs : List Frame) : 9 * fs.length ≤ framesSize fs := by
  induction fs with
  | nil => exact Nat.le_refl _
  | cons f fs ih => simp [framesSize] at *; omega

theorem sum_le (l : List Nat) (b : Nat) (h : ∀ x ∈ l, x ≤ b) : l.sum ≤ l.length * b := by
  induction l with
  | nil => simp
  | cons x l ih =>
    have := h x (by simp)
    have := ih fun y hy => h y (by simp [hy])
    simp [Nat.succ_mul] at *
    omega

/-- C154, the proportion: if no response takes more than `b` octets on the wire, then for every nine octets received
the server produces at most `b` (or nine, if that is more) and at most 44 octets in all besides; so what clients
are sent is bounded by what they send. -/
theorem C154_bound (cfg : Cfg W) (w : W) (now : Nat) (r : ProcRes) (s : Sim W) (h : Called cfg w now r s) (b : Nat)
    (hb : ∀ x ∈ responses s.trace, wireSize x ≤ b) :
    (accepted s.trace).length ≤ (produced s.trace).length ∧
    (produced s.trace).length ≤ 44 + ((received s.trace).length - 24) / 9 * max 9 b := by
  obtain ⟨first, last, h1, h2, h3⟩ := C154_size cfg w now r s h
  obtain ⟨p, v, q, i⟩ := h.inv
  refine ⟨by rw [i.acc]; simp, ?_⟩
  have hst := List.IsPrefix.length_le h.steps.on_streams.2
  have hsum := sum_le ((responses s.trace).map wireSize) b (by
    intro x hx
    obtain ⟨y, hy, rfl⟩ := List.mem_map.mp hx
    exact hb y hy)
  have hle := acknowledged_le ((frames s.trace).map asFrame)
  have hhead : (((frames s.trace).map asFrame).filter fun f => f.type == 1).length =
      (requestStreams (frames s.trace)).length := by
    simp [requestStreams, List.filter_map, Function.comp_def, asFrame]
  have hsz := framesSize_ge ((frames s.trace).map asFrame)
  simp only [List.length_map] at hst hsum hle hsz
  rw [hhead] at hle
  generalize (received s.trace).length = n at *
  generalize (responses s.trace).length = k at *
  generalize acknowledged ((frames s.trace).map asFrame) = a at *
  rcases h1 with ⟨rfl, e1, e2⟩ | ⟨rfl, e1⟩
  · rw [e1] at hle
    rw [e2] at h3
    simp at hle h3
    omega
  · have hn : (frames s.trace).length ≤ (n - 24) / 9 := by omega
    have m1 : 9 * a ≤ a * max 9 b := by rw [Nat.mul_comm]; exact Nat.mul_le_mul_left _ (Nat.le_max_left _ _)
    have m2 : k * b ≤ k * max 9 b := Nat.mul_le_mul_left _ (Nat.le_max_right _ _)
    have m3 : (a + k) * max 9 b ≤ (n - 24) / 9 * max 9 b := Nat.mul_le_mul_right _ (by omega)
    rw [Nat.add_mul] at m3
    omega

/-- A request of eleven octets, answered with 44 octets: 27 for the settings come before. The factor is reached:
a request needs nine octets, if it is one without any field. -/
example : ∃ r s, Called exCfg 0 0 r s ∧ ((received s.trace).length == 35 && (produced s.trace).length == 71 &&
      (responses s.trace).map wireSize == [44]) = true :=
  Shows.called (e := exEnv (clientPreface ++ exGet) [71]) (es := []) (by decide +kernel)

/-- Nine octets for a response of their own: a header block with nothing in it. -/
example : ∃ r s, Called exCfg 0 0 r s ∧ ((received s.trace).length == 33 &&
      (responses s.trace).map (fun x => x.2.1.status) == [400] && (produced s.trace).length == 36) = true :=
  Shows.called (e := exEnv (clientPreface ++ [0, 0, 0, 1, 5, 0, 0, 0, 1]) [36]) (es := []) (by decide +kernel)

end Ion.Sim
