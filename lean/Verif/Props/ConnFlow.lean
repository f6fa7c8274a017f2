import Verif.Lemmas.ConnExample
import Verif.Props.ConnOutput
import Verif.Spec.FlowControl

/-!
# Connection: flow control (C44)
-/

namespace Ion
open Spec
namespace Sim
variable {W : Type}

/-! ### C44 -/

theorem dataOctets_append (a b : List Frame) : dataOctets (a ++ b) = dataOctets a + dataOctets b := by
  simp [dataOctets]

theorem dataOn_append (n : Nat) (a b : List Frame) : dataOn n (a ++ b) = dataOn n a + dataOn n b := by
  simp [dataOn, dataOctets_append]

theorem dataOctets_other {f : Frame} (h : f.type ≠ 0) : dataOctets [f] = 0 := by
  simp [dataOctets, h]

theorem dataOn_other {f : Frame} (n : Nat) (h : f.type ≠ 0) : dataOn n [f] = 0 := by
  by_cases hs : f.stream = n <;> simp [dataOn, dataOctets, hs, h]

theorem dataOn_le (n : Nat) (fs : List Frame) : dataOn n fs ≤ dataOctets fs := by
  induction fs with
  | nil => simp [dataOn, dataOctets]
  | cons f fs ih =>
    have h1 := dataOctets_append [f] fs
    have h2 := dataOn_append n [f] fs
    simp only [List.singleton_append] at h1 h2
    rw [h1, h2]
    have : dataOn n [f] ≤ dataOctets [f] := by
      by_cases hs : f.stream = n <;> simp [dataOn, dataOctets, hs]
    omega

theorem BodyFrames_octets {n : Nat} {body : Bytes} {ds : List Frame} (h : BodyFrames n body ds) :
    dataOctets ds = body.length ∧ ∀ m, dataOn m ds = if m = n then body.length else 0 := by
  have h1 : ds.filter (fun f => f.type == 0) = ds := by
    rw [List.filter_eq_self]
    intro f hf
    simp [(h.data f hf).1]
  have h2 : dataOctets ds = body.length := by
    rw [dataOctets, h1, ← h.octets, List.length_flatten, List.map_map]
    rfl
  refine ⟨h2, ?_⟩
  intro m
  by_cases hm : m = n
  · rw [if_pos hm, dataOn, List.filter_eq_self.mpr, h2]
    intro f hf
    simp [(h.data f hf).2.1, hm]
  · rw [if_neg hm, dataOn, List.filter_eq_nil_iff.mpr]
    · rfl
    · intro f hf
      simp [(h.data f hf).2.1]
      exact fun h => hm h.symm

/-- Body octets of responses. -/
def bodyOctets (rs : List (Nat × Bytes × Bytes)) : Nat := (rs.map fun r => r.2.2.length).sum

theorem Replies_octets {ins outs : List Frame} {rs : List (Nat × Bytes × Bytes)}
    (h : Replies ins rs outs) : dataOctets outs = bodyOctets rs ∧
      ∀ n, dataOn n outs = bodyOctets (rs.filter fun r => r.1 == n) := by
  induction h with
  | nil => exact ⟨rfl, fun _ => rfl⟩
  | settings ins rs outs f h ht hf hl ih =>
    refine ⟨?_, fun n => ?_⟩
    · rw [dataOctets_append, dataOctets_other (by decide), ih.1]; rfl
    · rw [dataOn_append, dataOn_other n (by decide), ih.2]; rfl
  | request ins rs outs f block body ds h ht hd ih =>
    obtain ⟨k1, k2⟩ := BodyFrames_octets hd
    rw [show ∀ x : Frame, x :: ds = [x] ++ ds from fun _ => rfl]
    refine ⟨?_, fun n => ?_⟩
    · rw [dataOctets_append, dataOctets_append, dataOctets_other (by show (1 : UInt8) ≠ 0; decide), ih.1,
        k1]
      simp [bodyOctets]
    · rw [dataOn_append, dataOn_append, dataOn_other n (by show (1 : UInt8) ≠ 0; decide), ih.2, k2]
      by_cases hn : n = f.stream
      · simp [hn, bodyOctets]
      · simp [hn, bodyOctets, Ne.symm hn]
  | other ins rs outs f h h1 h4 ih => exact ih

/-- The DATA octets a connection produces are those of the response bodies. -/
theorem C44_octets (cfg : Cfg W) (w : W) (now : Nat) (r : ProcRes) (s : Sim W)
    (h : Called cfg w now r s) (hb : ∀ x ∈ responses s.trace, x.2.2.length < 2 ^ 24) :
    ∃ outs, FramesWire outs (produced s.trace) ∧
      dataOctets outs = ((responses s.trace).map fun x => x.2.1.body.length).sum := by
  obtain ⟨good, bad, first, outs, extra, h1, h2, h3, h4, h5, h6⟩ := C31_replies cfg w now r s h hb
  refine ⟨first ++ outs ++ extra, h3, ?_⟩
  have e1 : dataOctets first = 0 := by
    rcases h4 with ⟨rfl, -⟩ | ⟨f, rfl, hf⟩
    · rfl
    · exact dataOctets_other (by rw [hf.1]; decide)
  have e2 : dataOctets extra = 0 := by
    rcases h6 with rfl | ⟨-, g, rfl, hg, -⟩
    · rfl
    · exact dataOctets_other (by rw [hg]; decide)
  rw [dataOctets_append, dataOctets_append, e1, e2, (Replies_octets h2).1]
  simp [bodyOctets, asReply, Function.comp_def]

/-- The same for every stream. -/
theorem C44_streams (cfg : Cfg W) (w : W) (now : Nat) (r : ProcRes) (s : Sim W)
    (h : Called cfg w now r s) (hb : ∀ x ∈ responses s.trace, x.2.2.length < 2 ^ 24) :
    ∃ outs, FramesWire outs (produced s.trace) ∧ ∀ n, dataOn n outs =
      (((responses s.trace).filter fun x => x.1.toNat == n).map fun x => x.2.1.body.length).sum := by
  obtain ⟨good, bad, first, outs, extra, h1, h2, h3, h4, h5, h6⟩ := C31_replies cfg w now r s h hb
  refine ⟨first ++ outs ++ extra, h3, fun n => ?_⟩
  have e1 : dataOn n first = 0 := by
    rcases h4 with ⟨rfl, -⟩ | ⟨f, rfl, hf⟩
    · rfl
    · exact dataOn_other n (by rw [hf.1]; decide)
  have e2 : dataOn n extra = 0 := by
    rcases h6 with rfl | ⟨-, g, rfl, hg, -⟩
    · rfl
    · exact dataOn_other n (by rw [hg]; decide)
  rw [dataOn_append, dataOn_append, e1, e2, (Replies_octets h2).2 n]
  simp [bodyOctets, asReply, Function.comp_def, List.filter_map]

/-- C44 is false of every connection on which the responses have more octets than the client's window for
the connection or for a stream, once they are sent: nothing waits for the client's permission. -/
theorem C44_ignored (cfg : Cfg W) (w : W) (now : Nat) (r : ProcRes) (s : Sim W) (h : Called cfg w now r s)
    (hb : ∀ x ∈ responses s.trace, x.2.2.length < 2 ^ 24) (ha : accepted s.trace = produced s.trace)
    (n : Nat) (hx : 65535 + increments 0 ((frames s.trace).map asFrame) <
        ((responses s.trace).map fun x => x.2.1.body.length).sum ∨
      initialWindow ((frames s.trace).map asFrame) + increments n ((frames s.trace).map asFrame) <
        (((responses s.trace).filter fun x => x.1.toNat == n).map fun x => x.2.1.body.length).sum) :
    ∃ outs, FramesWire outs (accepted s.trace) ∧ ¬ FitsWindows ((frames s.trace).map asFrame) outs := by
  rw [ha]
  rcases hx with hx | hx
  · obtain ⟨outs, k1, k2⟩ := C44_octets cfg w now r s h hb
    refine ⟨outs, k1, fun hf => ?_⟩
    have := hf.1
    omega
  · obtain ⟨outs, k1, k2⟩ := C44_streams cfg w now r s h hb
    refine ⟨outs, k1, fun hf => ?_⟩
    have := hf.2 n
    rw [k2] at this
    omega

/-- SETTINGS with an initial window of one octet. -/
def exNarrow : Bytes := [0, 0, 6, 4, 0, 0, 0, 0, 0, 0, 4, 0, 0, 0, 1]

/-- C44 is false: a client that asks for not more than one octet per stream is sent two. -/
theorem C44_refuted : ∃ r s outs, Called exCfg 0 0 r s ∧ FramesWire outs (accepted s.trace) ∧
    ¬ FitsWindows ((frames s.trace).map asFrame) outs := by
  obtain ⟨r, s, h1, h2⟩ : ∃ r s, Called exCfg 0 0 r s ∧ (r == .wantRead && s.wbuf == [] &&
      (responses s.trace).all (fun x => decide (x.2.2.length < 2 ^ 24)) &&
      decide (initialWindow ((frames s.trace).map asFrame) + increments 1 ((frames s.trace).map asFrame) <
        (((responses s.trace).filter fun x => x.1.toNat == 1).map fun x => x.2.1.body.length).sum)) = true :=
    Shows.called (e := exEnv (clientPreface ++ exNarrow ++ exGet) [36, 44]) (es := []) (by decide +kernel)
  simp only [Bool.and_eq_true, beq_iff_eq, List.all_eq_true, decide_eq_true_eq] at h2
  obtain ⟨⟨⟨-, h3⟩, h4⟩, h5⟩ := h2
  obtain ⟨p, evs, post, i⟩ := h1.inv
  have ha : accepted s.trace = produced s.trace := by
    have := i.acc
    rw [h3, List.append_nil] at this
    exact this.symm
  obtain ⟨outs, k1, k2⟩ := C44_ignored _ _ _ r s h1 h4 ha 1 (.inr h5)
  exact ⟨r, s, outs, h1, k1, k2⟩

/-- C44 when all response bodies of the connection together have at most 65535 octets and the client
never sets a smaller initial window than that: at every point, the frames sent so far fit the windows
granted by the frames acted on so far. Missing: larger responses, which ion sends regardless of the
client's windows. -/
theorem C44_small_partial (cfg : Cfg W) (w : W) (now : Nat) (r : ProcRes) (s : Sim W)
    (h : Called cfg w now r s) (hb : ∀ x ∈ responses s.trace, x.2.2.length < 2 ^ 24)
    (hs : ((responses s.trace).map fun x => x.2.1.body.length).sum ≤ 65535)
    (hw : ∀ pre, pre <+: (frames s.trace).map asFrame →
      ((responses s.trace).map fun x => x.2.1.body.length).sum ≤ initialWindow pre)
    (pre post : List Ev) (ht : s.trace = pre ++ post) (sent : List Frame) (v : Bytes)
    (hv : FramesWire sent v) (hp : v <+: accepted pre) :
    FitsWindows ((frames pre).map asFrame) sent := by
  obtain ⟨outs, k1, k2⟩ := C44_octets cfg w now r s h hb
  obtain ⟨p, evs, post', i⟩ := h.inv
  obtain ⟨x, hx⟩ := hp
  have hpr : produced s.trace = v ++ (x ++ (accepted post ++ s.wbuf)) := by
    rw [i.acc, ht, accepted_append, ← hx]; simp
  rw [hpr] at k1
  have hle : dataOctets sent ≤ dataOctets outs := by
    obtain ⟨rest, hrest⟩ := hv.prefix k1 (r := x ++ (accepted post ++ s.wbuf)) (r' := []) (by simp) (.inl (by simp))
    rw [← hrest, dataOctets_append]
    omega
  have hin : ∀ n, dataOn n sent ≤ dataOctets sent := fun n => dataOn_le n sent
  have hpre : (frames pre).map asFrame <+: (frames s.trace).map asFrame := by
    rw [ht, frames_append, List.map_append]; exact List.prefix_append _ _
  have := hw _ hpre
  refine ⟨by omega, fun n => ?_⟩
  have := hin n
  omega

/-- A connection that satisfies the hypotheses of the last theorem. -/
example : ∃ r s, Called exCfg 0 0 r s ∧ (r == .wantRead &&
    (responses s.trace).all (fun x => decide (x.2.2.length < 2 ^ 24)) &&
    ((responses s.trace).map fun x => x.2.1.body.length).sum == 4 &&
    (List.range 4).all (fun n => decide (4 ≤ initialWindow (((frames s.trace).map asFrame).take n))) &&
    (accepted s.trace).length == 104) = true :=
  Shows.called (e := exEnv (clientPreface ++ exGet ++ exSettings ++ exGet) [71, 9, 24]) (es := [])
    (by decide +kernel)

end Sim
end Ion
