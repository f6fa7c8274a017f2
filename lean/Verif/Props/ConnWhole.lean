import Verif.Props.ConnConform

/-!
# Requests with content and trailers (C137)
-/

namespace Ion
namespace Spec

/-- RFC 9113, 8.1: a frame with which the request on a stream is complete: HEADERS or DATA with END_STREAM. -/
def Completes (n : Nat) (f : Frame) : Prop := (f.type = 0 ∨ f.type = 1) ∧ f.stream = n ∧ f.flags &&& 1 ≠ 0

instance (n : Nat) (f : Frame) : Decidable (Completes n f) := inferInstanceAs (Decidable (_ ∧ _ ∧ _))

theorem Replies.answered {ins : List Frame} {rs : List (Nat × Bytes × Bytes)} {outs : List Frame}
    (h : Replies ins rs outs) : rs.map (·.1) = headerStreams ins := by
  induction h with
  | nil => rfl
  | settings ins rs outs f h ht hf hl ih =>
    unfold headerStreams at ih ⊢
    simp [List.filter_append, ih, ht]
  | request ins rs outs f block body ds h ht hd ih =>
    unfold headerStreams at ih ⊢
    simp [List.filter_append, ih, ht]
  | other ins rs outs f h h1 h4 ih =>
    unfold headerStreams at ih ⊢
    simp [List.filter_append, ih, h1]

end Spec

namespace Sim
open Spec
variable {W : Type}

/-- `POST`-like HEADERS without END_STREAM on stream 1, DATA without END_STREAM, and trailers with it. -/
def exOpen : Bytes := [0, 0, 2, 1, 4, 0, 0, 0, 1, 0x82, 0x84]

@[inherit_doc exOpen]
def exContent : Bytes := [0, 0, 1, 0, 0, 0, 0, 0, 1, 0x78]

@[inherit_doc exOpen]
def exTrailers : Bytes := [0, 0, 5, 1, 5, 0, 0, 0, 1, 0x00, 1, 0x78, 1, 0x79]

/-- C137 is false: a request is answered although it is not complete, and a second time when it is, by a
response without `:status`. -/
theorem C137_refuted :
    (∃ s, Called exCfg 0 0 .wantRead s ∧ (responses s.trace).map (·.1) = [1] ∧ (handled s.trace).length = 1 ∧
      ∀ f ∈ (frames s.trace).map asFrame, ¬ Completes 1 f) ∧
    (∃ s v, Called exCfg 0 0 .wantRead s ∧ received s.trace = clientPreface ++ v ∧
      FramesWire [⟨1, 4, 1, [0x82, 0x84]⟩, ⟨0, 0, 1, [0x78]⟩, ⟨1, 5, 1, [0x00, 1, 0x78, 1, 0x79]⟩] v ∧
      (responses s.trace).map (·.1) = [1, 1] ∧ (responses s.trace).map (·.2.1.status) = [200, 400] ∧
      (responses s.trace).map (·.2.1.headers.any (·.name == b!":status")) = [true, false]) := by
  constructor
  · obtain ⟨r, s, h1, h2⟩ : ∃ r s, Called exCfg 0 0 r s ∧ (r == .wantRead && (responses s.trace).map (·.1) == [1] &&
        (handled s.trace).length == 1 && ((frames s.trace).map asFrame).all (fun f => decide (¬ Completes 1 f))) = true :=
      Shows.called (e := exEnv (clientPreface ++ exOpen ++ exContent) [71]) (es := []) (by decide +kernel)
    simp only [Bool.and_eq_true, beq_iff_eq, List.all_eq_true, decide_eq_true_eq] at h2
    obtain ⟨⟨⟨rfl, h3⟩, h4⟩, h5⟩ := h2
    exact ⟨s, h1, h3, h4, h5⟩
  · obtain ⟨r, s, h1, h2⟩ : ∃ r s, Called exCfg 0 0 r s ∧ (r == .wantRead && (responses s.trace).map (·.1) == [1, 1] &&
        (responses s.trace).map (·.2.1.status) == [200, 400] &&
        (responses s.trace).map (·.2.1.headers.any (·.name == b!":status")) == [true, false] &&
        received s.trace == clientPreface ++ (exOpen ++ (exContent ++ (exTrailers ++ [])))) = true :=
      Shows.called (e := exEnv (clientPreface ++ exOpen ++ exContent ++ exTrailers) [71, 9]) (es := []) (by decide +kernel)
    simp only [Bool.and_eq_true, beq_iff_eq] at h2
    obtain ⟨⟨⟨⟨rfl, h3⟩, h4⟩, h5⟩, h6⟩ := h2
    exact ⟨s, _, h1, h6, .cons _ _ _ _ ⟨[0, 0, 2], [0, 0, 0, 1], rfl, rfl, rfl, rfl, rfl⟩
      (.cons _ _ _ _ ⟨[0, 0, 1], [0, 0, 0, 1], rfl, rfl, rfl, rfl, rfl⟩
        (.cons _ _ _ _ ⟨[0, 0, 5], [0, 0, 0, 1], rfl, rfl, rfl, rfl, rfl⟩ .nil)), h3, h4, h5⟩

/-- C137 for clients that end their requests with the HEADERS frame and use each stream once: a response, and with
it the call of the handler, follows a frame that completes the request; no stream gets a second one; and when the
connection waits for input every request has its response. Missing: requests with content or trailers. -/
theorem C137_whole_partial (cfg : Cfg W) (w : W) (now : Nat) (r : ProcRes) (s : Sim W) (h : Called cfg w now r s)
    (hb : ∀ x ∈ responses s.trace, x.2.2.length < 2 ^ 24)
    (he : ∀ f ∈ (frames s.trace).map asFrame, f.type = 1 → f.flags &&& 1 ≠ 0)
    (hn : (headerStreams ((frames s.trace).map asFrame)).Nodup) :
    (∀ pre post sid resp block, s.trace = pre ++ .respond sid resp block :: post →
      (∃ f ∈ (frames pre).map asFrame, Completes sid.toNat f) ∧
      sid ∉ (responses pre).map (·.1) ∧ sid ∉ (responses post).map (·.1)) ∧
    (r = .wantRead → (responses s.trace).map (·.1.toNat) = headerStreams ((frames s.trace).map asFrame)) := by
  obtain ⟨good, bad, first, outs, extra, k1, k2, k3, k4, k5, k6⟩ := C31_replies cfg w now r s h hb
  have hstreams : (responses s.trace).map (·.1.toNat) = headerStreams (good.map asFrame) := by
    rw [← k2.answered, List.map_map]
    rfl
  have hpre : headerStreams ((frames s.trace).map asFrame) =
      headerStreams (good.map asFrame) ++ headerStreams (bad.map asFrame) := by
    rw [k1]
    simp [headerStreams, List.filter_append]
  refine ⟨fun pre post sid resp block ht => ⟨?_, ?_⟩, fun hr => ?_⟩
  · have := h.along (Q := Origin cfg w) (fun s hs => hs.origin) (by intro _ _ _ _ _ h; cases h)
      (by intro _ _ _ _ _ h; cases h) pre _ post ht sid resp block rfl
    obtain ⟨pre', f, evs, _, _, _, _, _, _, _, _, _, rfl, h1, h2, -⟩ := this
    refine ⟨asFrame f, List.mem_map_of_mem (by simp [frames_append, frames]), .inr h1, congrArg UInt32.toNat h2, ?_⟩
    exact he (asFrame f) (List.mem_map_of_mem (by rw [ht]; simp [frames_append, frames])) h1
  · rw [hpre] at hn
    have hnd := (List.nodup_append.1 hn).1
    rw [← hstreams, ht, responses_append, show responses (Ev.respond sid resp block :: post) =
      (sid, resp, block) :: responses post from rfl, List.map_append, List.map_cons] at hnd
    obtain ⟨-, h2, h3⟩ := List.nodup_append.1 hnd
    rw [List.nodup_cons] at h2
    constructor
    · intro hm
      obtain ⟨x, hx, rfl⟩ := List.mem_map.1 hm
      exact h3 x.1.toNat (List.mem_map.2 ⟨x, hx, rfl⟩) _ (List.mem_cons_self ..) rfl
    · intro hm
      obtain ⟨x, hx, rfl⟩ := List.mem_map.1 hm
      exact h2.1 (List.mem_map.2 ⟨x, hx, rfl⟩)
  · rcases k5 with rfl | ⟨k5, -⟩
    · rw [hstreams, hpre]
      simp [headerStreams]
    · exact absurd hr k5

/-- Two requests without content. -/
example : ∃ r s, Called exCfg 0 0 r s ∧ (r == .wantRead &&
    ((frames s.trace).map asFrame).all (fun f => f.type != 1 || f.flags &&& 1 != 0) &&
    (responses s.trace).all (fun x => decide (x.2.2.length < 2 ^ 24)) &&
    headerStreams ((frames s.trace).map asFrame) == [1, 3]) = true :=
  Shows.called (e := exEnv (clientPreface ++ exGet ++ [0, 0, 2, 1, 5, 0, 0, 0, 3, 0x82, 0x84]) [71, 24]) (es := [])
    (by decide +kernel)

end Sim
end Ion
