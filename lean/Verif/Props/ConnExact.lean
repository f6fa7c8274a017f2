import Verif.Props.ConnConform
import Verif.Props.ConnServe
import Verif.Props.HeaderDecoder

/-!
# Exactly when: frame sizes (C90), malformed control frames (C91)
-/

namespace Ion
open Spec
namespace Sim
variable {W : Type}

/-! ### C90 -/

/-- C90, exactly: the frames sent are within 16384 octets if and only if the field blocks of all responses
are. (The length field of a frame has room for 2^24 - 1: C22.) -/
theorem C90_exact (cfg : Cfg W) (w : W) (now : Nat) (r : ProcRes) (s : Sim W) (h : Called cfg w now r s)
    (hb : ∀ x ∈ responses s.trace, x.2.2.length < 2 ^ 24) :
    (∃ outs, FramesWire outs (produced s.trace) ∧ FitsFrameSize outs) ↔
      ∀ x ∈ responses s.trace, x.2.2.length ≤ 16384 := by
  refine ⟨?_, C90_sizes_partial cfg w now r s h⟩
  rintro ⟨outs', h1, h2⟩ x hx
  obtain ⟨good, bad, first, outs, extra, k1, k2, k3, k4, k5, k6⟩ := C31_replies cfg w now r s h hb
  obtain rfl := h1.det k3
  obtain ⟨f, hm, he⟩ := k2.block_sent _ (List.mem_map_of_mem hx)
  have := h2 f (by simp [hm])
  rw [he] at this
  exact this

/-! ### C91 -/

/-- C91, exactly: of the forbidden frames ion refuses those that no server could read (SETTINGS of a length
that is not a multiple of six, and HEADERS with an unreadable field block) and no others. It does not
notice anything else: a DATA, PING or WINDOW_UPDATE frame changes nothing, a SETTINGS frame is
acknowledged, a HEADERS frame is answered. -/
theorem C91_exact (cfg : Cfg W) (s s' : Sim W) (f : FrameReader) (hst : s.st = .awaitingFrame)
    (hwf : s.dec.WF) (hx : Forbidden (asFrame f)) (h : processFrame cfg s f = .ok s') :
    (s'.st = .awaitingFrame ↔ ¬ Unacceptable s.dec.abs (asFrame f)) ∧
    (s'.st ≠ .awaitingFrame → s'.st = .protocolError) ∧
    (f.header.type ≠ 1 → f.header.type ≠ 4 → s' = s) ∧
    (f.header.type = 4 → f.header.flags &&& 1 ≠ 0 → s' = s) := by
  have h7 : f.header.type ≠ 7 := by
    intro h7
    simp [Forbidden, asFrame, h7] at hx
  have h41 : ∀ t : UInt8, t = 4 → t ≠ 1 := by rintro t rfl; decide
  have h81 : ∀ t : UInt8, t = 8 → t ≠ 1 ∧ t ≠ 4 := by rintro t rfl; decide
  cases processFrame_ok h with
  | settingsAck ht hf =>
    refine ⟨⟨fun _ => ?_, fun _ => hst⟩, fun h => absurd hst h, fun _ h => absurd ht h, fun _ _ => rfl⟩
    rintro (⟨⟨-, k⟩, -⟩ | ⟨k, -⟩)
    · exact hf k
    · exact h41 _ ht k
  | settings l ht hf hl =>
    refine ⟨⟨fun _ => ?_, fun _ => hst⟩, fun h => absurd hst h, fun _ h => absurd ht h, fun _ h => absurd hf h⟩
    rintro (⟨-, k⟩ | ⟨k, -⟩)
    · exact k (readSettings_len hl)
    · exact h41 _ ht k
  | badSettings e ht hf hl =>
    refine ⟨⟨by simp, fun k => absurd (.inl ⟨⟨ht, hf⟩, readSettings_err hl⟩) k⟩, fun _ => rfl,
      fun _ h => absurd ht h, fun _ h => absurd hf h⟩
  | badHeaders block e dec' ht hbk hdc =>
    exact ⟨⟨by simp, fun k => absurd (unacceptable_of_err hwf ht hbk hdc) k⟩, fun _ => rfl,
      fun h => absurd ht h, fun h => absurd ht (h41 _ h)⟩
  | request data hs dec' resp evs w' block enc' ht hbk hd hr he =>
    refine ⟨⟨fun _ => ?_, fun _ => hst⟩, fun h => absurd hst h, fun h => absurd ht h,
      fun h => absurd ht (h41 _ h)⟩
    rintro (⟨⟨k, -⟩, -⟩ | ⟨-, block', hb', hn⟩)
    · exact h41 _ k ht
    · obtain rfl := FieldBlock.unique (FieldBlock.of_headersBlock hbk) hb'
      obtain ⟨reps, q1, q2, -⟩ := C13_decode_sound _ _ hwf _ _ hd
      exact hn _ _ ⟨reps, q1, q2⟩
  | windowUpdate u ht hu =>
    refine ⟨⟨fun _ => ?_, fun _ => hst⟩, fun h => absurd hst h, fun _ _ => rfl, fun _ _ => rfl⟩
    rintro (⟨⟨k, -⟩, -⟩ | ⟨k, -⟩)
    · exact (h81 _ ht).2 k
    · exact (h81 _ ht).1 k
  | goaway ht => exact absurd ht h7
  | other h1 h4 _ h8 =>
    refine ⟨⟨fun _ => ?_, fun _ => hst⟩, fun h => absurd hst h, fun _ _ => rfl, fun _ _ => rfl⟩
    rintro (⟨⟨k, -⟩, -⟩ | ⟨k, -⟩)
    · exact h4 k
    · exact h1 k

/-- A PING frame of one octet, and a SETTINGS frame of one. -/
example : Forbidden (asFrame ⟨⟨1, 6, 0, 0⟩, [1]⟩) ∧
    (∃ s', processFrame exCfg { init 0 0 with st := .awaitingFrame } ⟨⟨1, 6, 0, 0⟩, [1]⟩ = .ok s' ∧
      s'.st = .awaitingFrame) ∧
    Forbidden (asFrame ⟨⟨1, 4, 0, 0⟩, [1]⟩) ∧
    (∃ s', processFrame exCfg { init 0 0 with st := .awaitingFrame } ⟨⟨1, 4, 0, 0⟩, [1]⟩ = .ok s' ∧
      s'.st = .protocolError) :=
  ⟨by decide, ⟨_, rfl, rfl⟩, by decide, ⟨_, rfl, rfl⟩⟩

end Sim
end Ion
