import Verif.Props.ConnOutput

/-!
# `close()` and the GOAWAY frame (C86)
-/

namespace Ion
open Spec
namespace Sim
variable {W : Type}

/-- RFC 9113, 6.8: the last stream identifier of a GOAWAY frame for a server that has acted on the
frames `ins`: the highest-numbered stream among its requests, 0 if there are none. -/
def LastStream (ins : List Frame) (n : Nat) : Prop :=
  (∀ f ∈ ins, f.type = 1 → f.stream ≤ n) ∧ (n = 0 ∨ ∃ f ∈ ins, f.type = 1 ∧ f.stream = n)

/-- RFC 9113, 6.8: a GOAWAY frame with this last stream identifier and this error code (7 is the
frame type; 0 is NO_ERROR and 1 is PROTOCOL_ERROR). -/
def GoAwayFrame (last code : Nat) (f : Frame) : Prop :=
  f.type = 7 ∧ f.flags = 0 ∧ f.stream = 0 ∧
    ∃ a b, f.payload = a ++ b ∧ a.length = 4 ∧ b.length = 4 ∧ be a = last ∧ be b = code

/-- C86: `close()` appends one GOAWAY frame to the output, with the error code PROTOCOL_ERROR after a
protocol error and NO_ERROR otherwise, and the connection acts on no more frames. It leaves everything
else as it is, and a second `close()` does nothing. The frame's last stream identifier is always 1. -/
theorem C86_close (s : Sim W) (hs : s.st ≠ .closing) :
    ∃ f v, FrameWire f v ∧ GoAwayFrame 1 (if s.st = .protocolError then 1 else 0) f ∧
      s.close.wbuf = s.wbuf ++ v ∧ produced s.close.trace = produced s.trace ++ v ∧
      frames s.close.trace = frames s.trace ∧ handled s.close.trace = handled s.trace ∧
      s.close.st = .closing ∧ s.close.rbuf = s.rbuf ∧ s.close.dec = s.dec ∧ s.close.enc = s.enc ∧
      s.close.last = s.last ∧ s.close.world = s.world ∧ s.close.close = s.close := by
  rw [close_eq s hs]
  refine ⟨goawayFrame s.st, _, goaway_wire _, ?_, rfl, ?_, ?_, ?_, rfl, rfl, rfl, rfl, rfl, rfl, ?_⟩
  · refine ⟨rfl, rfl, rfl, ?_⟩
    by_cases h : s.st = .protocolError
    · exact ⟨[0, 0, 0, 1], [0, 0, 0, 1], by simp [goawayFrame, h]; decide, rfl, rfl, by decide, by simp [h]; decide⟩
    · exact ⟨[0, 0, 0, 1], [0, 0, 0, 0], by simp [goawayFrame, h]; decide, rfl, rfl, by decide, by simp [h]; decide⟩
  · simp [enq]
  · simp [enq, frames, goawayChunks]
  · simp [enq, handled, goawayChunks]
  · exact close_closing _ rfl

/-- C86 as a claim about the last stream identifier is false: after a request on stream 3, `close()`
still says 1. A client may then take the request for unprocessed, and send it again. -/
theorem C86_refuted : ∃ calls s f v, run exCfg calls (init 0 0) = .ok s ∧ s.st ≠ .closing ∧
    FrameWire f v ∧ produced s.close.trace = produced s.trace ++ v ∧
    (handled s.trace).length = 1 ∧ LastStream ((frames s.trace).map asFrame) 3 ∧
    ∀ n code, GoAwayFrame n code f → ¬ LastStream ((frames s.trace).map asFrame) n := by
  obtain ⟨calls, s, h1, h2⟩ := Shows.run (cfg := exCfg) (w := 0)
    (p := fun s => frames s.trace == [⟨⟨2, 1, 5, 3⟩, [0x82, 0x84]⟩] && (handled s.trace).length == 1 &&
      s.st == .awaitingFrame)
    (e := exEnv (clientPreface ++ [0, 0, 2, 1, 5, 0, 0, 0, 3, 0x82, 0x84]) [71]) (es := []) (by decide +kernel)
  simp only [Bool.and_eq_true, beq_iff_eq] at h2
  obtain ⟨⟨h2, h3⟩, h4⟩ := h2
  have hs : s.st ≠ .closing := by rw [h4]; simp
  obtain ⟨f, v, k1, k2, -, k3, -⟩ := C86_close s hs
  have hl : ((frames s.trace).map asFrame) = [⟨1, 5, 3, [0x82, 0x84]⟩] := by rw [h2]; rfl
  refine ⟨calls, s, f, v, h1, hs, k1, k3, h3, ?_, ?_⟩
  · rw [hl]
    exact ⟨by simp, .inr ⟨_, List.mem_singleton.mpr rfl, rfl, rfl⟩⟩
  · rw [hl]
    rintro n code ⟨-, -, -, a, b, m1, m2, m3, m4, m5⟩ ⟨hc, -⟩
    obtain ⟨-, -, -, a', b', n1, n2, n3, n4, n5⟩ := k2
    obtain ⟨rfl, rfl⟩ := List.append_inj (m1.symm.trans n1) (by omega)
    have := hc _ (List.mem_singleton.mpr rfl) rfl
    simp only at this
    omega

/-- C86, what holds: the identifier is right exactly if the highest-numbered request was on stream 1.
Missing: all other connections. -/
theorem C86_last_partial (cfg : Cfg W) (calls : List Call) (w : W) (now : Nat) (s : Sim W)
    (_h : run cfg calls (init w now) = .ok s) (hs : s.st ≠ .closing) :
    (∃ f v n, FrameWire f v ∧ GoAwayFrame n (if s.st = .protocolError then 1 else 0) f ∧
      produced s.close.trace = produced s.trace ++ v ∧
      LastStream ((frames s.close.trace).map asFrame) n) ↔
    LastStream ((frames s.trace).map asFrame) 1 := by
  obtain ⟨f, v, h1, h2, -, h3, h4, -⟩ := C86_close s hs
  constructor
  · rintro ⟨f', v', n, k1, k2, k3, k4⟩
    rw [h4] at k4
    have hv : v' = v := List.append_cancel_left (k3.symm.trans h3)
    subst hv
    have hf : f' = f := (k1.unique h1 (r := []) (r' := []) rfl).1
    subst hf
    obtain ⟨-, -, -, a, b, m1, m2, m3, m4, m5⟩ := h2
    obtain ⟨-, -, -, a', b', n1, n2, n3, n4, n5⟩ := k2
    obtain ⟨rfl, rfl⟩ := List.append_inj (m1.symm.trans n1) (by omega)
    have : n = 1 := by omega
    exact this ▸ k4
  · intro hl
    exact ⟨f, v, 1, h1, h2, h3, by rw [h4]; exact hl⟩

/-- A connection that has acted on one request, on stream 1. -/
example : ∃ calls s, run exCfg calls (init 0 0) = .ok s ∧ s.st ≠ .closing ∧
    LastStream ((frames s.trace).map asFrame) 1 := by
  obtain ⟨calls, s, h1, h2⟩ := Shows.run (cfg := exCfg) (w := 0)
    (p := fun s => frames s.trace == [⟨⟨2, 1, 5, 1⟩, [0x82, 0x84]⟩] && s.st == .awaitingFrame)
    (e := exEnv (clientPreface ++ exGet) [71]) (es := []) (by decide +kernel)
  simp only [Bool.and_eq_true, beq_iff_eq] at h2
  refine ⟨calls, s, h1, by rw [h2.2]; simp, ?_⟩
  rw [h2.1]
  exact ⟨by simp [asFrame], .inr ⟨_, List.mem_singleton.mpr rfl, rfl, rfl⟩⟩

end Sim
end Ion
