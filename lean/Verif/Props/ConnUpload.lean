import Verif.Props.ConnFlow
import Verif.Props.ConnConform

/-! # What a connection sends, and what it lets a client send (C106, C107) -/

namespace Ion
namespace Sim
open Spec
variable {W : Type}

theorem Replies.sorts {ins : List Frame} {rs : List (Nat × Bytes × Bytes)} {outs : List Frame}
    (h : Replies ins rs outs) : ∀ f ∈ outs, f.type = 4 ∧ f.stream = 0 ∧ f.flags = 1 ∧ f.payload = [] ∨
      ((f.type = 1 ∨ f.type = 0) ∧ ∃ g ∈ ins, g.type = 1 ∧ g.stream = f.stream) := by
  induction h with
  | nil => simp
  | settings ins rs outs g h ht hf hl ih =>
    intro f hm
    rcases List.mem_append.mp hm with hm | hm
    · rcases ih f hm with h | ⟨h, g', h1, h2⟩
      · exact .inl h
      · exact .inr ⟨h, g', by simp [h1], h2⟩
    · obtain rfl := List.mem_singleton.mp hm
      exact .inl ⟨rfl, rfl, rfl, rfl⟩
  | request ins rs outs g block body ds h ht hd ih =>
    intro f hm
    rcases List.mem_append.mp hm with hm | hm
    · rcases ih f hm with h | ⟨h, g', h1, h2⟩
      · exact .inl h
      · exact .inr ⟨h, g', by simp [h1], h2⟩
    · rcases List.mem_cons.mp hm with rfl | hm
      · exact .inr ⟨.inl rfl, g, by simp, ht, rfl⟩
      · exact .inr ⟨.inr (hd.data f hm).1, g, by simp, ht, (hd.data f hm).2.1.symm⟩
  | other ins rs outs g h h1 h4 ih =>
    intro f hm
    rcases ih f hm with h | ⟨h, g', h1, h2⟩
    · exact .inl h
    · exact .inr ⟨h, g', by simp [h1], h2⟩

/-- C106: a connection sends four kinds of frames only: the SETTINGS frame of its preface, SETTINGS ACKs, HEADERS
and DATA on streams on which it has received HEADERS, and GOAWAY frames. -/
theorem C106_kinds (cfg : Cfg W) (w : W) (now : Nat) (r : ProcRes) (s : Sim W)
    (h : Called cfg w now r s) (hb : ∀ x ∈ responses s.trace, x.2.2.length < 2 ^ 24)
    (outs : List Frame) (hw : FramesWire outs (produced s.trace)) (f : Frame) (hf : f ∈ outs) :
    ServerPreface f ∨ f = ⟨4, 1, 0, []⟩ ∨ (f.type = 7 ∧ f.payload.length = 8) ∨
      ((f.type = 1 ∨ f.type = 0) ∧ ∃ g ∈ (frames s.trace).map asFrame, g.type = 1 ∧ g.stream = f.stream) := by
  obtain ⟨good, bad, first, os, extra, h1, h2, h3, h4, h5, h6⟩ := C31_replies cfg w now r s h hb
  rw [FramesWire.det hw h3] at hf
  rcases List.mem_append.mp hf with hf | hf
  · rcases List.mem_append.mp hf with hf | hf
    · rcases h4 with ⟨rfl, -⟩ | ⟨g, rfl, hg⟩
      · simp at hf
      · obtain rfl := List.mem_singleton.mp hf
        exact .inl hg
    · rcases Replies.sorts h2 f hf with ⟨k1, k2, k3, k4⟩ | ⟨k1, g, k2, k3⟩
      · refine .inr (.inl ?_)
        obtain ⟨a, b, c, d⟩ := f
        simp only at k1 k2 k3 k4
        rw [k1, k2, k3, k4]
      · exact .inr (.inr (.inr ⟨k1, g, by rw [h1]; simp at k2 ⊢; grind, k3⟩))
  · rcases h6 with rfl | ⟨-, g, rfl, hg, hl⟩
    · simp at hf
    · obtain rfl := List.mem_singleton.mp hf
      exact .inr (.inr (.inl ⟨hg, hl⟩))

/-- A connection that has sent its preface, an ACK, HEADERS and DATA. -/
example : ∃ r s, Called exCfg 0 0 r s ∧ ((responses s.trace).all (fun x => decide (x.2.2.length < 2 ^ 24)) &&
    (responses s.trace).length == 1 && (produced s.trace).length == 80) = true :=
  Shows.called (e := exEnv (clientPreface ++ exSettings ++ exGet) [36, 44]) (es := []) (by decide +kernel)

/-- C107, "a client can send as much data as it likes, as long as the server reads it", refuted for every
connection and every application: as no WINDOW_UPDATE frame is ever sent, a client that keeps to the windows
cannot send more than 65535 octets of DATA during the whole life of the connection. -/
theorem C107_refuted (cfg : Cfg W) (w : W) (now : Nat) (r : ProcRes) (s : Sim W)
    (h : Called cfg w now r s) (hb : ∀ x ∈ responses s.trace, x.2.2.length < 2 ^ 24)
    (outs : List Frame) (hw : FramesWire outs (produced s.trace)) :
    (∀ stream, increments stream outs = 0) ∧
    (FitsWindows outs ((frames s.trace).map asFrame) → dataOctets ((frames s.trace).map asFrame) ≤ 65535) := by
  have key : ∀ stream, increments stream outs = 0 := by
    intro stream
    have : outs.filter (fun f => f.type == 8 && f.stream == stream) = [] := by
      rw [List.filter_eq_nil_iff]
      intro f hf
      have h8 : f.type ≠ 8 := by
        rcases C106_kinds cfg w now r s h hb outs hw f hf with k | rfl | ⟨k, -⟩ | ⟨k | k, -⟩
        · rw [k.1]; decide
        · decide
        · rw [k]; decide
        · rw [k]; decide
        · rw [k]; decide
      simp [h8]
    rw [increments, this]
    rfl
  refine ⟨key, fun hf => ?_⟩
  have := hf.1
  rw [key 0] at this
  omega

/-- C107, what holds: DATA frames are accepted at any time: they change nothing of the connection, whatever
their stream and their size. Missing: the window is never opened again. -/
theorem C107_ignored_partial (cfg : Cfg W) (s : Sim W) (f : FrameReader) (h : f.header.type = 0) :
    processFrame cfg s f = .ok s := by
  simp [processFrame, h]

/-- A client that has sent five octets of DATA; the connection waits for more. -/
example : ∃ s, Called exCfg 0 0 .wantRead s ∧ dataOctets ((frames s.trace).map asFrame) = 5 ∧
    ∀ x ∈ responses s.trace, x.2.2.length < 2 ^ 24 := by
  obtain ⟨r, s, h1, h2⟩ : ∃ r s, Called exCfg 0 0 r s ∧ (r == .wantRead && s.wbuf == [] &&
      dataOctets ((frames s.trace).map asFrame) == 5 &&
      (responses s.trace).all (fun x => decide (x.2.2.length < 2 ^ 24))) = true :=
    Shows.called (e := exEnv (clientPreface ++ [0, 0, 2, 1, 4, 0, 0, 0, 1, 0x82, 0x84] ++
      [0, 0, 5, 0, 1, 0, 0, 0, 1, 1, 2, 3, 4, 5]) [71]) (es := []) (by decide +kernel)
  simp only [Bool.and_eq_true, beq_iff_eq, List.all_eq_true, decide_eq_true_eq] at h2
  obtain ⟨⟨⟨rfl, -⟩, h3⟩, h4⟩ := h2
  exact ⟨s, h1, h3, h4⟩

end Sim
end Ion
