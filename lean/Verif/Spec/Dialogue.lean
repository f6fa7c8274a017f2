import Verif.Spec.Frames

/-!
# Specification: what a server may send on a stream, RFC 9113 sections 5.1 and 8.1
-/

namespace Ion.Spec

/-- A step of a dialogue, seen from the server: a frame of the client it acts on, or a frame it sends. -/
inductive Turn
  | got (f : Frame)
  | sent (f : Frame)
deriving DecidableEq, Repr

/-- Section 5.1: a frame that ends the stream for its sender: DATA or HEADERS with END_STREAM, or RST_STREAM. -/
def EndsStream (f : Frame) : Prop := ((f.type = 0 ∨ f.type = 1) ∧ f.flags &&& 1 ≠ 0) ∨ f.type = 3

instance (f : Frame) : Decidable (EndsStream f) := inferInstanceAs (Decidable (_ ∨ _))

/-- Sections 5.1 and 8.1: a server may send DATA or HEADERS after `h` only on a stream the client has opened with
HEADERS and not reset, and which it has not ended itself; DATA only after HEADERS; and HEADERS again only to end the
stream with trailers. -/
def MaySend (h : List Turn) (f : Frame) : Prop :=
  f.type = 0 ∨ f.type = 1 →
    f.stream ≠ 0 ∧
    (∃ c, Turn.got c ∈ h ∧ c.type = 1 ∧ c.stream = f.stream) ∧
    (∀ c, Turn.got c ∈ h → c.stream = f.stream → c.type ≠ 3) ∧
    (∀ o, Turn.sent o ∈ h → o.stream = f.stream → ¬ EndsStream o) ∧
    (f.type = 0 → ∃ o, Turn.sent o ∈ h ∧ o.type = 1 ∧ o.stream = f.stream) ∧
    (f.type = 1 → (∀ o, Turn.sent o ∈ h → o.stream = f.stream → o.type ≠ 1) ∨ f.flags &&& 1 ≠ 0)

/-- Every frame the server sends is one it may send then. -/
def KeepsStates (h : List Turn) : Prop := ∀ h1 f h2, h = h1 ++ .sent f :: h2 → MaySend h1 f

/-- Every HEADERS frame opens a stream that has not been used before. -/
def OpensFresh (fs : List Frame) : Prop :=
  ∀ pre f post, fs = pre ++ f :: post → f.type = 1 →
    f.stream ≠ 0 ∧ ∀ g ∈ pre, g.stream = f.stream → g.type ≠ 1 ∧ g.type ≠ 3

/-- A request with content, answered before the content has come: allowed. -/
example : KeepsStates [.got ⟨1, 4, 1, []⟩, .sent ⟨1, 4, 1, []⟩, .sent ⟨0, 1, 1, [7]⟩, .got ⟨0, 1, 1, [1]⟩] := by
  intro h1 f h2 h
  match h1, h with
  | [], h => simp at h
  | [_], h =>
    simp only [List.cons_append, List.nil_append, List.cons.injEq, Turn.sent.injEq] at h
    obtain ⟨rfl, rfl, -⟩ := h
    exact fun _ => ⟨by decide, ⟨⟨1, 4, 1, []⟩, by simp, rfl, rfl⟩, by simp, by simp, by simp, by simp⟩
  | [_, _], h =>
    simp only [List.cons_append, List.nil_append, List.cons.injEq, Turn.sent.injEq] at h
    obtain ⟨rfl, rfl, rfl, -⟩ := h
    exact fun _ => ⟨by decide, ⟨⟨1, 4, 1, []⟩, by simp, rfl, rfl⟩, by simp, by simp [EndsStream]; decide,
      fun _ => ⟨⟨1, 4, 1, []⟩, by simp, rfl, rfl⟩, by simp⟩
  | [_, _, _], h => simp at h
  | _ :: _ :: _ :: _ :: h1, h => simp at h

/-- Two responses on one stream are not. -/
example : ¬ KeepsStates [.got ⟨1, 5, 1, []⟩, .sent ⟨1, 5, 1, []⟩, .got ⟨1, 5, 1, []⟩, .sent ⟨1, 5, 1, []⟩] := fun h =>
  ((h [.got ⟨1, 5, 1, []⟩, .sent ⟨1, 5, 1, []⟩, .got ⟨1, 5, 1, []⟩] _ [] rfl (.inr rfl)).2.2.2.1 ⟨1, 5, 1, []⟩
    (by simp) rfl) (by decide)

end Ion.Spec
