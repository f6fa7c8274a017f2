import Verif.Model.KeyLog

/-! # C141: TLS secrets go where they were asked for, and nowhere else -/

namespace Ion
namespace KeyLog

/-- The lines written to a file: those of the calls made while the variable named it. -/
def Spec.linesFor (name : Bytes) (l : List (Option Bytes × Bytes)) : List Bytes :=
  (l.filter fun c => c.1 == some name).map (·.2)

/-- Lines as text. -/
def Spec.text (lines : List Bytes) : Bytes := lines.flatMap fun l => l ++ [0x0a]

theorem calls_opens (l : List (Option Bytes × Bytes)) : ∀ d, (calls d l).opens = d.opens := by
  induction l with
  | nil => intro d; rfl
  | cons c l ih =>
    intro d
    show (calls (callback d c.1 c.2) l).opens = _
    rw [ih]
    rcases c with ⟨_ | n, line⟩
    · rfl
    · simp only [callback, append]; split <;> rfl

/-- C141. After any calls, a file that can be opened holds what it held before and then the lines of the
calls made while the variable named it, in order, one to a line; a file that cannot be opened, or that
no call named, is as it was. -/
theorem C141_keylog (l : List (Option Bytes × Bytes)) : ∀ (d : Disk) (name : Bytes),
    (d.opens name = true → Spec.linesFor name l ≠ [] →
      (calls d l).content name = some ((d.content name).getD [] ++ Spec.text (Spec.linesFor name l))) ∧
    (d.opens name = false ∨ Spec.linesFor name l = [] → (calls d l).content name = d.content name) := by
  induction l with
  | nil => intro d name; exact ⟨fun _ h => absurd rfl h, fun _ => rfl⟩
  | cons c l ih =>
    intro d name
    have hc : calls d (c :: l) = calls (callback d c.1 c.2) l := rfl
    have ho : (callback d c.1 c.2).opens = d.opens := calls_opens [c] d
    obtain ⟨h1, h2⟩ := ih (callback d c.1 c.2) name
    rw [ho] at h1 h2
    rw [hc]
    by_cases hn : c.1 = some name
    · have hl : Spec.linesFor name (c :: l) = c.2 :: Spec.linesFor name l := by
        simp [Spec.linesFor, hn]
      rw [hl]
      refine ⟨fun hop _ => ?_, fun h => ?_⟩
      · have hcb : (callback d c.1 c.2).content name = some ((d.content name).getD [] ++ c.2 ++ [0x0a]) := by
          rw [hn]; simp [callback, append, hop]
        by_cases he : Spec.linesFor name l = []
        · rw [h2 (.inr he), hcb, he]; simp [Spec.text]
        · rw [h1 hop he, hcb]; simp [Spec.text]
      · rcases h with h | h
        · rw [h2 (.inl h), hn]; simp [callback, append, h]
        · cases h
    · have hl : Spec.linesFor name (c :: l) = Spec.linesFor name l := by
        simp [Spec.linesFor, hn]
      have hcb : (callback d c.1 c.2).content name = d.content name := by
        rcases c with ⟨_ | n, line⟩
        · rfl
        · have : name ≠ n := fun e => hn (by rw [e])
          simp only [callback, append]
          split
          · simp [this]
          · rfl
      rw [hl]
      refine ⟨fun hop he => by rw [h1 hop he, hcb], fun h => by rw [h2 h, hcb]⟩

/-- C141: without the variable nothing is written at all. -/
theorem C141_not_asked (d : Disk) (l : List (Option Bytes × Bytes)) (h : ∀ c ∈ l, c.1 = none) :
    calls d l = d := by
  induction l generalizing d with
  | nil => rfl
  | cons c l ih =>
    show calls (callback d c.1 c.2) l = d
    rw [h c (by simp)]
    exact ih d fun x hx => h x (by simp [hx])

/-- Two secrets of which one is asked for, into a file that has a line. -/
example : let d : Disk := { opens := fun n => n == b!"/k", content := fun n => if n = b!"/k" then some b!"a\n" else none }
    let l := [(some b!"/k", b!"CLIENT_RANDOM 1 2"), (none, b!"CLIENT_RANDOM 3 4")]
    d.opens b!"/k" = true ∧ Spec.linesFor b!"/k" l ≠ [] ∧
    (calls d l).content b!"/k" = some b!"a\nCLIENT_RANDOM 1 2\n" ∧ (calls d l).content b!"/x" = none := by
  decide +kernel

end KeyLog
end Ion
