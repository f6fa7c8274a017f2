import Verif.Model.DynamicTable
import Verif.Spec.Hpack

namespace Ion
open Spec

@[simp] theorem sizes_nil : sizes [] = 0 := rfl
@[simp] theorem sizes_cons (h : Header) (l : List Header) : sizes (h :: l) = size h + sizes l := by
  simp [sizes]
theorem sizes_append (a b : List Header) : sizes (a ++ b) = sizes a + sizes b := by
  simp [sizes]
theorem size_pos (h : Header) : 0 < size h := by simp [size]

theorem sizes_prefix {a b : List Header} (h : a <+: b) : sizes a ≤ sizes b := by
  obtain ⟨c, rfl⟩ := h; rw [sizes_append]; omega

theorem fit_cons_pos {limit : Nat} {h : Header} {t : List Header} (hs : size h ≤ limit) :
    fit limit (h :: t) = h :: fit (limit - size h) t := by
  simp only [fit]; rw [if_pos hs]

theorem fit_cons_neg {limit : Nat} {h : Header} {t : List Header} (hs : ¬ size h ≤ limit) :
    fit limit (h :: t) = [] := by
  simp only [fit]; rw [if_neg hs]

theorem fit_isLongestFit (l : List Header) : ∀ limit, IsLongestFit limit l (fit limit l) := by
  induction l with
  | nil => intro limit; exact ⟨by simp [fit], by simp [fit], by intro p hp _; simpa [fit] using hp⟩
  | cons h t ih =>
    intro limit
    simp only [fit]
    by_cases hs : size h ≤ limit
    · rw [if_pos hs]
      obtain ⟨h1, h2, h3⟩ := ih (limit - size h)
      refine ⟨(List.prefix_cons_inj h).mpr h1, by simp; omega, ?_⟩
      intro p hp hfit
      cases p with
      | nil => simp
      | cons c p =>
        obtain ⟨rfl, hp'⟩ := List.cons_prefix_cons.mp hp
        have := h3 p hp' (by simp at hfit; omega)
        simp; omega
    · rw [if_neg hs]
      refine ⟨by simp, by simp, ?_⟩
      intro p hp hfit
      cases p with
      | nil => simp
      | cons c p =>
        obtain ⟨rfl, hp'⟩ := List.cons_prefix_cons.mp hp
        simp at hfit; omega

theorem isLongestFit_unique {limit : Nat} {l a b : List Header} (ha : IsLongestFit limit l a)
    (hb : IsLongestFit limit l b) : a = b := by
  have h1 := ha.2.2 b hb.1 hb.2.1
  have h2 := hb.2.2 a ha.1 ha.2.1
  have e1 := List.prefix_iff_eq_take.mp ha.1
  have e2 := List.prefix_iff_eq_take.mp hb.1
  rw [e1, e2, Nat.le_antisymm h2 h1]

theorem isLongestFit_self {limit : Nat} {l : List Header} (h : sizes l ≤ limit) :
    IsLongestFit limit l l :=
  ⟨List.prefix_rfl, h, fun _ hp _ => hp.length_le⟩

theorem isLongestFit_dropLast {limit : Nat} {l kept : List Header} (h : limit < sizes l)
    (hk : IsLongestFit limit l.dropLast kept) : IsLongestFit limit l kept := by
  refine ⟨hk.1.trans (List.dropLast_prefix l), hk.2.1, ?_⟩
  intro p hp hfit
  apply hk.2.2 p _ hfit
  have hne : p ≠ l := by rintro rfl; omega
  have hlt : p.length < l.length := by
    rcases Nat.lt_or_ge p.length l.length with h | h
    · exact h
    · exact absurd (hp.eq_of_length_le h) hne
  rw [List.prefix_iff_eq_take.mp hp, List.dropLast_eq_take]
  exact List.take_prefix_take_left (by omega)

namespace DynTable

/-- The accounting invariant. -/
def WF (t : DynTable) : Prop := t.tableSize = sizes t.table ∧ t.tableSize ≤ t.maxTableSize

/-- Abstraction to the specification. -/
def abs (t : DynTable) : Table := { entries := t.table, max := t.maxTableSize }

theorem entrySize_eq (h : Header) : entrySize h = size h := rfl

theorem evict_spec {ε : Type} (n : Nat) : ∀ (t : DynTable) (need : Nat), t.table.length = n →
    t.tableSize = sizes t.table → need ≤ t.maxTableSize →
    ∃ t', (t.evict need : Outcome ε DynTable) = .ok t' ∧ t'.maxTableSize = t.maxTableSize ∧
      t'.tableSize = sizes t'.table ∧ IsLongestFit (t.maxTableSize - need) t.table t'.table := by
  induction n with
  | zero =>
    intro t need hn hsz hneed
    have hnil : t.table = [] := List.length_eq_zero_iff.mp hn
    rw [evict, if_neg (by rw [hsz, hnil]; simpa using hneed)]
    exact ⟨t, rfl, rfl, hsz, isLongestFit_self (by rw [hnil]; simp)⟩
  | succ n ih =>
    intro t need hn hsz hneed
    rw [evict]
    by_cases hgt : t.tableSize + need > t.maxTableSize
    · rw [if_pos hgt]
      have hne : t.table ≠ [] := by intro e; simp [e] at hn
      split
      · rename_i hlast
        simp at hlast; exact absurd hlast hne
      · rename_i last hlast
        have hl : t.table = t.table.dropLast ++ [last] := by
          have := List.dropLast_concat_getLast hne
          rw [List.getLast?_eq_some_getLast hne] at hlast
          simp only [Option.some.injEq] at hlast
          rw [hlast] at this; exact this.symm
        have hs : sizes t.table = sizes t.table.dropLast + size last := by
          conv => lhs; rw [hl]
          rw [sizes_append]; simp
        obtain ⟨t', h1, h2, h3, h4⟩ := ih
          { t with tableSize := t.tableSize - entrySize last, table := t.table.dropLast } need
          (by simp [hn]) (by simp only [entrySize_eq]; omega) hneed
        refine ⟨t', h1, h2, h3, ?_⟩
        exact isLongestFit_dropLast (by omega) h4
    · rw [if_neg hgt]
      exact ⟨t, rfl, rfl, hsz, isLongestFit_self (by omega)⟩

theorem insert_spec {ε : Type} (t : DynTable) (h : Header) (hwf : t.WF) :
    ∃ t', (t.insert h : Outcome ε DynTable) = .ok t' ∧ t'.WF ∧ t'.abs = t.abs.add h := by
  obtain ⟨hsz, hle⟩ := hwf
  simp only [insert]
  rw [entrySize_eq]
  by_cases hbig : size h > t.maxTableSize
  · rw [if_pos hbig]
    refine ⟨_, rfl, ⟨rfl, Nat.zero_le _⟩, ?_⟩
    show Table.mk [] _ = Table.mk (fit t.maxTableSize (h :: t.table)) _
    rw [fit_cons_neg (by omega)]; rfl
  · rw [if_neg hbig]
    obtain ⟨t', h1, h2, h3, h4⟩ := evict_spec (ε := ε) _ t (size h) rfl hsz (by omega)
    rw [h1]
    have hfit : t'.table = fit (t.maxTableSize - size h) t.table :=
      isLongestFit_unique h4 (fit_isLongestFit _ _)
    refine ⟨_, rfl, ⟨?_, ?_⟩, ?_⟩
    · simp [h3]; omega
    · have := h4.2.1
      simp only [h2, h3]; omega
    · show Table.mk (h :: t'.table) t'.maxTableSize = Table.mk (fit t.maxTableSize (h :: t.table)) _
      rw [fit_cons_pos (by omega), hfit, h2]; rfl

theorem setMax_spec {ε : Type} (t : DynTable) (n : Nat) (hwf : t.WF) :
    ∃ t', (t.setMaxTableSize n : Outcome ε DynTable) = .ok t' ∧ t'.WF ∧
      t'.abs = t.abs.resize n := by
  obtain ⟨hsz, -⟩ := hwf
  obtain ⟨t', h1, h2, h3, h4⟩ := evict_spec (ε := ε) _ { t with maxTableSize := n } 0 rfl hsz
    (Nat.zero_le _)
  refine ⟨t', h1, ⟨h3, ?_⟩, ?_⟩
  · have := h4.2.1
    simp only at h2 this; omega
  · simp only [abs, Table.resize]
    rw [isLongestFit_unique h4 (fit_isLongestFit _ _), h2]; rfl

end DynTable
end Ion
