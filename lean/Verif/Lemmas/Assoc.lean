import Verif.Model.Assoc

/-! # Maps keyed by descriptor: lemmas -/

namespace Ion.Assoc
variable {V : Type}

/-- Keys in strictly increasing order. -/
def Sorted (m : Assoc V) : Prop := m.Pairwise (fun a b => a.1 < b.1)

theorem get_put (m : Assoc V) (k k' : Nat) (v : V) :
    (m.put k v).get k' = if k' = k then some v else m.get k' := by
  induction m with
  | nil => simp [put, get]
  | cons e m ih =>
    obtain ⟨a, b⟩ := e
    simp only [put]
    split
    · simp [get]
    · split
      · rename_i h1 h2
        subst h2
        simp only [get]
        split <;> rfl
      · rename_i h1 h2
        simp only [get, ih]
        by_cases h : k' = a
        · have : k' ≠ k := by omega
          simp [h]
          omega
        · simp [h]

@[simp] theorem get_put_self (m : Assoc V) (k : Nat) (v : V) : (m.put k v).get k = some v := by
  simp [get_put]

theorem get_put_ne (m : Assoc V) {k k' : Nat} (v : V) (h : k' ≠ k) :
    (m.put k v).get k' = m.get k' := by
  simp [get_put, h]

theorem get_del (m : Assoc V) (k k' : Nat) :
    (m.del k).get k' = if k' = k then none else m.get k' := by
  induction m with
  | nil => simp [del, get]
  | cons e m ih =>
    obtain ⟨a, b⟩ := e
    have ih' : get (List.filter (fun e : Nat × V => decide (e.1 ≠ k)) m) k' =
        if k' = k then none else get m k' := ih
    simp only [del, List.filter_cons]
    by_cases ha : a = k
    · subst ha
      simp only [ne_eq, not_true_eq_false, decide_false, Bool.false_eq_true, if_false, get]
      rw [show (fun e : Nat × V => decide (¬e.1 = a)) = (fun e => decide (e.1 ≠ a)) from rfl, ih']
      by_cases h : k' = a <;> simp [h]
    · simp only [ne_eq, ha, not_false_eq_true, decide_true, if_true, get]
      rw [show (fun e : Nat × V => decide (¬e.1 = k)) = (fun e => decide (e.1 ≠ k)) from rfl, ih']
      by_cases h : k' = a
      · subst h
        simp [ha]
      · simp [h]

@[simp] theorem get_del_self (m : Assoc V) (k : Nat) : (m.del k).get k = none := by simp [get_del]

theorem get_del_ne (m : Assoc V) {k k' : Nat} (h : k' ≠ k) : (m.del k).get k' = m.get k' := by
  simp [get_del, h]

theorem has_iff (m : Assoc V) (k : Nat) : m.has k = true ↔ ∃ v, m.get k = some v := by
  rw [has, Option.isSome_iff_exists]

theorem has_false_iff (m : Assoc V) (k : Nat) : m.has k = false ↔ m.get k = none := by
  rw [has]
  cases m.get k <;> simp

theorem get_mem {m : Assoc V} {k : Nat} {v : V} (h : m.get k = some v) : (k, v) ∈ m := by
  induction m with
  | nil => simp [get] at h
  | cons e m ih =>
    obtain ⟨a, b⟩ := e
    simp only [get] at h
    split at h
    · rename_i hk
      subst hk
      cases h
      simp
    · exact List.mem_cons_of_mem _ (ih h)

theorem mem_get {m : Assoc V} (hs : Sorted m) {k : Nat} {v : V} (h : (k, v) ∈ m) :
    m.get k = some v := by
  induction m with
  | nil => simp at h
  | cons e m ih =>
    obtain ⟨a, b⟩ := e
    rw [Sorted, List.pairwise_cons] at hs
    rcases List.mem_cons.1 h with h | h
    · cases h
      simp [get]
    · have := hs.1 _ h
      simp only at this
      rw [get, if_neg (by omega)]
      exact ih hs.2 h

theorem mem_put {m : Assoc V} {k : Nat} {v : V} {e : Nat × V} (h : e ∈ m.put k v) :
    e = (k, v) ∨ e ∈ m := by
  induction m with
  | nil => simpa [put] using h
  | cons x m ih =>
    obtain ⟨a, b⟩ := x
    simp only [put] at h
    split at h
    · simpa using h
    · split at h
      · rcases List.mem_cons.1 h with h | h
        · exact .inl h
        · exact .inr (List.mem_cons_of_mem _ h)
      · rcases List.mem_cons.1 h with h | h
        · exact .inr (by simp [h])
        · rcases ih h with h | h
          · exact .inl h
          · exact .inr (List.mem_cons_of_mem _ h)

theorem Sorted.put {m : Assoc V} (hs : Sorted m) (k : Nat) (v : V) : Sorted (m.put k v) := by
  induction m with
  | nil => simp [Assoc.put, Sorted]
  | cons x m ih =>
    obtain ⟨a, b⟩ := x
    have hs' := hs
    rw [Sorted, List.pairwise_cons] at hs
    simp only [Assoc.put]
    split
    · rename_i h
      rw [Sorted, List.pairwise_cons]
      refine ⟨fun e he => ?_, hs'⟩
      rcases List.mem_cons.1 he with he | he
      · subst he; exact h
      · have := hs.1 e he
        simp only at this ⊢
        omega
    · split
      · rename_i h1 h2
        subst h2
        rw [Sorted, List.pairwise_cons]
        exact ⟨hs.1, hs.2⟩
      · rename_i h1 h2
        rw [Sorted, List.pairwise_cons]
        refine ⟨fun e he => ?_, ih hs.2⟩
        rcases mem_put he with he | he
        · subst he
          simp only
          omega
        · exact hs.1 e he

theorem Sorted.del {m : Assoc V} (hs : Sorted m) (k : Nat) : Sorted (m.del k) := hs.filter _

theorem length_put_le (m : Assoc V) (k : Nat) (v : V) : (m.put k v).length ≤ m.length + 1 := by
  induction m with
  | nil => simp [put]
  | cons x m ih =>
    obtain ⟨a, b⟩ := x
    simp only [put]
    split
    · simp
    · split
      · simp
      · simpa using ih

theorem length_put_of_get {m : Assoc V} (hs : Sorted m) {k : Nat} {v v' : V}
    (h : m.get k = some v') : (m.put k v).length = m.length := by
  induction m with
  | nil => simp [get] at h
  | cons x m ih =>
    obtain ⟨a, b⟩ := x
    have hm := get_mem h
    rw [Sorted, List.pairwise_cons] at hs
    simp only [put]
    split
    · rename_i hlt
      rcases List.mem_cons.1 hm with hm | hm
      · cases hm
        omega
      · have := hs.1 _ hm
        simp only at this
        omega
    · split
      · simp
      · rename_i h1 h2
        rw [get, if_neg h2] at h
        simp [ih hs.2 h]

theorem length_del_le (m : Assoc V) (k : Nat) : (m.del k).length ≤ m.length :=
  List.length_filter_le _ _

theorem length_del_of_get {m : Assoc V} (hs : Sorted m) {k : Nat} {v : V}
    (h : m.get k = some v) : (m.del k).length + 1 = m.length := by
  induction m with
  | nil => simp [get] at h
  | cons x m ih =>
    obtain ⟨a, b⟩ := x
    rw [Sorted, List.pairwise_cons] at hs
    simp only [del, List.filter_cons]
    by_cases hk : k = a
    · subst hk
      have : List.filter (fun e : Nat × V => decide (e.1 ≠ k)) m = m := by
        rw [List.filter_eq_self]
        intro e he
        have := hs.1 e he
        simp only at this
        simp
        omega
      simp at *
      simpa using this
    · rw [get, if_neg hk] at h
      have hn : decide (a ≠ k) = true := by simp; omega
      simp only [hn, if_true]
      simp only [List.length_cons]
      rw [← ih hs.2 h]
      rfl

theorem del_of_get_none {m : Assoc V} {k : Nat} (h : m.get k = none) : m.del k = m := by
  induction m with
  | nil => rfl
  | cons x m ih =>
    obtain ⟨a, b⟩ := x
    rw [get] at h
    split at h
    · cases h
    · rename_i hk
      have hn : decide (a ≠ k) = true := by simp; omega
      rw [del, List.filter_cons, if_pos hn]
      exact congrArg _ (ih h)

theorem ext {m m' : Assoc V} (hs : Sorted m) (hs' : Sorted m')
    (h : ∀ k, m.get k = m'.get k) : m = m' := by
  induction m generalizing m' with
  | nil =>
    cases m' with
    | nil => rfl
    | cons x m' =>
      have := h x.1
      simp [get] at this
  | cons x m ih =>
    cases m' with
    | nil =>
      have := h x.1
      simp [get] at this
    | cons y m' =>
      obtain ⟨a, b⟩ := x
      obtain ⟨c, d⟩ := y
      have h1 := h a
      have h2 := h c
      have hm := hs
      have hm' := hs'
      rw [Sorted, List.pairwise_cons] at hm hm'
      have hac : a = c := by
        rcases Nat.lt_trichotomy a c with hlt | heq | hgt
        · rw [get, if_pos rfl] at h1
          have := get_mem h1.symm
          rcases List.mem_cons.1 this with this | this
          · cases this; omega
          · have := hm'.1 _ this
            simp only at this
            omega
        · exact heq
        · rw [show get ((c, d) :: m') c = some d by simp [get]] at h2
          have := get_mem h2
          rcases List.mem_cons.1 this with this | this
          · cases this; omega
          · have := hm.1 _ this
            simp only at this
            omega
      subst hac
      simp only [get, if_true, Option.some.injEq] at h1
      subst h1
      congr 1
      refine ih hm.2 hm'.2 fun k => ?_
      have hk := h k
      simp only [get] at hk
      split at hk
      · rename_i hka
        subst hka
        have e1 : get m k = none := by
          rcases hg : get m k with _ | v
          · rfl
          · have := hm.1 _ (get_mem hg)
            simp only at this
            omega
        have e2 : get m' k = none := by
          rcases hg : get m' k with _ | v
          · rfl
          · have := hm'.1 _ (get_mem hg)
            simp only at this
            omega
        rw [e1, e2]
      · exact hk

end Ion.Assoc
