import Verif.Lemmas.DynamicTable

/-! # C10-C12: the dynamic table -/

namespace Ion
open Spec

/-- Operations of the table's interface that change it. -/
inductive TableOp where
  | insert (h : Header)
  | setMax (n : Nat)

/-- One operation on the model. -/
def TableOp.run (t : DynTable) : TableOp → Outcome FrameError DynTable
  | .insert h => t.insert h
  | .setMax n => t.setMaxTableSize n

/-- A sequence of operations on the model. -/
def runOps : DynTable → List TableOp → Outcome FrameError DynTable
  | t, [] => .ok t
  | t, op :: ops => do
    let t ← op.run t
    runOps t ops

/-- The specification of one operation: longest-prefix eviction. -/
def TableOp.spec (t : Table) : TableOp → Table
  | .insert h => t.add h
  | .setMax n => t.resize n

theorem runOps_spec (ops : List TableOp) : ∀ t : DynTable, t.WF →
    ∃ t', runOps t ops = .ok t' ∧ t'.WF ∧ t'.abs = ops.foldl TableOp.spec t.abs := by
  induction ops with
  | nil => intro t h; exact ⟨t, rfl, h, rfl⟩
  | cons op ops ih =>
    intro t h
    have : ∃ t', op.run t = .ok t' ∧ t'.WF ∧ t'.abs = op.spec t.abs := by
      cases op with
      | insert hd => exact DynTable.insert_spec t hd h
      | setMax n => exact DynTable.setMax_spec t n h
    obtain ⟨t1, h1, h2, h3⟩ := this
    obtain ⟨t2, g1, g2, g3⟩ := ih t1 h2
    refine ⟨t2, ?_, g2, ?_⟩
    · simp only [runOps, h1, Outcome.bind_ok]; exact g1
    · rw [g3, h3]; rfl

/-- C10: from an empty table of any maximum, after any operations, nothing undefined happened, the
reported size is the sum of the entry sizes and within the current maximum. -/
theorem C10_accounting (max : Nat) (ops : List TableOp) :
    ∃ t, runOps { maxTableSize := max } ops = .ok t ∧
      t.tableSize = (t.table.map fun h => h.name.length + h.value.length + 32).sum ∧
      t.tableSize ≤ t.maxTableSize := by
  obtain ⟨t, h1, h2, -⟩ := runOps_spec ops { maxTableSize := max } ⟨rfl, Nat.zero_le _⟩
  exact ⟨t, h1, h2.1, h2.2⟩

/-- A history in which an insertion evicts, one wipes the table, and a resize evicts. -/
example : runOps { maxTableSize := 80 }
    [.insert ⟨b!"a", b!"b"⟩, .insert ⟨b!"c", b!"d"⟩, .insert ⟨b!"eeee", b!"ffff"⟩, .setMax 40] =
      .ok { table := [⟨b!"eeee", b!"ffff"⟩], tableSize := 40, maxTableSize := 40 } := by
  decide +kernel

/-- C11: after an insertion the entries are the longest prefix of the new header followed by the old
entries that fits; after a resize, of the old entries. For every table reachable by C10. -/
theorem C11_fifo (max : Nat) (ops : List TableOp) (t : DynTable)
    (ht : runOps { maxTableSize := max } ops = .ok t) :
    (∀ h, ∃ t', (t.insert h : Outcome FrameError DynTable) = .ok t' ∧
      t'.maxTableSize = t.maxTableSize ∧
      IsLongestFit t.maxTableSize (h :: t.table) t'.table) ∧
    (∀ n, ∃ t', (t.setMaxTableSize n : Outcome FrameError DynTable) = .ok t' ∧
      t'.maxTableSize = n ∧ IsLongestFit n t.table t'.table) := by
  obtain ⟨t0, h1, h2, -⟩ := runOps_spec ops { maxTableSize := max } ⟨rfl, Nat.zero_le _⟩
  obtain rfl : t0 = t := by rw [ht] at h1; simpa using h1.symm
  constructor
  · intro h
    obtain ⟨t', g1, -, g3⟩ := DynTable.insert_spec (ε := FrameError) t0 h h2
    refine ⟨t', g1, congrArg Table.max g3, ?_⟩
    have := congrArg Table.entries g3
    rw [show t'.table = fit t0.maxTableSize (h :: t0.table) from this]
    exact fit_isLongestFit _ _
  · intro n
    obtain ⟨t', g1, -, g3⟩ := DynTable.setMax_spec (ε := FrameError) t0 n h2
    refine ⟨t', g1, congrArg Table.max g3, ?_⟩
    have := congrArg Table.entries g3
    rw [show t'.table = fit n t0.table from this]
    exact fit_isLongestFit _ _

/-- C12: `find` gives the first position of an equal entry, `get` there returns it; nothing is found
exactly when no entry is equal. -/
theorem C12_find (t : DynTable) (h : Header) :
    (∀ i, t.find h = some i ↔ (t.get i : Outcome FrameError Header) = .ok h ∧
      ∀ j, j < i → (t.get j : Outcome FrameError Header) ≠ .ok h) ∧
    (t.find h = none ↔ h ∉ t.table) := by
  have hb : ∀ x : Header, (h.name == x.name && h.value == x.value) = true ↔ x = h := by
    intro x
    obtain ⟨hn, hv⟩ := h
    obtain ⟨xn, xv⟩ := x
    simp only [Bool.and_eq_true, beq_iff_eq, Header.mk.injEq]
    exact ⟨fun h => ⟨h.1.symm, h.2.symm⟩, fun h => ⟨h.1.symm, h.2.symm⟩⟩
  have hget : ∀ i, (t.get i : Outcome FrameError Header) = .ok h ↔ t.table[i]? = some h := by
    intro i
    simp only [DynTable.get]
    split <;> simp_all
  constructor
  · intro i
    simp only [hget, ne_eq]
    rw [DynTable.find, List.findIdx?_eq_some_iff_getElem]
    constructor
    · rintro ⟨hi, h1, h2⟩
      refine ⟨by rw [List.getElem?_eq_getElem hi, (hb _).mp h1], ?_⟩
      intro j hj hc
      have hjl : j < t.table.length := by omega
      rw [List.getElem?_eq_getElem hjl] at hc
      have := h2 j hj
      rw [(hb _).mpr (by simpa using hc)] at this
      exact this rfl
    · rintro ⟨h1, h2⟩
      obtain ⟨hi, h1'⟩ := List.getElem?_eq_some_iff.mp h1
      refine ⟨hi, (hb _).mpr h1', ?_⟩
      intro j hj hc
      have hjl : j < t.table.length := by omega
      exact h2 j hj (by rw [List.getElem?_eq_getElem hjl, (hb _).mp hc])
  · rw [DynTable.find, List.findIdx?_eq_none_iff]
    constructor
    · intro hall hm
      have := hall h hm
      rw [(hb h).mpr rfl] at this; cases this
    · intro hn x hx
      cases hc : (h.name == x.name && h.value == x.value) with
      | false => rfl
      | true => exact absurd ((hb x).mp hc ▸ hx) hn

/-- C12: the same for `find_name`. -/
theorem C12_find_name (t : DynTable) (n : Bytes) :
    (∀ i, t.findName n = some i ↔
      (∃ v, (t.get i : Outcome FrameError Header) = .ok ⟨n, v⟩) ∧
      ∀ j, j < i → ∀ v, (t.get j : Outcome FrameError Header) ≠ .ok ⟨n, v⟩) ∧
    (t.findName n = none ↔ ∀ h ∈ t.table, h.name ≠ n) := by
  have hget : ∀ i h, (t.get i : Outcome FrameError Header) = .ok h ↔ t.table[i]? = some h := by
    intro i h
    simp only [DynTable.get]
    split <;> simp_all
  constructor
  · intro i
    simp only [hget, ne_eq]
    rw [DynTable.findName, List.findIdx?_eq_some_iff_getElem]
    constructor
    · rintro ⟨hi, h1, h2⟩
      refine ⟨⟨t.table[i].value, ?_⟩, ?_⟩
      · rw [List.getElem?_eq_getElem hi]
        have : n = t.table[i].name := by simpa using h1
        conv => rhs; rw [this]
      · intro j hj v hc
        have hjl : j < t.table.length := by omega
        rw [List.getElem?_eq_getElem hjl] at hc
        have := h2 j hj
        simp only [Option.some.injEq] at hc
        rw [hc] at this; simp at this
    · rintro ⟨⟨v, h1⟩, h2⟩
      obtain ⟨hi, h1'⟩ := List.getElem?_eq_some_iff.mp h1
      refine ⟨hi, by simp [h1'], ?_⟩
      intro j hj hc
      have hjl : j < t.table.length := by omega
      refine h2 j hj t.table[j].value ?_
      rw [List.getElem?_eq_getElem hjl]
      have : n = t.table[j].name := by simpa using hc
      conv => rhs; rw [this]
  · rw [DynTable.findName, List.findIdx?_eq_none_iff]
    constructor
    · intro hall h hm e
      have := hall h hm
      simp [e] at this
    · intro hn x hx
      have := hn x hx
      simpa using fun h => this h.symm

example : ({ table := [⟨b!"a", b!"1"⟩, ⟨b!"b", b!"2"⟩, ⟨b!"a", b!"2"⟩] } : DynTable).find ⟨b!"a", b!"2"⟩
      = some 2 ∧
    ({ table := [⟨b!"a", b!"1"⟩, ⟨b!"b", b!"2"⟩] } : DynTable).findName b!"b" = some 1 := by
  decide +kernel

end Ion
