import Verif.Props.HeaderEncoderExact

/-! # C140: what a field costs on the wire, and what it costs again -/

namespace Ion
open Spec

theorem encodeLength_ne (n : Nat) : encodeLength n ≠ [] := by
  unfold encodeLength encodeInt
  rw [if_neg (by decide)]
  simp only
  split <;> simp

theorem writeLengthAndString_ne {ε : Type} {sgn : Bool} {s w : Bytes}
    (h : (writeLengthAndString sgn s : Outcome ε Bytes) = .ok w) : w ≠ [] := by
  unfold writeLengthAndString at h
  split at h
  · obtain ⟨bw, -, h⟩ := Outcome.bind_eq_ok.mp h
    simp only [Outcome.ok.injEq] at h
    subst h
    have := encodeLength_ne bw.finalize.length
    cases he : encodeLength bw.finalize.length with
    | nil => exact absurd he this
    | cons a l => simp [orFirst]
  · simp only [Outcome.ok.injEq] at h
    subst h
    simp [encodeLength_ne]

/-- C140, one field, exactly: it takes one octet if and only if it is in the static table or in the
dynamic table, and then the table stays as it is; otherwise it takes at least two octets and is put in
the table by the RFC's rule. -/
theorem C140_field (sgn : Bool) (t : DynTable) (hwf : t.WF) (h : Header) (w : Bytes) (t' : DynTable)
    (he : (encodeHeader sgn t h : Outcome FrameError _) = .ok (w, t')) :
    (w.length = 1 ↔ InStatic h ∨ h ∈ t.table) ∧ 1 ≤ w.length ∧ t'.WF ∧
    (InStatic h ∨ h ∈ t.table → t' = t) ∧
    (¬ InStatic h → h ∉ t.table → t'.abs = t.abs.add h) := by
  have hex := encodeHeader_exact (ε := FrameError) sgn t hwf h
  by_cases hin : InStatic h ∨ h ∈ t.table
  · obtain ⟨w1, h1⟩ := hex.1 hin
    have hl : w.length = 1 := by
      unfold encodeHeader at he
      split at he
      · simp only [Outcome.ok.injEq, Prod.mk.injEq] at he
        rw [← he.1]; rfl
      · rename_i hs
        split at he
        · simp only [Outcome.ok.injEq, Prod.mk.injEq] at he
          rw [← he.1]; rfl
        · rename_i hf
          rcases hin with hin | hin
          · exact absurd hin (findStatic_none hs)
          · exact absurd hin ((C12_find t h).2.mp hf)
    rw [h1] at he
    simp only [Outcome.ok.injEq, Prod.mk.injEq] at he
    refine ⟨⟨fun _ => hin, fun _ => hl⟩, by omega, he.2 ▸ hwf, fun _ => he.2.symm, ?_⟩
    intro a b
    rcases hin with hin | hin
    · exact absurd hin a
    · exact absurd hin b
  · have hns : ¬ InStatic h := fun x => hin (.inl x)
    have hnt : h ∉ t.table := fun x => hin (.inr x)
    have h2 := hex.2 hns hnt
    have hq : ¬ (sgn = true ∧ (HighString h.value ∨
          (HighString h.name ∧ ¬ NameInStatic h.name ∧ ∀ x ∈ t.table, x.name ≠ h.name))) := by
      intro hc
      rw [h2.1 hc] at he
      cases he
    obtain ⟨w1, t1, h3, h4, h5⟩ := h2.2 hq
    have hl : 2 ≤ w.length := by
      unfold encodeHeader at he
      split at he
      · rename_i i hs
        obtain ⟨a, b⟩ := findStatic_some hs
        exact absurd ⟨i + 1, by omega, b⟩ hns
      · split at he
        · rename_i i hf
          have : h ∈ t.table := by
            refine Classical.byContradiction fun hn => ?_
            rw [(C12_find t h).2.mpr hn] at hf
            simp at hf
          exact absurd this hnt
        · split at he
          · obtain ⟨v, hv, he⟩ := Outcome.bind_eq_ok.mp he
            obtain ⟨t2, -, he⟩ := Outcome.bind_eq_ok.mp he
            simp only [Outcome.ok.injEq, Prod.mk.injEq] at he
            have := List.length_pos_iff.mpr (writeLengthAndString_ne hv)
            rw [← he.1]; simp only [List.length_cons]; omega
          · split at he
            · obtain ⟨v, hv, he⟩ := Outcome.bind_eq_ok.mp he
              obtain ⟨t2, -, he⟩ := Outcome.bind_eq_ok.mp he
              simp only [Outcome.ok.injEq, Prod.mk.injEq] at he
              have := List.length_pos_iff.mpr (writeLengthAndString_ne hv)
              rw [← he.1]; simp only [List.length_cons]; omega
            · obtain ⟨n, hn, he⟩ := Outcome.bind_eq_ok.mp he
              obtain ⟨v, hv, he⟩ := Outcome.bind_eq_ok.mp he
              obtain ⟨t2, -, he⟩ := Outcome.bind_eq_ok.mp he
              simp only [Outcome.ok.injEq, Prod.mk.injEq] at he
              have := List.length_pos_iff.mpr (writeLengthAndString_ne hv)
              rw [← he.1]; simp only [List.length_cons, List.length_append]; omega
    rw [h3] at he
    simp only [Outcome.ok.injEq, Prod.mk.injEq] at he
    obtain ⟨-, rfl⟩ := he
    exact ⟨⟨fun hc => by omega, fun hc => absurd hc hin⟩, by omega, h4, fun hc => absurd hc hin,
      fun _ _ => h5⟩

theorem fit_all {limit : Nat} {l : List Header} (h : sizes l ≤ limit) : fit limit l = l :=
  isLongestFit_unique (fit_isLongestFit l limit) (isLongestFit_self h)

/-- One block: the table's invariants go on, nothing that was there is lost if there is room for all the
fields, and then every field is afterwards in one of the tables. -/
theorem encodeBlock_room (sgn : Bool) (hs : List Header) : ∀ (t : DynTable) (w : Bytes) (t' : DynTable),
    t.WF → sizes t.table + sizes hs ≤ t.maxTableSize →
    (encodeBlock sgn t hs : Outcome FrameError _) = .ok (w, t') →
    (∀ x ∈ t.table, x ∈ t'.table) ∧ (∀ h ∈ hs, InStatic h ∨ h ∈ t'.table) ∧ t'.WF ∧
      sizes t'.table ≤ sizes t.table + sizes hs ∧ t'.maxTableSize = t.maxTableSize := by
  induction hs with
  | nil =>
    intro t w t' hwf _ he
    simp only [encodeBlock, Outcome.ok.injEq, Prod.mk.injEq] at he
    obtain ⟨-, rfl⟩ := he
    exact ⟨fun _ h => h, by simp, hwf, by simp, rfl⟩
  | cons h hs ih =>
    intro t w t' hwf hroom he
    unfold encodeBlock at he
    obtain ⟨⟨b, t1⟩, h1, he⟩ := Outcome.bind_eq_ok.mp he
    obtain ⟨⟨bs, t2⟩, h2, he⟩ := Outcome.bind_eq_ok.mp he
    simp only [Outcome.ok.injEq, Prod.mk.injEq] at he
    obtain ⟨-, rfl⟩ := he
    obtain ⟨-, -, h3, h4, h5⟩ := C140_field sgn t hwf h b t1 h1
    rw [sizes_cons] at hroom
    have key : (∀ x ∈ t.table, x ∈ t1.table) ∧ (InStatic h ∨ h ∈ t1.table) ∧
        sizes t1.table + sizes hs ≤ t1.maxTableSize ∧ sizes t1.table ≤ sizes t.table + size h ∧
        t1.maxTableSize = t.maxTableSize := by
      by_cases hin : InStatic h ∨ h ∈ t.table
      · rw [h4 hin]
        exact ⟨fun _ h => h, hin, by omega, by omega, rfl⟩
      · have h6 := h5 (fun x => hin (.inl x)) (fun x => hin (.inr x))
        have h7 : t1.table = h :: t.table ∧ t1.maxTableSize = t.maxTableSize := by
          have hf : fit t.maxTableSize (h :: t.table) = h :: t.table := fit_all (by rw [sizes_cons]; omega)
          simp only [DynTable.abs, Table.add, Table.mk.injEq] at h6
          rw [hf] at h6
          exact h6
        rw [h7.1, h7.2]
        exact ⟨fun x hx => List.mem_cons_of_mem _ hx, .inr (by simp), by rw [sizes_cons]; omega,
          by rw [sizes_cons]; omega, rfl⟩
    obtain ⟨k1, k2, k3, k4, k5⟩ := key
    obtain ⟨i1, i2, i3, i4, i5⟩ := ih t1 bs t2 h3 k3 h2
    refine ⟨fun x hx => i1 x (k1 x hx), ?_, i3, by rw [sizes_cons]; omega, i5.trans k5⟩
    intro x hx
    rcases List.mem_cons.mp hx with rfl | hx
    · exact k2.imp id (i1 x)
    · exact i2 x hx

/-- Fields that are all in one of the tables: one octet each, the table stays. -/
theorem encodeBlock_known (sgn : Bool) (t : DynTable) (hwf : t.WF) (hs : List Header)
    (hk : ∀ h ∈ hs, InStatic h ∨ h ∈ t.table) :
    ∃ w, (encodeBlock sgn t hs : Outcome FrameError _) = .ok (w, t) ∧ w.length = hs.length := by
  induction hs with
  | nil => exact ⟨[], rfl, rfl⟩
  | cons h hs ih =>
    obtain ⟨w, h1⟩ := (encodeHeader_exact (ε := FrameError) sgn t hwf h).1 (hk h (by simp))
    obtain ⟨ws, h2, h3⟩ := ih fun x hx => hk x (by simp [hx])
    have h4 := (C140_field sgn t hwf h w t h1).1.mpr (hk h (by simp))
    refine ⟨w ++ ws, ?_, by simp [h3, h4]; omega⟩
    simp [encodeBlock, h1, h2]

/-- C140, partial: a list of fields that was written once is written, the next time, with one octet for
each field, and the table stays as it is, whatever other fields in between, as long as the table has room
for all of it. Missing: lists for which there is no room, for which it is false
(`C140_refuted`). -/
theorem C140_repeat_partial (sgn : Bool) (t : DynTable) (hwf : t.WF) (hs between : List Header)
    (hroom : sizes t.table + sizes hs + sizes between ≤ t.maxTableSize)
    (w w' : Bytes) (t1 t2 : DynTable)
    (h1 : (encodeBlock sgn t hs : Outcome FrameError _) = .ok (w, t1))
    (h2 : (encodeBlock sgn t1 between : Outcome FrameError _) = .ok (w', t2)) :
    ∃ w'', (encodeBlock sgn t2 hs : Outcome FrameError _) = .ok (w'', t2) ∧
      w''.length = hs.length := by
  obtain ⟨-, a2, a3, a4, a5⟩ := encodeBlock_room sgn hs t w t1 hwf (by omega) h1
  obtain ⟨b1, -, b3, -, -⟩ := encodeBlock_room sgn between t1 w' t2 a3 (by omega) h2
  exact encodeBlock_known sgn t2 b3 hs fun h hh => (a2 h hh).imp id (b1 h)

/-- The fields of a response of two fields, after another one: two octets the second time. -/
example :
    let t : DynTable := {}
    let hs : List Header := [⟨b!":status", b!"200"⟩, ⟨b!"x-powered-by", b!"ion"⟩]
    let other : List Header := [⟨b!":status", b!"404"⟩, ⟨b!"age", b!"7"⟩]
    t.WF ∧ sizes t.table + sizes hs + sizes other ≤ t.maxTableSize ∧
    ∃ w w' t1 t2, (encodeBlock true t hs : Outcome FrameError _) = .ok (w, t1) ∧
      (encodeBlock true t1 other : Outcome FrameError _) = .ok (w', t2) ∧ w.length = 16 ∧
      (encodeBlock true t2 hs : Outcome FrameError _) = .ok ([0x88, 0xbf], t2) :=
  ⟨⟨rfl, by decide +kernel⟩, by decide +kernel,
    [136, 64, 137, 242, 181, 103, 240, 91, 11, 34, 209, 250, 3, 105, 111, 110],
    [0x8d, 0x55, 0x01, 0x37],
    { table := [⟨b!"x-powered-by", b!"ion"⟩], tableSize := 47 },
    { table := [⟨b!"age", b!"7"⟩, ⟨b!"x-powered-by", b!"ion"⟩], tableSize := 83 }, by decide +kernel⟩

/-- C140, refuted: a field not in the static table that is bigger than the encoder's table is written out
in full every time: it takes more than one octet again, and leaves the table empty. -/
theorem C140_refuted_big (sgn : Bool) (h : Header) (hns : ¬ InStatic h) (t : DynTable) (hwf : t.WF)
    (hbig : t.maxTableSize < size h) (w : Bytes) (t1 : DynTable)
    (h1 : (encodeBlock sgn t [h] : Outcome FrameError _) = .ok (w, t1)) :
    t1.table = [] ∧ ∀ w' t2, (encodeBlock sgn t1 [h] : Outcome FrameError _) = .ok (w', t2) →
      t2 = t1 ∧ 2 ≤ w'.length := by
  have one : ∀ (t : DynTable) (w : Bytes) (t' : DynTable), t.WF → t.maxTableSize < size h →
      (encodeBlock sgn t [h] : Outcome FrameError _) = .ok (w, t') →
      t'.WF ∧ t'.maxTableSize = t.maxTableSize ∧ t'.table = [] ∧ 2 ≤ w.length := by
    intro t w t' hwf hbig he
    simp only [encodeBlock] at he
    obtain ⟨⟨b, t1⟩, h1, he⟩ := Outcome.bind_eq_ok.mp he
    simp only [Outcome.bind_ok, List.append_nil, Outcome.ok.injEq, Prod.mk.injEq] at he
    obtain ⟨rfl, rfl⟩ := he
    obtain ⟨g1, g2, g3, -, g5⟩ := C140_field sgn t hwf h b t1 h1
    have hnt : h ∉ t.table := by
      intro hm
      obtain ⟨a, c, e⟩ := List.append_of_mem hm
      have := hwf.1
      rw [e, sizes_append, sizes_cons] at this
      have := hwf.2
      omega
    have h6 := g5 hns hnt
    simp only [DynTable.abs, Table.add, Table.mk.injEq, fit_cons_neg (show ¬ size h ≤ t.maxTableSize by omega)] at h6
    have : b.length ≠ 1 := fun e => by
      rcases g1.mp e with e | e
      · exact hns e
      · exact hnt e
    exact ⟨g3, h6.2, h6.1, by omega⟩
  obtain ⟨a1, a2, a3, -⟩ := one t w t1 hwf hbig h1
  refine ⟨a3, fun w' t2 h2 => ?_⟩
  obtain ⟨b1, b2, b3, b4⟩ := one t1 w' t2 a1 (by omega) h2
  refine ⟨?_, b4⟩
  have e1 := a1.1
  have e2 := b1.1
  rw [a3] at e1
  rw [b3] at e2
  cases t1; cases t2
  simp_all

/-- C140, refuted: a field with a value of 65536 octets, sent first of all on a connection; the second
time it takes more than one octet. -/
theorem C140_refuted : ¬ ∀ (hs : List Header) (w : Bytes) (t1 : DynTable),
    (encodeBlock true {} hs : Outcome FrameError _) = .ok (w, t1) →
    ∃ w', (encodeBlock true t1 hs : Outcome FrameError _) = .ok (w', t1) ∧ w'.length = hs.length := by
  intro hall
  obtain ⟨v, hv, hz⟩ : ∃ v : Bytes, v.length = 65536 ∧ ∀ c ∈ v, c = 0 :=
    ⟨List.replicate 65536 0, List.length_replicate, fun _ => List.eq_of_mem_replicate⟩
  have hns : ¬ InStatic ⟨b!"x", v⟩ := by
    rintro ⟨i, hi, hs⟩
    have key : ∀ i : Fin 62, (staticEntry i.val).all (fun h => h.name != b!"x") = true := by decide +kernel
    have := key ⟨i, by omega⟩
    rw [hs] at this
    simp at this
  have hwf : ({} : DynTable).WF := ⟨rfl, Nat.zero_le _⟩
  have hlow : ¬ HighString v := by
    rintro ⟨-, c, hc, h⟩
    rw [hz c hc] at h
    exact absurd h (by decide)
  obtain ⟨w, t1, h1, -, -⟩ := ((encodeHeader_exact (ε := FrameError) true {} hwf ⟨b!"x", v⟩).2 hns
    (by simp)).2 (by
      rintro ⟨-, h | h⟩
      · exact hlow h
      · exact absurd (show 3 < 1 from h.1.1) (by decide))
  have h2 : (encodeBlock true {} [⟨b!"x", v⟩] : Outcome FrameError _) = .ok (w, t1) := by
    simp only [encodeBlock, h1, Outcome.bind_ok, List.append_nil]
  obtain ⟨w', h3, h4⟩ := hall _ w t1 h2
  have h5 := ((C140_refuted_big true _ hns {} hwf (by
    simp only [size, hv]; decide) w t1 h2).2 w' t1 h3).2
  simp only [List.length_singleton] at h4
  omega

/-- The encoder's table holds no field twice, and none of the static table. -/
theorem C140_distinct (sgn : Bool) (hs : List Header) : ∀ (t : DynTable) (w : Bytes) (t' : DynTable),
    t.WF → t.table.Nodup → (∀ x ∈ t.table, ¬ InStatic x) →
    (encodeBlock sgn t hs : Outcome FrameError _) = .ok (w, t') →
    t'.table.Nodup ∧ (∀ x ∈ t'.table, ¬ InStatic x) ∧ t'.WF := by
  induction hs with
  | nil =>
    intro t w t' hwf hn hi he
    simp only [encodeBlock, Outcome.ok.injEq, Prod.mk.injEq] at he
    obtain ⟨-, rfl⟩ := he
    exact ⟨hn, hi, hwf⟩
  | cons h hs ih =>
    intro t w t' hwf hn hi he
    unfold encodeBlock at he
    obtain ⟨⟨b, t1⟩, h1, he⟩ := Outcome.bind_eq_ok.mp he
    obtain ⟨⟨bs, t2⟩, h2, he⟩ := Outcome.bind_eq_ok.mp he
    simp only [Outcome.ok.injEq, Prod.mk.injEq] at he
    obtain ⟨-, rfl⟩ := he
    obtain ⟨-, -, h3, h4, h5⟩ := C140_field sgn t hwf h b t1 h1
    by_cases hin : InStatic h ∨ h ∈ t.table
    · exact ih t1 bs t2 h3 (h4 hin ▸ hn) (h4 hin ▸ hi) h2
    · have ha : ¬ InStatic h := fun x => hin (.inl x)
      have hb : h ∉ t.table := fun x => hin (.inr x)
      have h6 : t1.table = fit t.maxTableSize (h :: t.table) := congrArg Table.entries (h5 ha hb)
      refine ih t1 bs t2 h3 ?_ ?_ h2
      · rw [h6]
        exact (List.nodup_cons.mpr ⟨hb, hn⟩).sublist (fit_prefix _ _).sublist
      · rw [h6]
        intro x hx
        rcases List.mem_cons.mp (fit_subset hx) with rfl | h'
        · exact ha
        · exact hi x h'

end Ion
