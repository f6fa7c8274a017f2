import Verif.Lemmas.HeaderDecoder

/-! # Facts about executing header blocks, and about tables after failed blocks -/

namespace Ion
open Spec

theorem execReps_cons {limit : Nat} {T T' : Table} {r : Rep} {rs : List Rep} {out : List Header} :
    execReps limit T (r :: rs) = some (out, T') ↔
      ∃ o1 T1 o2, execRep limit T r = some (o1, T1) ∧ execReps limit T1 rs = some (o2, T') ∧
        out = o1 ++ o2 := by
  simp only [execReps]
  split
  · rename_i h; simp [h]
  · rename_i o1 T1 h
    simp only [h, Option.some.injEq, Prod.mk.injEq, Option.map_eq_some_iff, Prod.exists]
    constructor
    · rintro ⟨o2, T2, h2, rfl, rfl⟩
      exact ⟨o1, T1, o2, ⟨rfl, rfl⟩, h2, rfl⟩
    · rintro ⟨_, _, o2, ⟨rfl, rfl⟩, h2, rfl⟩
      exact ⟨o2, T', h2, rfl, rfl⟩

theorem execReps_append {limit : Nat} (rs1 rs2 : List Rep) : ∀ {T T1 T2 : Table}
    {o1 o2 : List Header}, execReps limit T rs1 = some (o1, T1) →
    execReps limit T1 rs2 = some (o2, T2) →
    execReps limit T (rs1 ++ rs2) = some (o1 ++ o2, T2) := by
  induction rs1 with
  | nil =>
    intro T T1 T2 o1 o2 h1 h2
    simp only [execReps, Option.some.injEq, Prod.mk.injEq] at h1
    obtain ⟨rfl, rfl⟩ := h1
    simpa using h2
  | cons r rs ih =>
    intro T T1 T2 o1 o2 h1 h2
    obtain ⟨a, Ta, b, ha, hb, rfl⟩ := execReps_cons.mp h1
    exact execReps_cons.mpr ⟨a, Ta, b ++ o2, ha, ih hb h2, by simp⟩

theorem BlockWire.append {d : Dialect} {rs1 rs2 : List Rep} {w1 w2 : Bytes}
    (h1 : BlockWire d rs1 w1) (h2 : BlockWire d rs2 w2) : BlockWire d (rs1 ++ rs2) (w1 ++ w2) := by
  induction h1 with
  | nil => simpa using h2
  | cons r rs w ws h hs ih => rw [List.append_assoc]; exact .cons _ _ _ _ h ih

theorem fit_prefix (limit : Nat) (l : List Header) : fit limit l <+: l := (fit_isLongestFit l limit).1

theorem fit_subset {limit : Nat} {l : List Header} {h : Header} (hm : h ∈ fit limit l) : h ∈ l :=
  (fit_prefix limit l).subset hm

theorem fit_sizes (limit : Nat) (l : List Header) : sizes (fit limit l) ≤ limit :=
  (fit_isLongestFit l limit).2.1

/-- Prefixes are preserved by `fit` with a smaller limit. -/
theorem fit_mono {m n : Nat} {a b : List Header} (hab : a <+: b) (hmn : m ≤ n) :
    fit m a <+: fit n b := by
  have ha := fit_isLongestFit a m
  have hb := fit_isLongestFit b n
  have hp : fit m a <+: b := ha.1.trans hab
  exact List.prefix_of_prefix_length_le hp hb.1 (hb.2.2 _ hp (by have := ha.2.1; omega))

/-- Size updates keep the maximum within the protocol's limit. -/
theorem execRep_max {limit : Nat} {T T' : Table} {r : Rep} {o : List Header}
    (h : execRep limit T r = some (o, T')) (hm : T.max ≤ limit) : T'.max ≤ limit := by
  cases r with
  | indexed i =>
    simp only [execRep, Option.map_eq_some_iff, Prod.mk.injEq] at h
    obtain ⟨_, _, _, rfl⟩ := h; exact hm
  | literal mode n v =>
    simp only [execRep, Option.map_eq_some_iff, Prod.mk.injEq] at h
    obtain ⟨_, _, _, rfl⟩ := h
    split
    · exact hm
    · exact hm
  | sizeUpdate n =>
    simp only [execRep] at h
    split at h
    · simp only [Option.some.injEq, Prod.mk.injEq] at h
      obtain ⟨_, rfl⟩ := h; assumption
    · simp at h

theorem execReps_max {limit : Nat} (rs : List Rep) : ∀ {T T' : Table} {o : List Header},
    execReps limit T rs = some (o, T') → T.max ≤ limit → T'.max ≤ limit := by
  induction rs with
  | nil =>
    intro T T' o h hm
    simp only [execReps, Option.some.injEq, Prod.mk.injEq] at h
    obtain ⟨_, rfl⟩ := h; exact hm
  | cons r rs ih =>
    intro T T' o h hm
    obtain ⟨a, Ta, b, ha, hb, rfl⟩ := execReps_cons.mp h
    exact ih hb (execRep_max ha hm)

theorem execRep_count {limit : Nat} {T T' : Table} {r : Rep} {o : List Header}
    (h : execRep limit T r = some (o, T')) : o.length ≤ 1 := by
  cases r with
  | indexed i =>
    simp only [execRep, Option.map_eq_some_iff, Prod.mk.injEq] at h
    obtain ⟨_, _, rfl, _⟩ := h; simp
  | literal mode n v =>
    simp only [execRep, Option.map_eq_some_iff, Prod.mk.injEq] at h
    obtain ⟨_, _, rfl, _⟩ := h; simp
  | sizeUpdate n =>
    simp only [execRep] at h
    split at h
    · simp only [Option.some.injEq, Prod.mk.injEq] at h
      obtain ⟨rfl, _⟩ := h; simp
    · simp at h

theorem execReps_count {limit : Nat} {rs : List Rep} {w : Bytes}
    (hw : BlockWire Dialect.lenient rs w) : ∀ {T T' : Table} {o : List Header},
    execReps limit T rs = some (o, T') → o.length ≤ w.length := by
  induction hw with
  | nil =>
    intro T T' o h
    simp only [execReps, Option.some.injEq, Prod.mk.injEq] at h
    obtain ⟨rfl, _⟩ := h; simp
  | cons r rs w ws h hs ih =>
    intro T T' o he
    obtain ⟨a, Ta, b, ha, hb, rfl⟩ := execReps_cons.mp he
    have := execRep_count ha
    have := ih hb
    have := repWire_length h
    simp only [List.length_append]; omega

/-- Both strings of a header within the limit. -/
def Header.Short (h : Header) : Prop := h.name.length ≤ 4096 ∧ h.value.length ≤ 4096

theorem staticEntry_short : ∀ i : Fin 62, ∀ h, staticEntry i.val = some h → h.Short := by
  unfold Header.Short
  intro i
  have : ∀ i : Fin 62, (staticEntry i.val).all
      (fun h => decide (h.name.length ≤ 4096 ∧ h.value.length ≤ 4096)) = true := by decide +kernel
  intro h hh
  have := this i
  rw [hh] at this
  simpa using this

theorem lookup_short {T : Table} (hT : ∀ h ∈ T.entries, h.Short) {i : Nat} {h : Header}
    (hl : T.lookup i = some h) : h.Short := by
  simp only [Table.lookup] at hl
  split at hl
  · exact staticEntry_short ⟨i, by omega⟩ h hl
  · exact hT h (List.mem_of_getElem? hl)

theorem strWire_short {s w : Bytes} (h : StrWire Dialect.lenient s w) : s.length ≤ 4096 := by
  cases h with
  | plain _ _ hs => exact hs
  | huffman _ _ _ _ hs => exact hs

theorem execReps_short {limit : Nat} {rs : List Rep} {w : Bytes}
    (hw : BlockWire Dialect.lenient rs w) : ∀ {T T' : Table} {o : List Header},
    execReps limit T rs = some (o, T') → (∀ h ∈ T.entries, h.Short) →
    (∀ h ∈ o, h.Short) ∧ ∀ h ∈ T'.entries, h.Short := by
  induction hw with
  | nil =>
    intro T T' o h hT
    simp only [execReps, Option.some.injEq, Prod.mk.injEq] at h
    obtain ⟨rfl, rfl⟩ := h; exact ⟨by simp, hT⟩
  | cons r rs w ws h hs ih =>
    intro T T' o he hT
    obtain ⟨a, Ta, b, ha, hb, rfl⟩ := execReps_cons.mp he
    have hstep : (∀ h ∈ a, h.Short) ∧ ∀ h ∈ Ta.entries, h.Short := by
      have hadd : ∀ (hd : Header) (mode : Indexing), hd.Short →
          ∀ h ∈ (if mode = Indexing.incremental then T.add hd else T).entries, h.Short := by
        intro hd mode hsh h hm
        split at hm
        · rcases List.mem_cons.mp (fit_subset hm) with rfl | h'
          · exact hsh
          · exact hT h h'
        · exact hT h hm
      cases h with
      | indexed i _ hint =>
        simp only [execRep, Option.map_eq_some_iff, Prod.mk.injEq] at ha
        obtain ⟨hd, hl, rfl, rfl⟩ := ha
        exact ⟨by simpa using lookup_short hT hl, hT⟩
      | literalIndexed mode i value wi wv h0 hint hv =>
        simp only [execRep, Option.map_eq_some_iff, Prod.mk.injEq] at ha
        obtain ⟨n, ⟨hd, hl, rfl⟩, rfl, rfl⟩ := ha
        have hsh : Header.Short ⟨hd.name, value⟩ := ⟨(lookup_short hT hl).1, strWire_short hv⟩
        exact ⟨by simpa using hsh, hadd _ mode hsh⟩
      | literalNew mode n value wi wn wv hint hn hv =>
        simp only [execRep, Option.map_some, Option.some.injEq, Prod.mk.injEq] at ha
        obtain ⟨rfl, rfl⟩ := ha
        have hsh : Header.Short ⟨n, value⟩ := ⟨strWire_short hn, strWire_short hv⟩
        exact ⟨by simpa using hsh, hadd _ mode hsh⟩
      | sizeUpdate n _ hint =>
        simp only [execRep] at ha
        split at ha
        · simp only [Option.some.injEq, Prod.mk.injEq] at ha
          obtain ⟨rfl, rfl⟩ := ha
          exact ⟨by simp, fun h hm => hT h (fit_subset hm)⟩
        · simp at ha
    have hrest := ih hb hstep.2
    refine ⟨?_, hrest.2⟩
    intro h hm
    rcases List.mem_append.mp hm with h' | h'
    · exact hstep.1 h h'
    · exact hrest.1 h h'

/-- A failed block leaves the table as its accepted beginning left it. -/
theorem decodeLoop_err (fuel : Nat) : ∀ (t : DynTable) (r : Bytes) (acc : List Header)
    (e : FrameError) (t' : DynTable), t.WF → decodeLoop fuel t r acc = .err e t' →
    t'.WF ∧ ∃ reps w r' out, r = w ++ r' ∧ BlockWire Dialect.lenient reps w ∧
      execReps sizeLimit t.abs reps = some (out, t'.abs) := by
  induction fuel with
  | zero =>
    intro t r acc e t' hwf h
    cases r with
    | nil => simp [decodeLoop] at h
    | cons b r =>
      simp only [decodeLoop, BlockRes.err.injEq] at h
      obtain ⟨-, rfl⟩ := h
      exact ⟨hwf, [], [], _, [], rfl, .nil, rfl⟩
  | succ fuel ih =>
    intro t r acc e t' hwf h
    cases r with
    | nil => simp [decodeLoop] at h
    | cons b r =>
      simp only [decodeLoop] at h
      split at h
      · rename_i hs1 t1 r1 hf
        obtain ⟨hwf1, rep, w, hr, hw, he⟩ := decodeField_sound hwf hf
        obtain ⟨hwf', reps, w', r', out, hr1, hb, hex⟩ := ih _ _ _ _ _ hwf1 h
        exact ⟨hwf', rep :: reps, w ++ w', r', hs1 ++ out, by simp [hr, hr1],
          .cons _ _ _ _ hw hb, execReps_cons.mpr ⟨_, _, _, he, hex, rfl⟩⟩
      · simp only [BlockRes.err.injEq] at h
        obtain ⟨-, rfl⟩ := h
        exact ⟨hwf, [], [], _, [], rfl, .nil, rfl⟩
      · simp at h

/-- The iteration bound passed by `decodeBlock` always suffices: more would change nothing. -/
theorem decodeLoop_fuel (n : Nat) : ∀ (t : DynTable) (r : Bytes) (acc : List Header) (f g : Nat),
    t.WF → r.length ≤ n → r.length ≤ f → r.length ≤ g →
    decodeLoop f t r acc = decodeLoop g t r acc := by
  induction n with
  | zero =>
    intro t r acc f g hwf hn hf hg
    have : r = [] := List.length_eq_zero_iff.mp (by omega)
    subst this
    simp [decodeLoop]
  | succ n ih =>
    intro t r acc f g hwf hn hf hg
    cases r with
    | nil => simp [decodeLoop]
    | cons b r =>
      simp only [List.length_cons] at hn hf hg
      obtain ⟨f, rfl⟩ := Nat.exists_eq_succ_of_ne_zero (show f ≠ 0 by omega)
      obtain ⟨g, rfl⟩ := Nat.exists_eq_succ_of_ne_zero (show g ≠ 0 by omega)
      simp only [decodeLoop]
      split
      · rename_i hs1 t1 r1 hfield
        obtain ⟨hwf1, rep, w, hr, hw, he⟩ := decodeField_sound hwf hfield
        have := repWire_length hw
        have := congrArg List.length hr
        simp only [List.length_cons, List.length_append] at this
        exact ih t1 r1 _ f g hwf1 (by omega) (by omega) (by omega)
      · rfl
      · rfl

theorem decodeBlock_fuel (t : DynTable) (hwf : t.WF) (data : Bytes) (fuel : Nat)
    (h : data.length ≤ fuel) : decodeLoop fuel t data [] = decodeBlock t data :=
  decodeLoop_fuel data.length t data [] fuel data.length hwf (Nat.le_refl _) h (Nat.le_refl _)

/-- Running a valid beginning of a block. -/
theorem decodeLoop_prefix (reps : List Rep) : ∀ (fuel : Nat) (t : DynTable) (w r : Bytes)
    (acc out : List Header) (T : Table), t.WF → (w ++ r).length ≤ fuel →
    BlockWire Dialect.lenient reps w → execReps sizeLimit t.abs reps = some (out, T) →
    ∃ fuel' t', decodeLoop fuel t (w ++ r) acc = decodeLoop fuel' t' r (acc ++ out) ∧
      r.length ≤ fuel' ∧ t'.WF ∧ t'.abs = T := by
  induction reps with
  | nil =>
    intro fuel t w r acc out T hwf hl hb he
    cases hb
    simp only [execReps, Option.some.injEq, Prod.mk.injEq] at he
    obtain ⟨rfl, rfl⟩ := he
    exact ⟨fuel, t, by simp, by simpa using hl, hwf, rfl⟩
  | cons rep reps ih =>
    intro fuel t w r acc out T hwf hl hb he
    cases hb with
    | cons _ _ w ws hw hws =>
      obtain ⟨o1, T1, o2, he1, he2, rfl⟩ := execReps_cons.mp he
      obtain ⟨b, w', t1, rfl, hf, hwf1, habs⟩ := decodeField_complete hwf hw he1 (ws ++ r)
      subst habs
      cases fuel with
      | zero => simp at hl
      | succ fuel =>
        obtain ⟨fuel', t', h1, h2, h3, h4⟩ := ih fuel t1 ws r (acc ++ o1) o2 T hwf1
          (by simp at hl ⊢; omega) hws he2
        refine ⟨fuel', t', ?_, h2, h3, h4⟩
        simp only [List.cons_append, List.append_assoc, decodeLoop]
        simp only [List.cons_append] at hf
        rw [hf]
        simp only
        rw [h1]; simp

theorem huffEncodes_lenient {data s : Bytes} (h : HuffEncodes data s) : HuffLenient data s := by
  obtain ⟨pad, h1, h2, -⟩ := h
  exact ⟨pad, h1, .inr h2⟩

theorem strWire_limited {s w : Bytes} (h : StrWire Dialect.limited s w) :
    StrWire Dialect.lenient s w := by
  cases h with
  | plain len h hs => exact .plain len h hs
  | huffman len data h hd hs => exact .huffman len data h (huffEncodes_lenient hd) hs

theorem repWire_limited {r : Rep} {w : Bytes} (h : RepWire Dialect.limited r w) :
    RepWire Dialect.lenient r w := by
  cases h with
  | indexed i _ h => exact .indexed i _ h
  | literalIndexed mode i v wi wv h0 h hv =>
    exact .literalIndexed mode i v wi wv h0 h (strWire_limited hv)
  | literalNew mode n v wi wn wv h hn hv =>
    exact .literalNew mode n v wi wn wv h (strWire_limited hn) (strWire_limited hv)
  | sizeUpdate n _ h => exact .sizeUpdate n _ h

theorem blockWire_limited {rs : List Rep} {w : Bytes} (h : BlockWire Dialect.limited rs w) :
    BlockWire Dialect.lenient rs w := by
  induction h with
  | nil => exact .nil
  | cons r rs w ws h hs ih => exact .cons r rs w ws (repWire_limited h) ih

theorem lookup_none_iff {T : Table} {i : Nat} :
    T.lookup i = none ↔ i = 0 ∨ 61 + T.entries.length < i := by
  have hst : ∀ i : Fin 62, staticEntry i.val = none ↔ i.val = 0 := by decide +kernel
  simp only [Table.lookup]
  split
  · rw [hst ⟨i, by omega⟩]; simp only; omega
  · rw [List.getElem?_eq_none_iff]; omega

/-- A smaller table that holds the newest entries of a bigger one. -/
def Within (Tc Td : Table) : Prop := Tc.entries <+: Td.entries ∧ Tc.max ≤ Td.max

theorem lookup_within {Tc Td : Table} (h : Within Tc Td) {i : Nat} {hd : Header}
    (hl : Tc.lookup i = some hd) : Td.lookup i = some hd := by
  simp only [Table.lookup] at hl ⊢
  split
  · rename_i hi; simpa [hi] using hl
  · rename_i hi
    simp only [hi, if_false] at hl
    obtain ⟨hlt, hg⟩ := List.getElem?_eq_some_iff.mp hl
    rw [List.getElem?_eq_some_iff]
    exact ⟨Nat.lt_of_lt_of_le hlt h.1.length_le, by rw [← hg, h.1.getElem hlt]⟩

theorem execRep_within {lc ld : Nat} (hlim : lc ≤ ld) {Tc Td Tc' : Table} (hw : Within Tc Td)
    {r : Rep} {o : List Header} (h : execRep lc Tc r = some (o, Tc')) :
    ∃ Td', execRep ld Td r = some (o, Td') ∧ Within Tc' Td' := by
  have hadd : ∀ (hd : Header) (mode : Indexing),
      Within (if mode = Indexing.incremental then Tc.add hd else Tc)
        (if mode = Indexing.incremental then Td.add hd else Td) := by
    intro hd mode
    split
    · exact ⟨fit_mono (List.cons_prefix_cons.mpr ⟨rfl, hw.1⟩) hw.2, hw.2⟩
    · exact hw
  cases r with
  | indexed i =>
    simp only [execRep, Option.map_eq_some_iff, Prod.mk.injEq] at h
    obtain ⟨hd, hl, rfl, rfl⟩ := h
    exact ⟨Td, by simp [execRep, lookup_within hw hl], hw⟩
  | literal mode n v =>
    cases n with
    | index i =>
      simp only [execRep, Option.map_eq_some_iff, Prod.mk.injEq] at h
      obtain ⟨n, ⟨hd, hl, rfl⟩, rfl, rfl⟩ := h
      exact ⟨_, by simp [execRep, lookup_within hw hl], hadd _ mode⟩
    | new n =>
      simp only [execRep, Option.map_some, Option.some.injEq, Prod.mk.injEq] at h
      obtain ⟨rfl, rfl⟩ := h
      exact ⟨_, by simp [execRep], hadd _ mode⟩
  | sizeUpdate n =>
    simp only [execRep] at h
    split at h
    · simp only [Option.some.injEq, Prod.mk.injEq] at h
      obtain ⟨rfl, rfl⟩ := h
      exact ⟨Td.resize n, by simp only [execRep]; rw [if_pos (by omega)],
        fit_mono hw.1 (Nat.le_refl _), Nat.le_refl _⟩
    · simp at h

theorem execReps_within {lc ld : Nat} (hlim : lc ≤ ld) (rs : List Rep) : ∀ {Tc Td Tc' : Table}
    {o : List Header}, Within Tc Td → execReps lc Tc rs = some (o, Tc') →
    ∃ Td', execReps ld Td rs = some (o, Td') ∧ Within Tc' Td' := by
  induction rs with
  | nil =>
    intro Tc Td Tc' o hw h
    simp only [execReps, Option.some.injEq, Prod.mk.injEq] at h
    obtain ⟨rfl, rfl⟩ := h
    exact ⟨Td, rfl, hw⟩
  | cons r rs ih =>
    intro Tc Td Tc' o hw h
    obtain ⟨a, Ta, b, ha, hb, rfl⟩ := execReps_cons.mp h
    obtain ⟨Tb, h1, h2⟩ := execRep_within hlim hw ha
    obtain ⟨Td', h3, h4⟩ := ih h2 hb
    exact ⟨Td', execReps_cons.mpr ⟨_, _, _, h1, h3, rfl⟩, h4⟩

end Ion
