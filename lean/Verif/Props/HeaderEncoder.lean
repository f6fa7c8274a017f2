import Verif.Lemmas.HeaderEncoder

/-! # C19-C21: encoding header blocks -/

namespace Ion
open Spec

/-- The encoder over several blocks. -/
def encodeBlocks (sgn : Bool) : DynTable → List (List Header) →
    Outcome FrameError (List Bytes × DynTable)
  | t, [] => .ok ([], t)
  | t, hs :: hss => do
    let (w, t) ← encodeBlock sgn t hs
    let (ws, t) ← encodeBlocks sgn t hss
    .ok (w :: ws, t)

/-- `Reads limit T0 ws hss T`: a client that follows the RFC, with limit `limit` for size updates, starting
from the table `T0`, reads the blocks `ws` as the header lists `hss` and ends with the table `T`;
and there is no other way to read them. -/
def Spec.Reads (limit : Nat) (T0 : Table) (ws : List Bytes) (hss : List (List Header)) (T : Table) :
    Prop :=
  ∃ repss : List (List Rep), repss.length = ws.length ∧
    (∀ p ∈ repss.zip ws, BlockWire Dialect.rfc p.1 p.2 ∧
      ∀ reps', BlockWire Dialect.rfc reps' p.2 → reps' = p.1) ∧
    execBlocks limit T0 repss = some (hss, T)

/-! ### C19 -/

/-- All headers fit at the moment they are encoded. -/
def Spec.FitsAll : Table → List Header → Prop
  | _, [] => True
  | T, h :: hs => IndexFits T h ∧
      ((InStatic h ∨ h ∈ T.entries) → FitsAll T hs) ∧
      (¬ InStatic h → h ∉ T.entries → FitsAll (T.add h) hs)

theorem encodeBlock_spec (sgn : Bool) (hs : List Header) : ∀ (t : DynTable), t.WF →
    (∀ h ∈ hs, Encodable sgn h.name ∧ Encodable sgn h.value) → FitsAll t.abs hs →
    ∃ w t' reps, (encodeBlock sgn t hs : Outcome FrameError (Bytes × DynTable)) = .ok (w, t') ∧
      t'.WF ∧ BlockWire Dialect.rfc reps w ∧
      ∀ limit, execReps limit t.abs reps = some (hs, t'.abs) := by
  induction hs with
  | nil => intro t hwf _ _; exact ⟨[], t, [], rfl, hwf, .nil, fun _ => rfl⟩
  | cons h hs ih =>
    intro t hwf henc hfit
    obtain ⟨w, t1, rep, h1, h2, h3, h4⟩ := encodeHeader_spec (ε := FrameError) sgn t hwf h (henc h (by simp)).1
      (henc h (by simp)).2 hfit.1
    have h5 : FitsAll t1.abs hs ∧ ∀ limit, execRep limit t.abs rep = some ([h], t1.abs) := by
      rcases h4 with ⟨rfl, hin, he⟩ | ⟨habs, hns, hnin, he⟩
      · exact ⟨hfit.2.1 hin, fun limit => he limit _ rfl⟩
      · rw [habs]; exact ⟨hfit.2.2 hns hnin, fun limit => he limit _ rfl⟩
    obtain ⟨ws, t2, reps, g1, g2, g3, g4⟩ := ih t1 h2 (fun x hx => henc x (by simp [hx])) h5.1
    refine ⟨w ++ ws, t2, rep :: reps, by simp [encodeBlock, h1, g1], g2,
      .cons _ _ _ _ (repWire_enc_rfc h3) g3, fun limit => ?_⟩
    exact execReps_cons.mpr ⟨_, _, _, h5.2 limit, g4 limit, rfl⟩

/-- C19, one block: if every index fits in one octet when it is written, the block has exactly one
reading by the RFC, which is the header list, and the client's table stays equal to the encoder's.
Missing from C19: headers for which `IndexFits` fails (see `C19_refuted_*`). -/
theorem C19_block_partial (sgn : Bool) (t : DynTable) (hwf : t.WF) (hs : List Header)
    (henc : ∀ h ∈ hs, Encodable sgn h.name ∧ Encodable sgn h.value) (hfit : FitsAll t.abs hs) :
    ∃ w t', (encodeBlock sgn t hs : Outcome FrameError (Bytes × DynTable)) = .ok (w, t') ∧ t'.WF ∧
      ∃ reps, BlockWire Dialect.rfc reps w ∧
        (∀ reps', BlockWire Dialect.rfc reps' w → reps' = reps) ∧
        ∀ limit, execReps limit t.abs reps = some (hs, t'.abs) := by
  obtain ⟨w, t', reps, h1, h2, h3, h4⟩ := encodeBlock_spec sgn hs t hwf henc hfit
  exact ⟨w, t', h1, h2, reps, h3, fun reps' h => (blockWire_unique h3 h).symm, h4⟩

/-- Headers used over a connection, other than those in the static table. At most 65 different ones, and
a name that is not in the static table always with the same value. -/
structure Spec.SmallVocabulary (U : List Header) : Prop where
  count : U.length ≤ 65
  oneValue : ∀ x ∈ U, ∀ y ∈ U, x.name = y.name → NameInStatic x.name ∨ x = y

theorem nodup_subset {l U : List Header} (hnd : l.Nodup) (hsub : ∀ h ∈ l, h ∈ U) :
    l.length ≤ U.length ∧ sizes l ≤ sizes U := by
  induction l generalizing U with
  | nil => simp
  | cons h l ih =>
    have hm := hsub h (by simp)
    have hp := List.perm_cons_erase hm
    have hsz : sizes U = size h + sizes (U.erase h) := by
      have := (hp.map size).sum_nat
      simpa [sizes] using this
    have hln : U.length = (U.erase h).length + 1 := by simpa using hp.length_eq
    have hnd' := List.nodup_cons.mp hnd
    have := ih (U := U.erase h) hnd'.2 (by
      intro x hx
      have hne : x ≠ h := by rintro rfl; exact hnd'.1 hx
      exact (List.mem_erase_of_ne hne).mpr (hsub x (by simp [hx])))
    simp only [List.length_cons, sizes_cons]
    omega

/-- Entries stay distinct and within the vocabulary. -/
def VocInv (U : List Header) (l : List Header) : Prop := l.Nodup ∧ ∀ h ∈ l, h ∈ U

theorem vocInv_fits {U : List Header} (hU : SmallVocabulary U) {T : Table} (hinv : VocInv U T.entries)
    {h : Header} (hm : h ∈ U) : IndexFits T h := by
  by_cases hin : h ∈ T.entries
  · right; left
    rw [List.take_of_length_le (Nat.le_trans (nodup_subset hinv.1 hinv.2).1 hU.count)]
    exact hin
  · right; right
    refine ⟨hin, ?_⟩
    by_cases hn : ∀ x ∈ T.entries, x.name ≠ h.name
    · exact .inr (.inl hn)
    · left
      simp only [ne_eq, Classical.not_forall, Classical.not_not] at hn
      obtain ⟨x, hx, hxn⟩ := hn
      rcases hU.oneValue x (hinv.2 x hx) h hm hxn with h1 | rfl
      · exact hxn ▸ h1
      · exact absurd hx hin

theorem static_encodable {sgn : Bool} {h : Header} (hs : InStatic h) :
    Encodable sgn h.name ∧ Encodable sgn h.value := by
  obtain ⟨i, hi, hs⟩ := hs
  have key : ∀ i : Fin 62, (staticEntry i.val).all (fun h => decide (h.name.length < 2 ^ 29) &&
      h.name.all (fun c => decide (c.toNat < 128)) && decide (h.value.length < 2 ^ 29) &&
      h.value.all (fun c => decide (c.toNat < 128))) = true := by decide +kernel
  have := key ⟨i, by omega⟩
  simp only [hs, Option.all_some, Bool.and_eq_true, decide_eq_true_eq, List.all_eq_true] at this
  exact ⟨⟨this.1.1.1, .inr (.inr this.1.1.2)⟩, this.1.2, .inr (.inr this.2)⟩

theorem vocInv_add {U : List Header} {T : Table} (hinv : VocInv U T.entries) {h : Header}
    (hm : h ∈ U) (hn : h ∉ T.entries) : VocInv U (T.add h).entries := by
  have hnd : (h :: T.entries).Nodup := List.nodup_cons.mpr ⟨hn, hinv.1⟩
  refine ⟨hnd.sublist (fit_prefix _ _).sublist, ?_⟩
  intro x hx
  rcases List.mem_cons.mp (fit_subset hx) with rfl | h'
  · exact hm
  · exact hinv.2 x h'

/-- The encoder against a client of any table limit `c` that can hold the whole vocabulary, or with
the encoder's own limit. -/
theorem encodeBlock_client {ε : Type} (sgn : Bool) (U : List Header) (hU : SmallVocabulary U)
    (henc : ∀ h ∈ U, Encodable sgn h.name ∧ Encodable sgn h.value) (hs : List Header) :
    ∀ (t : DynTable) (T : Table), t.WF → VocInv U t.table → T.entries = t.table →
      (T.max = t.maxTableSize ∨ (sizes U ≤ T.max ∧ sizes U ≤ t.maxTableSize)) →
      (∀ h ∈ hs, InStatic h ∨ h ∈ U) →
    ∃ w t' reps T', (encodeBlock sgn t hs : Outcome ε (Bytes × DynTable)) = .ok (w, t') ∧
      t'.WF ∧ VocInv U t'.table ∧ T'.entries = t'.table ∧ T'.max = T.max ∧
      t'.maxTableSize = t.maxTableSize ∧
      BlockWire Dialect.rfc reps w ∧ ∀ limit, execReps limit T reps = some (hs, T') := by
  induction hs with
  | nil =>
    intro t T hwf hinv hT hmax _
    exact ⟨[], t, [], T, rfl, hwf, hinv, hT, rfl, rfl, .nil, fun _ => rfl⟩
  | cons h hs ih =>
    intro t T hwf hinv hT hmax hsub
    have hm := hsub h (by simp)
    have hen : Encodable sgn h.name ∧ Encodable sgn h.value := hm.elim static_encodable (henc h)
    obtain ⟨w, t1, rep, h1, h2, h3, h4⟩ := encodeHeader_spec (ε := ε) sgn t hwf h hen.1 hen.2
      (hm.elim .inl (vocInv_fits hU (T := t.abs) hinv))
    have h5 : ∃ T1, VocInv U t1.table ∧ T1.entries = t1.table ∧ T1.max = T.max ∧
        t1.maxTableSize = t.maxTableSize ∧ ∀ limit, execRep limit T rep = some ([h], T1) := by
      rcases h4 with ⟨rfl, hin, he⟩ | ⟨habs, hns, hnin, he⟩
      · exact ⟨T, hinv, hT, rfl, rfl, fun limit => he limit T hT⟩
      · have hm := hm.resolve_left hns
        have hadd := vocInv_add (T := t.abs) hinv hm hnin
        have he1 : t1.table = fit t.maxTableSize (h :: t.table) := congrArg Table.entries habs
        refine ⟨T.add h, ?_, ?_, rfl, congrArg Table.max habs, fun limit => he limit T hT⟩
        · have : t1.table = (t.abs.add h).entries := congrArg Table.entries habs
          rw [this]; exact hadd
        · rw [he1]
          show fit T.max (h :: T.entries) = _
          rw [hT]
          rcases hmax with e | ⟨hc, ht⟩
          · rw [e]
          · have hnd : (h :: t.table).Nodup := List.nodup_cons.mpr ⟨hnin, hinv.1⟩
            have hsz := (nodup_subset (U := U) hnd (by
              intro x hx
              rcases List.mem_cons.mp hx with rfl | h'
              · exact hm
              · exact hinv.2 x h')).2
            rw [isLongestFit_unique (fit_isLongestFit _ _) (isLongestFit_self (Nat.le_trans hsz hc)),
              isLongestFit_unique (fit_isLongestFit _ _) (isLongestFit_self (Nat.le_trans hsz ht))]
    obtain ⟨T1, a1, a2, a3, a4, a5⟩ := h5
    obtain ⟨ws, t2, reps, T2, g1, g2, g3, g4, g5, g6, g7, g8⟩ := ih t1 T1 h2 a1 a2
      (by rw [a3, a4]; exact hmax) (fun x hx => hsub x (by simp [hx]))
    refine ⟨w ++ ws, t2, rep :: reps, T2, by simp [encodeBlock, h1, g1], g2, g3, g4, by rw [g5, a3],
      by rw [g6, a4], .cons _ _ _ _ (repWire_enc_rfc h3) g7, fun limit => ?_⟩
    exact execReps_cons.mpr ⟨_, _, _, a5 limit, g8 limit, rfl⟩

theorem encodeBlocks_client (sgn : Bool) (U : List Header) (hU : SmallVocabulary U)
    (henc : ∀ h ∈ U, Encodable sgn h.name ∧ Encodable sgn h.value) (hss : List (List Header)) :
    ∀ (t : DynTable) (T : Table), t.WF → VocInv U t.table → T.entries = t.table →
      (T.max = t.maxTableSize ∨ (sizes U ≤ T.max ∧ sizes U ≤ t.maxTableSize)) →
      (∀ hs ∈ hss, ∀ h ∈ hs, InStatic h ∨ h ∈ U) →
    ∃ ws t' T', encodeBlocks sgn t hss = .ok (ws, t') ∧ T'.entries = t'.table ∧
      ∀ limit, Reads limit T ws hss T' := by
  induction hss with
  | nil =>
    intro t T hwf hinv hT hmax _
    exact ⟨[], t, T, rfl, hT, fun _ => ⟨[], rfl, by simp, rfl⟩⟩
  | cons hs hss ih =>
    intro t T hwf hinv hT hmax hsub
    obtain ⟨w, t1, reps, T1, g1, g2, g3, g4, g5, g6, g7, g8⟩ := encodeBlock_client (ε := FrameError) sgn U hU henc hs
      t T hwf hinv hT hmax (hsub hs (by simp))
    obtain ⟨ws, t2, T2, f1, f2, f3⟩ := ih t1 T1 g2 g3 g4 (by rw [g5, g6]; exact hmax)
      (fun x hx => hsub x (by simp [hx]))
    refine ⟨w :: ws, t2, T2, by simp [encodeBlocks, g1, f1], f2, fun limit => ?_⟩
    obtain ⟨repss, k0, k1, k2⟩ := f3 limit
    refine ⟨reps :: repss, by simp [k0], ?_, by simp [execBlocks, g8 limit, k2]⟩
    intro p hp
    rcases List.mem_cons.mp (by simpa using hp) with rfl | hp
    · exact ⟨g7, fun reps' h => (blockWire_unique g7 h).symm⟩
    · exact k1 p hp

/-- C19, whole connections: if at most 65 different headers outside the static table are ever sent, and
names outside the static table always with the same value, then over any number of blocks a client with the same table
limit reads exactly the header lists, in the only possible way, and the tables stay equal.
Missing from C19: larger or more varied vocabularies (see `C19_refuted_*`). -/
theorem C19_connection_partial (sgn : Bool) (U : List Header) (hU : SmallVocabulary U)
    (henc : ∀ h ∈ U, Encodable sgn h.name ∧ Encodable sgn h.value) (hss : List (List Header))
    (hsub : ∀ hs ∈ hss, ∀ h ∈ hs, InStatic h ∨ h ∈ U) :
    ∃ ws t T, encodeBlocks sgn {} hss = .ok (ws, t) ∧ T.entries = t.table ∧
      ∀ limit, Reads limit ⟨[], 65536⟩ ws hss T :=
  encodeBlocks_client sgn U hU henc hss {} ⟨[], 65536⟩ ⟨rfl, Nat.zero_le _⟩ ⟨by simp, by simp⟩ rfl
    (.inl rfl) hsub

/-- A vocabulary like ion's: status, content-length and two custom headers. -/
example : SmallVocabulary [⟨b!":status", b!"200"⟩, ⟨b!"content-length", b!"12"⟩,
    ⟨b!"content-length", b!"13"⟩, ⟨b!"x-powered-by", b!"ion"⟩] := by
  refine ⟨by decide, ?_⟩
  intro x hx y hy hn
  have hst : NameInStatic b!"content-length" :=
    ⟨28, ⟨b!"content-length", b!""⟩, by decide, by decide +kernel, rfl⟩
  simp only [List.mem_cons, List.not_mem_nil, or_false] at hx hy
  rcases hx with rfl | rfl | rfl | rfl <;> rcases hy with rfl | rfl | rfl | rfl <;>
    first | exact .inr rfl | exact .inl hst | exact absurd hn (by decide)

/-- A short block read by the RFC is within ion's limits, so ion's decoder settles it. -/
theorem intRep_small {n flag v : Nat} {w : Bytes} (hn : n ≤ 8) (h : IntRep n flag v w)
    (hl : w.length ≤ 5) : w.length ≤ 6 ∧ v < 2 ^ 32 := by
  refine ⟨by omega, ?_⟩
  have hp8 : 2 ^ n ≤ 2 ^ 8 := Nat.pow_le_pow_right (by decide) hn
  have hcv : ∀ cs : Bytes, contValue cs < 128 ^ cs.length := by
    intro cs
    induction cs with
    | nil => simp [contValue]
    | cons b bs ih => simp only [contValue, List.length_cons, Nat.pow_succ]; omega
  cases h with
  | short b hb hv => omega
  | long b cs hb hc hv =>
    have h1 := hcv cs
    have h2 : 128 ^ cs.length ≤ 128 ^ 4 := Nat.pow_le_pow_right (by decide) (by simpa using hl)
    omega

theorem huffEncodes_short {data s : Bytes} (h : HuffEncodes data s) :
    s.length * 5 ≤ data.length * 8 := by
  obtain ⟨pad, h1, -, -⟩ := h
  have hl := congrArg List.length h1
  have : 5 * s.length ≤ (huffBits s).length := by
    clear h1 hl
    induction s with
    | nil => simp
    | cons c s ih =>
      have := (codeBits_length c).1
      rw [codeBits_eq] at this
      simp only [huffBits, List.flatMap_cons, List.length_append, List.length_cons] at ih ⊢
      omega
  simp only [bitsOf_length, List.length_append] at hl
  omega

theorem strWire_small {s w : Bytes} (h : StrWire Dialect.rfc s w) (hl : w.length ≤ 5) :
    StrWire Dialect.limited s w := by
  cases h with
  | plain len h _ =>
    simp only [List.length_append] at hl
    exact .plain len ⟨h, intRep_small (by decide) h (by omega)⟩
      (show s.length ≤ 4096 by omega)
  | huffman len data h hd _ =>
    simp only [List.length_append] at hl
    have := huffEncodes_short hd
    exact .huffman len data ⟨h, intRep_small (by decide) h (by omega)⟩ hd
      (show s.length ≤ 4096 by omega)

theorem blockWire_small {reps : List Rep} {w : Bytes} (h : BlockWire Dialect.rfc reps w)
    (hl : w.length ≤ 5) : BlockWire Dialect.limited reps w := by
  induction h with
  | nil => exact .nil
  | cons r rs w ws h hs ih =>
    simp only [List.length_append] at hl
    refine .cons r rs w ws ?_ (ih (by omega))
    have hp : ∀ mode, litPrefix mode ≤ 8 := by intro mode; cases mode <;> decide
    cases h with
    | indexed i _ h => exact .indexed i _ ⟨h, intRep_small (by decide) h (by omega)⟩
    | literalIndexed mode i v wi wv h0 h hv =>
      simp only [List.length_append] at hl
      exact .literalIndexed mode i v wi wv h0 ⟨h, intRep_small (hp mode) h (by omega)⟩
        (strWire_small hv (by omega))
    | literalNew mode n v wi wn wv h hn hv =>
      simp only [List.length_append] at hl
      exact .literalNew mode n v wi wn wv ⟨h, intRep_small (hp mode) h (by omega)⟩
        (strWire_small hn (by omega)) (strWire_small hv (by omega))
    | sizeUpdate n _ h => exact .sizeUpdate n _ ⟨h, intRep_small (by decide) h (by omega)⟩

/-- No client can read a short block as something that ion's own decoder does not read. -/
theorem no_reading {t : DynTable} (hwf : t.WF) {w : Bytes} (hl : w.length ≤ 5) {hs : List Header}
    (hd : ∀ t', decodeBlock t w ≠ .ok hs t') :
    ¬ ∃ reps T, BlockWire Dialect.rfc reps w ∧ execReps 65536 t.abs reps = some (hs, T) := by
  rintro ⟨reps, T, h1, h2⟩
  obtain ⟨t', h3, -⟩ := C14_decode_complete t hwf reps w (blockWire_small h1 hl) hs T h2
  exact hd t' h3

/-- C19, refuted by a name index. After `x-a: 1` and `x-b: 1`, the header `x-a: 2` is written with
name index 63, which does not fit in six bits: the octets 7f 01 32. No client can read them as
`x-a: 2`. -/
theorem C19_refuted_name :
    ∃ t : DynTable, t.WF ∧ (∃ w, encodeBlock true {} [⟨b!"x-a", b!"1"⟩, ⟨b!"x-b", b!"1"⟩] =
        (.ok (w, t) : Outcome FrameError _)) ∧
      (∃ t', encodeBlock true t [⟨b!"x-a", b!"2"⟩] =
        (.ok ([0x7f, 0x01, 0x32], t') : Outcome FrameError _)) ∧
      ¬ ∃ reps T, BlockWire Dialect.rfc reps [0x7f, 0x01, 0x32] ∧
        execReps 65536 t.abs reps = some ([⟨b!"x-a", b!"2"⟩], T) := by
  refine ⟨{ table := [⟨b!"x-b", b!"1"⟩, ⟨b!"x-a", b!"1"⟩], tableSize := 72 },
    ⟨by decide +kernel, by decide +kernel⟩,
    ⟨[0x40, 0x03, 0x78, 0x2d, 0x61, 0x01, 0x31, 0x40, 0x03, 0x78, 0x2d, 0x62, 0x01, 0x31],
      by decide +kernel⟩,
    ⟨{ table := [⟨b!"x-a", b!"2"⟩, ⟨b!"x-b", b!"1"⟩, ⟨b!"x-a", b!"1"⟩], tableSize := 108 },
      by decide +kernel⟩, ?_⟩
  refine no_reading ⟨by decide +kernel, by decide +kernel⟩ (by decide) ?_
  intro t' h
  have : decodeBlock { table := [⟨b!"x-b", b!"1"⟩, ⟨b!"x-a", b!"1"⟩], tableSize := 72 }
      [0x7f, 0x01, 0x32] =
    .err .protocolError { table := [⟨b!"x-b", b!"1"⟩, ⟨b!"x-a", b!"1"⟩], tableSize := 72 } := by
    decide +kernel
  rw [this] at h; cases h

/-- Ages 0..65 as one digit each, to fill the table with a static name. -/
def ages (n : Nat) : List Header := (List.range n).map fun i => ⟨b!"age", [UInt8.ofNat (i + 48)]⟩

/-- C19, refuted by a full index. After 66 different values of one header, the first one sent again
is written as the single octet ff, which no client can read as anything. -/
theorem C19_refuted_full :
    ∃ t : DynTable, t.WF ∧ (∃ w, encodeBlock true {} (ages 66) =
        (.ok (w, t) : Outcome FrameError _)) ∧
      encodeBlock true t [⟨b!"age", b!"0"⟩] = (.ok ([0xff], t) : Outcome FrameError _) ∧
      ¬ ∃ reps T, BlockWire Dialect.rfc reps [0xff] ∧
        execReps 65536 t.abs reps = some ([⟨b!"age", b!"0"⟩], T) := by
  have hw : ({ table := (ages 66).reverse, tableSize := 66 * 36 } : DynTable).WF :=
    ⟨by decide +kernel, by decide +kernel⟩
  refine ⟨{ table := (ages 66).reverse, tableSize := 66 * 36 }, hw,
    ⟨(List.range 66).flatMap fun i => [0x55, 0x01, UInt8.ofNat (i + 48)], by decide +kernel⟩,
    by decide +kernel, ?_⟩
  refine no_reading hw (by decide) ?_
  intro t' h
  have : decodeBlock { table := (ages 66).reverse, tableSize := 66 * 36 } [0xff] =
      .ub .derefError := by decide +kernel
  rw [this] at h; cases h

/-! ### C20 -/

/-- C20, refuted: whenever a header that is not in the static table is bigger than a client's limit,
but not bigger than ion's, sending it twice refers the client to an entry it never stored. For the
default limit of 4096 a value of 4100 octets does it. -/
theorem C20_refuted (sgn : Bool) (h : Header) (hns : ¬ InStatic h)
    (hn : Encodable sgn h.name) (hv : Encodable sgn h.value)
    (c : Nat) (hbig : c < size h) (hsmall : size h ≤ 65536) :
    ∃ w t, encodeBlock sgn {} [h] = (.ok (w, t) : Outcome FrameError _) ∧
      encodeBlock sgn t [h] = (.ok ([0xbe], t) : Outcome FrameError _) ∧
      (∃ reps, BlockWire Dialect.rfc reps w ∧ execReps c ⟨[], c⟩ reps = some ([h], ⟨[], c⟩)) ∧
      (∀ reps, BlockWire Dialect.rfc reps [0xbe] → execReps c ⟨[], c⟩ reps = none) := by
  obtain ⟨w, t, rep, h1, h2, h3, h4⟩ := encodeHeader_spec (ε := FrameError) sgn {} ⟨rfl, Nat.zero_le _⟩ h hn hv
    (.inr (.inr ⟨by simp [DynTable.abs], .inr (.inl (by simp [DynTable.abs]))⟩))
  rcases h4 with ⟨-, hin, -⟩ | ⟨habs, -, -, he⟩
  · rcases hin with hc | hc
    · exact absurd hc hns
    · simp at hc
  · have htab : t.table = [h] := by
      have : t.table = fit 65536 [h] := congrArg Table.entries habs
      rw [this, fit_cons_pos hsmall]; rfl
    refine ⟨w, t, by simp [encodeBlock, h1], ?_, ⟨[rep], ?_, ?_⟩, ?_⟩
    · obtain ⟨w2, t2, rep2, g1, -, g3, g4⟩ := encodeHeader_spec (ε := FrameError) sgn t h2 h hn hv
        (.inr (.inl (by simp [DynTable.abs, htab])))
      have hst : staticTable.findIdx? (fun x => x.name == h.name && x.value == h.value) = none := by
        cases hf : staticTable.findIdx? (fun x => x.name == h.name && x.value == h.value) with
        | none => rfl
        | some i =>
          obtain ⟨k1, k2⟩ := findStatic_some hf
          exact absurd ⟨i + 1, by omega, k2⟩ hns
      have hfd : t.find h = some 0 := by
        rw [(C12_find t h).1]
        refine ⟨dynGet_ok.mpr (by simp [htab]), by omega⟩
      have hone : (encodeHeader sgn t h : Outcome FrameError _) = .ok ([0xbe], t) := by
        unfold encodeHeader
        rw [hst]
        simp only [hfd, staticTable_length]
        rfl
      simp [encodeBlock, hone]
    · have := BlockWire.cons rep [] w [] (repWire_enc_rfc h3) .nil
      simpa using this
    · have := he c ⟨[], c⟩ rfl
      have hadd : (⟨[], c⟩ : Table).add h = ⟨[], c⟩ := by
        simp only [Table.add]
        rw [fit_cons_neg (by omega)]
      rw [hadd] at this
      exact execReps_cons.mpr ⟨_, _, [], this, rfl, rfl⟩
    · intro reps hw
      have : BlockWire Dialect.rfc [.indexed 62] [0xbe] := by
        have := BlockWire.cons (d := Dialect.rfc) (.indexed 62) [] [0xbe] []
          (.indexed 62 _ (.short _ (by decide) (by decide))) .nil
        simpa using this
      rw [blockWire_unique hw this]
      simp [execReps, execRep, Table.lookup]

/-- The hypotheses are met by a 4100-byte value against the HTTP/2 default limit. -/
example : let h : Header := ⟨b!"age", List.replicate 4100 0x61⟩
    ¬ InStatic h ∧ Encodable true h.name ∧ Encodable true h.value ∧ 4096 < size h ∧
      size h ≤ 65536 := by
  intro h
  have hl : h.value.length = 4100 := List.length_replicate
  refine ⟨?_, ⟨by decide, .inr (.inl (by decide))⟩, ⟨by rw [hl]; decide, .inr (.inr ?_)⟩, ?_, ?_⟩
  · rintro ⟨i, hi, hs⟩
    have : ∀ i : Fin 62, (staticEntry i.val).all (fun h => decide (h.value.length < 100)) = true := by
      decide +kernel
    have := this ⟨i, by omega⟩
    rw [hs] at this
    simp only [Option.all_some, hl] at this
    exact absurd this (by decide)
  · intro c hc; rw [List.eq_of_mem_replicate hc]; decide
  · simp only [size, hl]; decide
  · simp only [size, hl]; decide

/-- C20, what does hold: with a vocabulary as in C19 whose total size is within the client's limit,
every block is read exactly by a client with that limit (for instance 4096), and the client's
table has the same entries as the encoder's. Missing from C20: vocabularies exceeding the limit, for
which the encoder would have to honour the client's SETTINGS. -/
theorem C20_client_limit_partial (sgn : Bool) (U : List Header) (hU : SmallVocabulary U)
    (henc : ∀ h ∈ U, Encodable sgn h.name ∧ Encodable sgn h.value) (hss : List (List Header))
    (hsub : ∀ hs ∈ hss, ∀ h ∈ hs, InStatic h ∨ h ∈ U) (c : Nat) (hc : sizes U ≤ c) (hc' : c ≤ 65536) :
    ∃ ws t T, encodeBlocks sgn {} hss = .ok (ws, t) ∧ T.entries = t.table ∧
      ∀ limit, Reads limit ⟨[], c⟩ ws hss T :=
  encodeBlocks_client sgn U hU henc hss {} ⟨[], c⟩ ⟨rfl, Nat.zero_le _⟩ ⟨by simp, by simp⟩ rfl
    (.inr ⟨hc, Nat.le_trans hc hc'⟩) hsub

example : sizes [⟨b!":status", b!"200"⟩, ⟨b!"content-length", b!"12"⟩,
    ⟨b!"content-length", b!"13"⟩, ⟨b!"x-powered-by", b!"ion"⟩] ≤ 4096 := by decide +kernel

/-! ### C21 -/

/-- C21, refuted for platforms with a signed `char`: an octet above 0x7f in a value of more than
three octets indexes the code table out of range. -/
theorem C21_ub_exists :
    (encodeBlock true {} [⟨b!"server", [0xc3, 0xa9, 0x6e, 0x65]⟩] : Outcome FrameError _) =
      .ub .index := by decide +kernel

theorem writeLengthAndString_no_ub {ε : Type} (sgn : Bool) (s : Bytes)
    (hs : sgn = false ∨ s.length ≤ 3 ∨ ∀ c ∈ s, c.toNat < 128) :
    ∃ w, (writeLengthAndString sgn s : Outcome ε Bytes) = .ok w := by
  unfold writeLengthAndString
  by_cases h : s.length > 3
  · rw [if_pos (show s.length > maxPlainTextStringLength from h)]
    have hs' : sgn = false ∨ ∀ c ∈ s, c.toNat < 128 := by
      rcases hs with h1 | h1 | h1
      · exact .inl h1
      · omega
      · exact .inr h1
    obtain ⟨w, h1, -, -⟩ := huffmanWrite_spec (ε := ε) sgn s hs' {} BitWriter.inv_empty
    exact ⟨_, by simp only [h1, Outcome.bind_ok]; rfl⟩
  · rw [if_neg (show ¬ s.length > maxPlainTextStringLength from h)]
    exact ⟨_, rfl⟩

/-- C21, what does hold: with an unsigned `char`, or if strings of more than three octets have only
octets below 0x80, every header list is encoded without undefined behaviour (nor error), from any
table. Missing from C21: octets above 0x7f with a signed `char`. -/
theorem C21_encode_defined_partial (sgn : Bool) (hs : List Header)
    (h : ∀ x ∈ hs, ∀ s ∈ [x.name, x.value], sgn = false ∨ s.length ≤ 3 ∨ ∀ c ∈ s, c.toNat < 128) :
    ∀ t : DynTable, t.WF →
    ∃ w t', (encodeBlock sgn t hs : Outcome FrameError (Bytes × DynTable)) = .ok (w, t') ∧ t'.WF := by
  induction hs with
  | nil => intro t hwf; exact ⟨[], t, rfl, hwf⟩
  | cons x xs ih =>
    intro t hwf
    have h1 : ∃ w t', (encodeHeader sgn t x : Outcome FrameError (Bytes × DynTable)) = .ok (w, t') ∧
        t'.WF := by
      obtain ⟨wn, hwn⟩ := writeLengthAndString_no_ub (ε := FrameError) sgn x.name
        (h x (by simp) _ (by simp))
      obtain ⟨wv, hwv⟩ := writeLengthAndString_no_ub (ε := FrameError) sgn x.value
        (h x (by simp) _ (by simp))
      obtain ⟨t', hins, hwf', -⟩ := DynTable.insert_spec (ε := FrameError) t x hwf
      unfold encodeHeader
      split
      · exact ⟨_, _, rfl, hwf⟩
      · split
        · exact ⟨_, _, rfl, hwf⟩
        · split
          · exact ⟨_, t', by simp only [hwv, hins, Outcome.bind_ok]; rfl, hwf'⟩
          · split
            · exact ⟨_, t', by simp only [hwv, hins, Outcome.bind_ok]; rfl, hwf'⟩
            · exact ⟨_, t', by simp only [hwn, hwv, hins, Outcome.bind_ok]; rfl, hwf'⟩
    obtain ⟨w, t', g1, g2⟩ := h1
    obtain ⟨ws, t2, g3, g4⟩ := ih (fun y hy => h y (by simp [hy])) t' g2
    exact ⟨w ++ ws, t2, by simp [encodeBlock, g1, g3], g4⟩

/-- Non-ASCII octets with an unsigned `char`. -/
example : ∃ w t', (encodeBlock false {} [⟨b!"server", [0xc3, 0xa9, 0x6e, 0x65]⟩] :
    Outcome FrameError _) = .ok (w, t') := by
  obtain ⟨w, t', h, -⟩ := C21_encode_defined_partial false [⟨b!"server", [0xc3, 0xa9, 0x6e, 0x65]⟩]
    (fun _ _ _ _ => .inl rfl) {} ⟨rfl, Nat.zero_le _⟩
  exact ⟨w, t', h⟩

end Ion
