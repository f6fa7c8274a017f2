import Verif.Model.HeaderDecoder
import Verif.Lemmas.IntCodec
import Verif.Lemmas.Huffman
import Verif.Lemmas.DynamicTable

/-! The header block decoder against the grammar and semantics of RFC 7541. -/

namespace Ion
open Spec

/-! ### Integers with their flag bits -/

theorem intRep_first {n flag v : Nat} {b : UInt8} {w : Bytes} (h : IntRep n flag v (b :: w)) :
    flag * 2 ^ n ≤ b.toNat ∧ b.toNat < (flag + 1) * 2 ^ n ∧ flag = b.toNat / 2 ^ n := by
  have hp : 0 < 2 ^ n := Nat.pow_pos (by decide)
  have key : ∀ x, b.toNat = flag * 2 ^ n + x → x < 2 ^ n →
      flag * 2 ^ n ≤ b.toNat ∧ b.toNat < (flag + 1) * 2 ^ n ∧ flag = b.toNat / 2 ^ n := by
    intro x hx hlt
    refine ⟨by omega, by rw [Nat.add_mul]; omega, ?_⟩
    rw [hx, Nat.mul_comm, Nat.mul_add_div hp, Nat.div_eq_of_lt hlt]; simp
  cases h with
  | short _ hb hv => exact key v hb (by omega)
  | long _ _ hb hc hv => exact key _ hb (by omega)

/-- Decoding succeeds exactly on the admitted integers; the flag is read off the first octet. -/
theorem decodeInt_lenient (r : Bytes) (p : UInt8) (h1 : 1 ≤ p.toNat) (h8 : p.toNat ≤ 8)
    (v : UInt32) (rest : Bytes) :
    decodeInt r p = .ok (v, rest) ↔
      ∃ b w, r = (b :: w) ++ rest ∧
        Dialect.lenient.int p.toNat (b.toNat / 2 ^ p.toNat) v.toNat (b :: w) := by
  rw [decodeInt_iff r p h1 h8]
  constructor
  · rintro ⟨flag, enc, hr, hrep, hl⟩
    cases enc with
    | nil => cases hrep
    | cons b w =>
      refine ⟨b, w, hr, ?_, hl, v.toNat_lt⟩
      rw [← (intRep_first hrep).2.2]; exact hrep
  · rintro ⟨b, w, hr, hrep, hl, -⟩
    exact ⟨_, _, hr, hrep, hl⟩

theorem decodeInt_of_int {p : UInt8} (h1 : 1 ≤ p.toNat) (h8 : p.toNat ≤ 8) {flag v : Nat} {w : Bytes}
    (h : Dialect.lenient.int p.toNat flag v w) (rest : Bytes) :
    decodeInt (w ++ rest) p = .ok (UInt32.ofNat v, rest) ∧ (UInt32.ofNat v).toNat = v := by
  have hv : (UInt32.ofNat v).toNat = v := by
    rw [UInt32.toNat_ofNat']; exact Nat.mod_eq_of_lt h.2.2
  refine ⟨?_, hv⟩
  rw [decodeInt_iff _ p h1 h8]
  exact ⟨flag, w, rfl, by rw [hv]; exact h.1, h.2.1⟩

theorem int_ne_nil {n flag v : Nat} {w : Bytes} (h : IntRep n flag v w) : ∃ b w', w = b :: w' := by
  cases h <;> exact ⟨_, _, rfl⟩

/-! ### Strings -/

theorem readBytes_pos {r : ByteReader} {n : Nat} (h : n ≤ List.length r) :
    r.readBytes n = some (List.take n r, List.drop n r) := by
  unfold ByteReader.readBytes
  rw [if_pos (by simpa [ByteReader.hasBytes] using h)]

theorem readBytes_neg {r : ByteReader} {n : Nat} (h : ¬ n ≤ List.length r) :
    r.readBytes n = none := by
  unfold ByteReader.readBytes
  rw [if_neg (by simpa [ByteReader.hasBytes] using h)]

theorem within_iff (n : Nat) : stringLengthWithinLimit n = true ↔ n ≤ 4096 := by
  simp [stringLengthWithinLimit, maxHeaderStringLength]

theorem huffDecode_lenient (data s : Bytes) :
    huffmanTree.decode data = .ok s ↔ HuffLenient data s := by
  rw [huffDecode_ok_iff, flatMap_codeBits]
  simp only [HuffTree.Tail, HuffLenient, codeBits_eq]

theorem readString_iff (isH : Bool) (data s : Bytes) :
    readString isH data.length data = .ok s ↔
      s.length ≤ 4096 ∧ (if isH then HuffLenient data s else s = data) := by
  cases isH with
  | true =>
    simp only [readString, decodeHuffmanString, if_true]
    rw [if_neg (by omega), List.take_of_length_le (Nat.le_refl _)]
    rw [← huffDecode_lenient]
    split
    · rename_i u h; exact absurd h (huffDecode_no_ub data u)
    · rename_i h; simp [h]
    · rename_i bytes h
      rw [h]
      by_cases hl : bytes.length ≤ 4096
      · rw [if_pos ((within_iff _).mpr hl)]
        simp only [Outcome.ok.injEq]
        constructor
        · rintro rfl; exact ⟨hl, rfl⟩
        · rintro ⟨-, rfl⟩; rfl
      · rw [if_neg (fun h => hl ((within_iff _).mp h))]
        simp only [reduceCtorEq, Outcome.ok.injEq, false_iff]
        rintro ⟨h', rfl⟩; omega
  | false =>
    simp only [readString, Bool.false_eq_true, if_false]
    by_cases hl : data.length ≤ 4096
    · rw [(within_iff _).mpr hl]
      simp only [Bool.not_true, Bool.false_eq_true, if_false]
      rw [if_neg (by omega), List.take_of_length_le (Nat.le_refl _)]
      simp only [Outcome.ok.injEq]
      constructor
      · rintro rfl; exact ⟨hl, rfl⟩
      · rintro ⟨-, rfl⟩; rfl
    · have : stringLengthWithinLimit data.length = false := by
        rw [← Bool.not_eq_true, within_iff]; exact hl
      rw [this]
      simp only [Bool.not_false, if_true, reduceCtorEq, false_iff]
      rintro ⟨h, rfl⟩; omega

theorem readString_no_ub (isH : Bool) (data : Bytes) (u : UB) :
    readString isH data.length data ≠ .ub u := by
  cases isH with
  | true =>
    simp only [readString, decodeHuffmanString, if_true]
    rw [if_neg (by omega)]
    split
    · rename_i u' h; exact absurd h (huffDecode_no_ub _ u')
    · simp
    · split <;> simp
  | false =>
    simp only [readString, Bool.false_eq_true, if_false]
    split
    · simp
    · rw [if_neg (by omega)]; simp

theorem strFlag (b : UInt8) : (decide (b &&& 0x80 ≠ 0)) = decide (b.toNat / 2 ^ 7 = 1) := by
  revert b; decide +kernel

theorem byte_div_128 (b : UInt8) : b.toNat / 2 ^ 7 = 0 ∨ b.toNat / 2 ^ 7 = 1 := by
  have := b.toNat_lt; omega

theorem readLengthAndString_iff (r : Bytes) (s rest : Bytes) :
    readLengthAndString r = .ok (s, rest) ↔
      ∃ w, r = w ++ rest ∧ StrWire Dialect.lenient s w := by
  constructor
  · intro h
    cases r with
    | nil => simp [readLengthAndString, ByteReader.peekByte] at h
    | cons b r =>
      simp only [readLengthAndString, ByteReader.peekByte, strFlag] at h
      split at h
      · simp at h
      · rename_i size r1 hd
        obtain ⟨b', w, hr, hint⟩ := (decodeInt_lenient _ 7 (by decide) (by decide) _ _).mp hd
        obtain ⟨rfl, hr'⟩ : b = b' ∧ r = w ++ r1 := by simpa using hr
        by_cases hl : size.toNat ≤ List.length r1
        · rw [readBytes_pos hl] at h
          simp only at h
          obtain ⟨s', h1, h2⟩ := Outcome.bind_eq_ok.mp h
          simp only [Outcome.ok.injEq, Prod.mk.injEq] at h2
          obtain ⟨rfl, rfl⟩ := h2
          have hlen : (List.take size.toNat r1).length = size.toNat := by simp; omega
          have e : r1 = List.take size.toNat r1 ++ List.drop size.toNat r1 := by simp
          have h1'' : readString (decide (b.toNat / 2 ^ 7 = 1)) (List.take size.toNat r1).length
              (List.take size.toNat r1) = .ok s' := by rw [hlen]; exact h1
          rw [readString_iff] at h1''
          obtain ⟨hs, hh⟩ := h1''
          rw [show UInt8.toNat 7 = 7 from rfl] at hint
          rcases byte_div_128 b with h0 | h0
          · rw [h0] at hh hint
            simp only [show ((0 : Nat) = 1) = False by simp, decide_false, Bool.false_eq_true,
              if_false] at hh
            refine ⟨(b :: w) ++ s', ?_, .plain (b :: w) ?_ hs⟩
            · rw [hh, hr', List.cons_append, List.cons_append, List.append_assoc, ← e]
            · rw [hh, hlen]; exact hint
          · rw [h0] at hh hint
            simp only [decide_true, if_true] at hh
            refine ⟨(b :: w) ++ List.take size.toNat r1, ?_, .huffman (b :: w) _ ?_ hh hs⟩
            · rw [hr', List.cons_append, List.cons_append, List.append_assoc, ← e]
            · rw [hlen]; exact hint
        · rw [readBytes_neg hl] at h
          simp at h
  · rintro ⟨w, rfl, hw⟩
    have main : ∀ (flag : Nat) (len data : Bytes), Dialect.lenient.int 7 flag data.length len →
        (s.length ≤ 4096 ∧ if flag = 1 then HuffLenient data s else s = data) →
        readLengthAndString (len ++ data ++ rest) = .ok (s, rest) := by
      intro flag len data hint hs
      obtain ⟨b, w', rfl⟩ := int_ne_nil hint.1
      have hflag := (intRep_first hint.1).2.2
      obtain ⟨hd, hv⟩ := decodeInt_of_int (p := 7) (by decide) (by decide) hint (data ++ rest)
      simp only [List.cons_append, readLengthAndString, ByteReader.peekByte, strFlag]
      rw [List.append_assoc, ← List.cons_append, hd]
      simp only [hv]
      rw [readBytes_pos (by simp)]
      simp only [List.take_left', List.drop_left']
      rw [(readString_iff _ data s).mpr]
      · rfl
      · refine ⟨hs.1, ?_⟩
        rw [← hflag]
        have := hs.2
        by_cases hf : flag = 1
        · simp only [hf, if_true, decide_true] at this ⊢; exact this
        · simp only [hf, if_false, decide_false, Bool.false_eq_true] at this ⊢; exact this
    cases hw with
    | plain len h hs =>
      exact main 0 len s h ⟨hs, by simp⟩
    | huffman len data h hd hs =>
      exact main 1 len data h ⟨hs, hd⟩

theorem readLengthAndString_no_ub (r : Bytes) (u : UB) : readLengthAndString r ≠ .ub u := by
  simp only [readLengthAndString]
  split
  · simp
  · split
    · simp
    · split
      · simp
      · rename_i size r1 _ _ span r2 hrb
        by_cases hl : size.toNat ≤ List.length r1
        · rw [readBytes_pos hl] at hrb
          simp only [Option.some.injEq, Prod.mk.injEq] at hrb
          obtain ⟨rfl, rfl⟩ := hrb
          have hlen : (List.take size.toNat r1).length = size.toNat := by simp; omega
          intro h
          generalize hx : readString _ size.toNat (List.take size.toNat r1) = x at h
          cases x with
          | ok a => simp at h
          | err e => simp at h
          | ub u' =>
            have hx' := hx
            rw [← hlen] at hx'
            conv at hx' => lhs; rw [hlen]
            exact readString_no_ub _ (List.take size.toNat r1) u' (by rw [hlen]; exact hx)
        · rw [readBytes_neg hl] at hrb; simp at hrb

/-! ### Indices -/

theorem staticEntry_eq : ∀ i : Fin 62, 1 ≤ i.val → staticEntry i.val = staticTable[i.val - 1]? := by
  decide +kernel

theorem staticTable_length : staticTable.length = 61 := by decide +kernel

theorem tableIndexOf_eq (i : Nat) (h1 : 1 ≤ i) (h2 : i < 2 ^ 64) : tableIndexOf i = i - 1 := by
  unfold tableIndexOf; omega

theorem headerAt_eq (t : DynTable) (i : Nat) (h1 : 1 ≤ i) :
    headerAt t (i - 1) = match t.abs.lookup i with
      | some h => .ok h
      | none => .err .protocolError := by
  unfold headerAt
  by_cases hs : i ≤ 61
  · have := staticEntry_eq ⟨i, by omega⟩ h1
    simp only at this
    rw [← this]
    simp only [Table.lookup, hs, if_true]
    have hlt : i - 1 < staticTable.length := by rw [staticTable_length]; omega
    rw [this, List.getElem?_eq_getElem hlt]
  · rw [List.getElem?_eq_none (by rw [staticTable_length]; omega)]
    simp only [Table.lookup, hs, if_false, DynTable.abs, staticTable_length]
    rw [show i - 1 - 61 = i - 62 by omega]
    have hcnt : t.count = t.table.length := rfl
    simp only [DynTable.get]
    by_cases hc : i - 62 < t.table.length
    · rw [if_neg (by omega), List.getElem?_eq_getElem hc]
    · rw [if_pos (by omega), List.getElem?_eq_none (by omega)]

theorem headerNameAt_eq (t : DynTable) (i : Nat) :
    headerNameAt t i = (headerAt t i >>= fun h => .ok h.name) := by
  unfold headerNameAt headerAt
  split
  · rfl
  · simp only; split <;> rfl

theorem readIndexedHeader_eq (t : DynTable) (i : Nat) (h1 : 1 ≤ i) (h2 : i < 2 ^ 64) :
    readIndexedHeader t i = match t.abs.lookup i with
      | some h => .ok h
      | none => .err .protocolError := by
  unfold readIndexedHeader
  rw [tableIndexOf_eq i h1 h2, headerAt_eq t i h1]

theorem readIndexedHeaderName_eq (t : DynTable) (i : Nat) (h1 : 1 ≤ i) (h2 : i < 2 ^ 64) :
    readIndexedHeaderName t i = match t.abs.lookup i with
      | some h => .ok h.name
      | none => .err .protocolError := by
  unfold readIndexedHeaderName
  rw [tableIndexOf_eq i h1 h2, headerNameAt_eq, headerAt_eq t i h1]
  split <;> rfl

/-! ### Fields -/

/-- Which representation a first octet announces. -/
theorem fieldType_eq (b : UInt8) : fieldType b =
    if 128 ≤ b.toNat then .indexed else if 64 ≤ b.toNat then .literalIncremental
    else if 32 ≤ b.toNat then .sizeUpdate else if 16 ≤ b.toNat then .literalNeverIndex
    else .literalNoIndex := by
  revert b; decide +kernel

theorem decodeIndexedField_sound {t : DynTable} {b : UInt8} {r r' : Bytes} {h : Header}
    (hb : 128 ≤ b.toNat) (hd : decodeIndexedField t (b :: r) = .ok (h, r')) :
    ∃ i w, b :: r = w ++ r' ∧ Dialect.lenient.int 7 1 i w ∧ t.abs.lookup i = some h := by
  simp only [decodeIndexedField] at hd
  split at hd
  · simp at hd
  · rename_i index r1 hi
    obtain ⟨b', w, hr, hint⟩ := (decodeInt_lenient _ 7 (by decide) (by decide) _ _).mp hi
    obtain ⟨rfl, hr'⟩ : b = b' ∧ r = w ++ r1 := by simpa using hr
    split at hd
    · simp at hd
    · rename_i hlt
      have hpos : 1 ≤ index.toNat := by
        rw [UInt32.lt_iff_toNat_lt] at hlt
        simp at hlt; omega
      have hil := index.toNat_lt
      obtain ⟨h', g1, g2⟩ := Outcome.bind_eq_ok.mp hd
      simp only [Outcome.ok.injEq, Prod.mk.injEq] at g2
      obtain ⟨rfl, rfl⟩ := g2
      rw [readIndexedHeader_eq t _ hpos (by omega)] at g1
      have hlt := b.toNat_lt
      have hdiv : b.toNat / 2 ^ 7 = 1 := by omega
      rw [show UInt8.toNat 7 = 7 from rfl, hdiv] at hint
      refine ⟨index.toNat, b :: w, by simp [hr'], hint, ?_⟩
      split at g1 <;> simp_all

theorem decodeIndexedField_complete {t : DynTable} {i : Nat} {w : Bytes} {h : Header} (rest : Bytes)
    (hint : Dialect.lenient.int 7 1 i w) (hl : t.abs.lookup i = some h) :
    decodeIndexedField t (w ++ rest) = .ok (h, rest) := by
  obtain ⟨hd, hv⟩ := decodeInt_of_int (p := 7) (by decide) (by decide) hint rest
  have hpos : 1 ≤ i := by
    rcases Nat.eq_zero_or_pos i with h0 | h0
    · subst h0; simp [Table.lookup, staticEntry] at hl
    · exact h0
  simp only [decodeIndexedField, hd]
  rw [if_neg (by rw [UInt32.lt_iff_toNat_lt, hv]; simp; omega), hv,
    readIndexedHeader_eq t i hpos (by have := hint.2.2; omega), hl]
  rfl

theorem decodeIndexedField_ub {t : DynTable} {r : Bytes} {u : UB} :
    decodeIndexedField t r = .ub u ↔ u = .derefError ∧ ∃ e, decodeInt r 7 = .error e := by
  simp only [decodeIndexedField]
  split
  · rename_i e he
    simp [eq_comm, he]
  · rename_i index r1 hi
    simp only [hi, reduceCtorEq, exists_false, and_false, iff_false]
    split
    · simp
    · rename_i hlt
      have hpos : 1 ≤ index.toNat := by
        rw [UInt32.lt_iff_toNat_lt] at hlt
        simp at hlt; omega
      have hil := index.toNat_lt
      rw [readIndexedHeader_eq t _ hpos (by omega)]
      split <;> simp

theorem decodeLiteralField_sound {t : DynTable} {p : UInt8} (h1 : 1 ≤ p.toNat) (h8 : p.toNat ≤ 8)
    {b : UInt8} {r r' : Bytes} {h : Header}
    (hd : decodeLiteralField t p (b :: r) = .ok (h, r')) :
    (∃ i wi wv, b :: r = wi ++ wv ++ r' ∧ i ≠ 0 ∧
      Dialect.lenient.int p.toNat (b.toNat / 2 ^ p.toNat) i wi ∧
      StrWire Dialect.lenient h.value wv ∧ (t.abs.lookup i).map Header.name = some h.name) ∨
    (∃ wi wn wv, b :: r = wi ++ (wn ++ wv) ++ r' ∧
      Dialect.lenient.int p.toNat (b.toNat / 2 ^ p.toNat) 0 wi ∧
      StrWire Dialect.lenient h.name wn ∧ StrWire Dialect.lenient h.value wv) := by
  simp only [decodeLiteralField] at hd
  split at hd
  · simp at hd
  · rename_i index r1 hi
    obtain ⟨b', w, hr, hint⟩ := (decodeInt_lenient _ p h1 h8 _ _).mp hi
    obtain ⟨rfl, hr'⟩ : b = b' ∧ r = w ++ r1 := by simpa using hr
    split at hd
    · rename_i h0
      obtain ⟨⟨name, r2⟩, g1, hd2⟩ := Outcome.bind_eq_ok.mp hd
      obtain ⟨⟨value, r3⟩, g2, hd3⟩ := Outcome.bind_eq_ok.mp hd2
      simp only [Outcome.ok.injEq, Prod.mk.injEq] at hd3
      obtain ⟨rfl, rfl⟩ := hd3
      obtain ⟨wv, hw2, hwv⟩ := (readLengthAndString_iff _ _ _).mp g2
      obtain ⟨wn, rfl, hwn⟩ := (readLengthAndString_iff _ _ _).mp g1
      simp only at hw2
      right
      refine ⟨b :: w, wn, wv, by simp [hr', hw2], ?_, hwn, hwv⟩
      rw [h0] at hint; exact hint
    · rename_i h0
      have hpos : 1 ≤ index.toNat := by
        rcases Nat.eq_zero_or_pos index.toNat with hz | hz
        · exact absurd (UInt32.toNat_inj.mp (by simpa using hz)) h0
        · exact hz
      have hil := index.toNat_lt
      rw [readIndexedHeaderName_eq t _ hpos (by omega)] at hd
      obtain ⟨n, g3, g4⟩ := Outcome.bind_eq_ok.mp hd
      simp only [Outcome.bind_ok] at g4
      obtain ⟨⟨value, r3⟩, g2, hd3⟩ := Outcome.bind_eq_ok.mp g4
      simp only [Outcome.ok.injEq, Prod.mk.injEq] at hd3
      obtain ⟨rfl, rfl⟩ := hd3
      obtain ⟨wv, hw2, hwv⟩ := (readLengthAndString_iff _ _ _).mp g2
      left
      refine ⟨index.toNat, b :: w, wv, by simp [hr', hw2], by omega, hint, hwv, ?_⟩
      split at g3
      · rename_i hl; simp only [Outcome.ok.injEq] at g3; simp [hl, g3]
      · simp at g3

theorem decodeLiteralField_complete_index {t : DynTable} {p : UInt8} (h1 : 1 ≤ p.toNat)
    (h8 : p.toNat ≤ 8) {flag i : Nat} {wi wv value n : Bytes} (rest : Bytes) (h0 : i ≠ 0)
    (hint : Dialect.lenient.int p.toNat flag i wi) (hv : StrWire Dialect.lenient value wv)
    (hl : (t.abs.lookup i).map Header.name = some n) :
    decodeLiteralField t p (wi ++ wv ++ rest) = .ok (⟨n, value⟩, rest) := by
  rw [List.append_assoc]
  obtain ⟨hd, hvv⟩ := decodeInt_of_int (p := p) h1 h8 hint (wv ++ rest)
  have hs : readLengthAndString (wv ++ rest) = .ok (value, rest) :=
    (readLengthAndString_iff _ _ _).mpr ⟨wv, rfl, hv⟩
  have hne : UInt32.ofNat i ≠ 0 := by
    intro e
    have := congrArg UInt32.toNat e
    rw [hvv] at this; simp at this; exact h0 this
  simp only [decodeLiteralField, hd]
  rw [if_neg hne, hvv, readIndexedHeaderName_eq t i (by omega) (by have := hint.2.2; omega)]
  obtain ⟨h', hl', rfl⟩ := Option.map_eq_some_iff.mp hl
  simp only [hl', Outcome.bind_ok, hs]

theorem decodeLiteralField_complete_new {t : DynTable} {p : UInt8} (h1 : 1 ≤ p.toNat)
    (h8 : p.toNat ≤ 8) {flag : Nat} {wi wn wv value n : Bytes} (rest : Bytes)
    (hint : Dialect.lenient.int p.toNat flag 0 wi) (hn : StrWire Dialect.lenient n wn)
    (hv : StrWire Dialect.lenient value wv) :
    decodeLiteralField t p (wi ++ (wn ++ wv) ++ rest) = .ok (⟨n, value⟩, rest) := by
  rw [List.append_assoc, List.append_assoc]
  obtain ⟨hd, hvv⟩ := decodeInt_of_int (p := p) h1 h8 hint (wn ++ (wv ++ rest))
  have hs : readLengthAndString (wv ++ rest) = .ok (value, rest) :=
    (readLengthAndString_iff _ _ _).mpr ⟨wv, rfl, hv⟩
  have hs2 : readLengthAndString (wn ++ (wv ++ rest)) = .ok (n, wv ++ rest) :=
    (readLengthAndString_iff _ _ _).mpr ⟨wn, rfl, hn⟩
  simp only [decodeLiteralField, hd]
  rw [if_pos (show UInt32.ofNat 0 = 0 from rfl)]
  simp only [hs2, Outcome.bind_ok, hs]

theorem decodeLiteralField_ub {t : DynTable} {p : UInt8} {r : Bytes} {u : UB} :
    decodeLiteralField t p r = .ub u ↔ u = .derefError ∧ ∃ e, decodeInt r p = .error e := by
  simp only [decodeLiteralField]
  split
  · rename_i e he
    simp [eq_comm, he]
  · rename_i index r1 hi
    simp only [hi, reduceCtorEq, exists_false, and_false, iff_false]
    have tail : ∀ x : Bytes × ByteReader, (do
        let (value, r) ← readLengthAndString x.2
        Outcome.ok ((⟨x.1, value⟩ : Header), r) : Dec (Header × ByteReader)) ≠ .ub u := by
      intro x
      cases hx : readLengthAndString x.2 with
      | ok a => simp
      | err e => simp
      | ub u' => exact absurd hx (readLengthAndString_no_ub _ _)
    split
    · cases hx : readLengthAndString r1 with
      | ok a => simpa using tail a
      | err e => simp
      | ub u' => exact absurd hx (readLengthAndString_no_ub _ _)
    · rename_i h0
      have hpos : 1 ≤ index.toNat := by
        rcases Nat.eq_zero_or_pos index.toNat with hz | hz
        · exact absurd (UInt32.toNat_inj.mp (by simpa using hz)) h0
        · exact hz
      have hil := index.toNat_lt
      rw [readIndexedHeaderName_eq t _ hpos (by omega)]
      split
      · rename_i h _; simpa using tail (h.name, r1)
      · simp

/-- The decoder's view of the section 6.3 limit. -/
abbrev sizeLimit : Nat := 65536

theorem decodeField_sound {t t' : DynTable} (hwf : t.WF) {b : UInt8} {r r' : Bytes}
    {hs : List Header} (hd : decodeField t (b :: r) b = .ok (hs, t', r')) :
    t'.WF ∧ ∃ rep w, b :: r = w ++ r' ∧ RepWire Dialect.lenient rep w ∧
      execRep sizeLimit t.abs rep = some (hs, t'.abs) := by
  have hlt := b.toNat_lt
  simp only [decodeField, fieldType_eq] at hd
  by_cases h128 : 128 ≤ b.toNat
  · simp only [h128, if_true] at hd
    obtain ⟨⟨h, r1⟩, g1, g2⟩ := Outcome.bind_eq_ok.mp hd
    simp only [Outcome.ok.injEq, Prod.mk.injEq] at g2
    obtain ⟨rfl, rfl, rfl⟩ := g2
    obtain ⟨i, w, hr, hint, hl⟩ := decodeIndexedField_sound h128 g1
    exact ⟨hwf, .indexed i, w, hr, .indexed i w hint, by simp [execRep, hl]⟩
  simp only [h128, if_false] at hd
  by_cases h64 : 64 ≤ b.toNat
  · simp only [h64, if_true] at hd
    obtain ⟨⟨h, r1⟩, g1, g2⟩ := Outcome.bind_eq_ok.mp hd
    obtain ⟨t1, hins, hwf1, habs⟩ := DynTable.insert_spec (ε := FrameError) t h hwf
    simp only [hins, Outcome.bind_ok, Outcome.ok.injEq, Prod.mk.injEq] at g2
    obtain ⟨rfl, rfl, rfl⟩ := g2
    have hdiv : b.toNat / 2 ^ 6 = 1 := by omega
    refine ⟨hwf1, ?_⟩
    rcases decodeLiteralField_sound (p := 6) (by decide) (by decide) g1 with
      ⟨i, wi, wv, hr, h0, hint, hv, hl⟩ | ⟨wi, wn, wv, hr, hint, hn, hv⟩
    · rw [show UInt8.toNat 6 = 6 from rfl, hdiv] at hint
      refine ⟨.literal .incremental (.index i) h.value, wi ++ wv, hr,
        .literalIndexed .incremental i _ _ _ h0 hint hv, ?_⟩
      simp [execRep, hl, habs]
    · rw [show UInt8.toNat 6 = 6 from rfl, hdiv] at hint
      refine ⟨.literal .incremental (.new h.name) h.value, wi ++ (wn ++ wv), hr,
        .literalNew .incremental _ _ _ _ _ hint hn hv, ?_⟩
      simp [execRep, habs]
  simp only [h64, if_false] at hd
  by_cases h32 : 32 ≤ b.toNat
  · simp only [h32, if_true] at hd
    obtain ⟨⟨t1, r1⟩, g1, g2⟩ := Outcome.bind_eq_ok.mp hd
    simp only [Outcome.ok.injEq, Prod.mk.injEq] at g2
    obtain ⟨rfl, rfl, rfl⟩ := g2
    simp only [decodeSizeUpdate] at g1
    split at g1
    · simp at g1
    · rename_i newSz r2 hi
      obtain ⟨b', w, hr, hint⟩ := (decodeInt_lenient _ 5 (by decide) (by decide) _ _).mp hi
      obtain ⟨rfl, hr'⟩ : b = b' ∧ r = w ++ r2 := by simpa using hr
      split at g1
      · simp at g1
      · rename_i hle
        obtain ⟨t2, hset, hwf2, habs⟩ :=
          DynTable.setMax_spec (ε := FrameError) t newSz.toNat hwf
        simp only [hset, Outcome.bind_ok, Outcome.ok.injEq, Prod.mk.injEq] at g1
        obtain ⟨rfl, rfl⟩ := g1
        have hdiv : b.toNat / 2 ^ 5 = 1 := by omega
        rw [show UInt8.toNat 5 = 5 from rfl, hdiv] at hint
        refine ⟨hwf2, .sizeUpdate newSz.toNat, b :: w, hr, .sizeUpdate _ _ hint, ?_⟩
        have hle' : newSz.toNat ≤ 65536 := by simp [hardTableSizeLimit] at hle; omega
        simp [execRep, hle', habs]
  simp only [h32, if_false] at hd
  have key : ∀ (h : Header) (r1 : Bytes), decodeLiteralField t 4 (b :: r) = .ok (h, r1) →
      ∀ mode : Indexing, mode ≠ .incremental → litPrefix mode = 4 →
      litFlag mode = b.toNat / 2 ^ 4 →
      ∃ rep w, b :: r = w ++ r1 ∧ RepWire Dialect.lenient rep w ∧
        execRep sizeLimit t.abs rep = some ([h], t.abs) := by
    intro h r1 g1 mode hm hp hf
    rcases decodeLiteralField_sound (p := 4) (by decide) (by decide) g1 with
      ⟨i, wi, wv, hr, h0, hint, hv, hl⟩ | ⟨wi, wn, wv, hr, hint, hn, hv⟩
    · rw [show UInt8.toNat 4 = 4 from rfl, ← hf] at hint
      refine ⟨.literal mode (.index i) h.value, wi ++ wv, hr,
        .literalIndexed mode i _ _ _ h0 (by rw [hp]; exact hint) hv, ?_⟩
      simp [execRep, hl, hm]
    · rw [show UInt8.toNat 4 = 4 from rfl, ← hf] at hint
      refine ⟨.literal mode (.new h.name) h.value, wi ++ (wn ++ wv), hr,
        .literalNew mode _ _ _ _ _ (by rw [hp]; exact hint) hn hv, ?_⟩
      simp [execRep, hm]
  by_cases h16 : 16 ≤ b.toNat
  · simp only [h16, if_true] at hd
    obtain ⟨⟨h, r1⟩, g1, g2⟩ := Outcome.bind_eq_ok.mp hd
    simp only [Outcome.ok.injEq, Prod.mk.injEq] at g2
    obtain ⟨rfl, rfl, rfl⟩ := g2
    exact ⟨hwf, key h r1 g1 .never (by simp) rfl (by simp [litFlag]; omega)⟩
  · simp only [h16, if_false] at hd
    obtain ⟨⟨h, r1⟩, g1, g2⟩ := Outcome.bind_eq_ok.mp hd
    simp only [Outcome.ok.injEq, Prod.mk.injEq] at g2
    obtain ⟨rfl, rfl, rfl⟩ := g2
    exact ⟨hwf, key h r1 g1 .without (by simp) rfl (by simp [litFlag]; omega)⟩

theorem decodeField_complete {t : DynTable} (hwf : t.WF) {rep : Rep} {w : Bytes}
    (hw : RepWire Dialect.lenient rep w) {hs : List Header} {T : Table}
    (he : execRep sizeLimit t.abs rep = some (hs, T)) (rest : Bytes) :
    ∃ b w' t', w = b :: w' ∧ decodeField t (w ++ rest) b = .ok (hs, t', rest) ∧ t'.WF ∧
      t'.abs = T := by
  cases hw with
  | indexed i _ hint =>
    obtain ⟨b, w', rfl⟩ := int_ne_nil hint.1
    have hf := intRep_first hint.1
    simp only [execRep, Option.map_eq_some_iff, Prod.mk.injEq] at he
    obtain ⟨h, hl, rfl, rfl⟩ := he
    refine ⟨b, w', t, rfl, ?_, hwf, rfl⟩
    have h128 : 128 ≤ b.toNat := by omega
    simp only [decodeField, fieldType_eq, h128, if_true]
    rw [decodeIndexedField_complete rest hint hl]; rfl
  | literalIndexed mode i value wi wv h0 hint hv =>
    obtain ⟨b, w', rfl⟩ := int_ne_nil hint.1
    have hf := intRep_first hint.1
    simp only [execRep] at he
    cases hl : (t.abs.lookup i).map Header.name with
    | none => simp [hl] at he
    | some n =>
      simp only [hl, Option.map_some, Option.some.injEq, Prod.mk.injEq] at he
      obtain ⟨rfl, hT⟩ := he
      cases mode with
      | incremental =>
        obtain ⟨t1, hins, hwf1, habs⟩ := DynTable.insert_spec (ε := FrameError) t ⟨n, value⟩ hwf
        refine ⟨b, w' ++ wv, t1, rfl, ?_, hwf1, by rw [habs, ← hT]; simp⟩
        simp only [litPrefix, litFlag] at hf hint
        have h128 : ¬ 128 ≤ b.toNat := by omega
        have h64 : 64 ≤ b.toNat := by omega
        simp only [decodeField, fieldType_eq, h128, h64, if_true, if_false]
        rw [decodeLiteralField_complete_index (p := 6) (by decide) (by decide) rest h0 hint hv hl]
        simp [hins]
      | without =>
        refine ⟨b, w' ++ wv, t, rfl, ?_, hwf, by rw [← hT]; simp⟩
        simp only [litPrefix, litFlag] at hf hint
        have h128 : ¬ 128 ≤ b.toNat := by omega
        have h64 : ¬ 64 ≤ b.toNat := by omega
        have h32 : ¬ 32 ≤ b.toNat := by omega
        have h16 : ¬ 16 ≤ b.toNat := by omega
        simp only [decodeField, fieldType_eq, h128, h64, h32, h16, if_false]
        rw [decodeLiteralField_complete_index (p := 4) (by decide) (by decide) rest h0 hint hv hl]
        simp
      | never =>
        refine ⟨b, w' ++ wv, t, rfl, ?_, hwf, by rw [← hT]; simp⟩
        simp only [litPrefix, litFlag] at hf hint
        have h128 : ¬ 128 ≤ b.toNat := by omega
        have h64 : ¬ 64 ≤ b.toNat := by omega
        have h32 : ¬ 32 ≤ b.toNat := by omega
        have h16 : 16 ≤ b.toNat := by omega
        simp only [decodeField, fieldType_eq, h128, h64, h32, h16, if_false, if_true]
        rw [decodeLiteralField_complete_index (p := 4) (by decide) (by decide) rest h0 hint hv hl]
        simp
  | literalNew mode n value wi wn wv hint hn hv =>
    obtain ⟨b, w', rfl⟩ := int_ne_nil hint.1
    have hf := intRep_first hint.1
    simp only [execRep, Option.map_some, Option.some.injEq, Prod.mk.injEq] at he
    obtain ⟨rfl, hT⟩ := he
    cases mode with
    | incremental =>
      obtain ⟨t1, hins, hwf1, habs⟩ := DynTable.insert_spec (ε := FrameError) t ⟨n, value⟩ hwf
      refine ⟨b, w' ++ (wn ++ wv), t1, rfl, ?_, hwf1, by rw [habs, ← hT]; simp⟩
      simp only [litPrefix, litFlag] at hf hint
      have h128 : ¬ 128 ≤ b.toNat := by omega
      have h64 : 64 ≤ b.toNat := by omega
      simp only [decodeField, fieldType_eq, h128, h64, if_true, if_false]
      rw [decodeLiteralField_complete_new (p := 6) (by decide) (by decide) rest hint hn hv]
      simp [hins]
    | without =>
      refine ⟨b, w' ++ (wn ++ wv), t, rfl, ?_, hwf, by rw [← hT]; simp⟩
      simp only [litPrefix, litFlag] at hf hint
      have h128 : ¬ 128 ≤ b.toNat := by omega
      have h64 : ¬ 64 ≤ b.toNat := by omega
      have h32 : ¬ 32 ≤ b.toNat := by omega
      have h16 : ¬ 16 ≤ b.toNat := by omega
      simp only [decodeField, fieldType_eq, h128, h64, h32, h16, if_false]
      rw [decodeLiteralField_complete_new (p := 4) (by decide) (by decide) rest hint hn hv]
      simp
    | never =>
      refine ⟨b, w' ++ (wn ++ wv), t, rfl, ?_, hwf, by rw [← hT]; simp⟩
      simp only [litPrefix, litFlag] at hf hint
      have h128 : ¬ 128 ≤ b.toNat := by omega
      have h64 : ¬ 64 ≤ b.toNat := by omega
      have h32 : ¬ 32 ≤ b.toNat := by omega
      have h16 : 16 ≤ b.toNat := by omega
      simp only [decodeField, fieldType_eq, h128, h64, h32, h16, if_false, if_true]
      rw [decodeLiteralField_complete_new (p := 4) (by decide) (by decide) rest hint hn hv]
      simp
  | sizeUpdate n _ hint =>
    obtain ⟨b, w', rfl⟩ := int_ne_nil hint.1
    have hf := intRep_first hint.1
    simp only [execRep] at he
    split at he
    · rename_i hle
      simp only [Option.some.injEq, Prod.mk.injEq] at he
      obtain ⟨rfl, rfl⟩ := he
      obtain ⟨hd, hvv⟩ := decodeInt_of_int (p := 5) (by decide) (by decide) hint rest
      obtain ⟨t2, hset, hwf2, habs⟩ := DynTable.setMax_spec (ε := FrameError) t n hwf
      refine ⟨b, w', t2, rfl, ?_, hwf2, habs⟩
      have h128 : ¬ 128 ≤ b.toNat := by omega
      have h64 : ¬ 64 ≤ b.toNat := by omega
      have h32 : 32 ≤ b.toNat := by omega
      simp only [decodeField, fieldType_eq, h128, h64, h32, if_false, if_true, decodeSizeUpdate, hd,
        hvv]
      rw [if_neg (by simp [hardTableSizeLimit]; omega)]
      simp [hset]
    · simp at he

/-- When a field's first integer is malformed: indexed fields and literals only. -/
def BadFirstInt (r : Bytes) : Prop :=
  ∃ b r', r = b :: r' ∧
    ((128 ≤ b.toNat ∧ ∃ e, decodeInt r 7 = .error e) ∨
     (64 ≤ b.toNat ∧ b.toNat < 128 ∧ ∃ e, decodeInt r 6 = .error e) ∨
     (b.toNat < 32 ∧ ∃ e, decodeInt r 4 = .error e))

theorem decodeField_ub {t : DynTable} (hwf : t.WF) {b : UInt8} {r : Bytes} {u : UB} :
    decodeField t (b :: r) b = .ub u ↔ u = .derefError ∧ BadFirstInt (b :: r) := by
  have hlt := b.toNat_lt
  have bad : BadFirstInt (b :: r) ↔
    ((128 ≤ b.toNat ∧ ∃ e, decodeInt (b :: r) 7 = .error e) ∨
     (64 ≤ b.toNat ∧ b.toNat < 128 ∧ ∃ e, decodeInt (b :: r) 6 = .error e) ∨
     (b.toNat < 32 ∧ ∃ e, decodeInt (b :: r) 4 = .error e)) := by
    constructor
    · rintro ⟨b', r', heq, h⟩
      obtain ⟨rfl, rfl⟩ : b = b' ∧ r = r' := by simpa using heq
      exact h
    · intro h; exact ⟨b, r, rfl, h⟩
  rw [bad]
  simp only [decodeField, fieldType_eq]
  have bind_ub_iff : ∀ {α β : Type} (x : Dec α) (f : α → Dec β), (∀ a, f a ≠ .ub u) →
      ((x >>= f) = .ub u ↔ x = .ub u) := by
    intro α β x f hf
    cases x with
    | ok a => simp [hf a]
    | err e => simp
    | ub u' => simp
  by_cases h128 : 128 ≤ b.toNat
  · simp only [h128, if_true]
    rw [bind_ub_iff _ _ (by simp), decodeIndexedField_ub]
    have : ¬ b.toNat < 128 := by omega
    have : ¬ b.toNat < 32 := by omega
    simp [*]
  simp only [h128, if_false]
  by_cases h64 : 64 ≤ b.toNat
  · simp only [h64, if_true]
    rw [bind_ub_iff, decodeLiteralField_ub]
    · have : b.toNat < 128 := by omega
      have : ¬ b.toNat < 32 := by omega
      simp [*]
    · rintro ⟨h, r1⟩
      obtain ⟨t1, hins, -, -⟩ := DynTable.insert_spec (ε := FrameError) t h hwf
      simp [hins]
  simp only [h64, if_false]
  by_cases h32 : 32 ≤ b.toNat
  · simp only [h32, if_true]
    rw [bind_ub_iff _ _ (by simp)]
    have : ¬ b.toNat < 32 := by omega
    simp only [this, false_and, or_false, and_false, iff_false]
    simp only [decodeSizeUpdate]
    split
    · simp
    · split
      · simp
      · rename_i newSz r2 _ _
        obtain ⟨t2, hset, -, -⟩ := DynTable.setMax_spec (ε := FrameError) t newSz.toNat hwf
        simp [hset]
  simp only [h32, if_false]
  have : b.toNat < 32 := by omega
  by_cases h16 : 16 ≤ b.toNat
  · simp only [h16, if_true]
    rw [bind_ub_iff _ _ (by simp), decodeLiteralField_ub]
    simp [*]
  · simp only [h16, if_false]
    rw [bind_ub_iff _ _ (by simp), decodeLiteralField_ub]
    simp [*]

/-! ### Blocks -/

theorem repWire_length {rep : Rep} {w : Bytes} (h : RepWire Dialect.lenient rep w) :
    1 ≤ w.length := by
  cases h with
  | indexed i _ h => obtain ⟨b, w', rfl⟩ := int_ne_nil h.1; simp
  | literalIndexed mode i v wi wv h0 h hv => obtain ⟨b, w', rfl⟩ := int_ne_nil h.1; simp
  | literalNew mode n v wi wn wv h hn hv => obtain ⟨b, w', rfl⟩ := int_ne_nil h.1; simp
  | sizeUpdate n _ h => obtain ⟨b, w', rfl⟩ := int_ne_nil h.1; simp

theorem decodeLoop_sound (fuel : Nat) : ∀ (t : DynTable) (r : Bytes) (acc hs : List Header)
    (t' : DynTable), t.WF → decodeLoop fuel t r acc = .ok hs t' →
    t'.WF ∧ ∃ reps out, BlockWire Dialect.lenient reps r ∧ hs = acc ++ out ∧
      execReps sizeLimit t.abs reps = some (out, t'.abs) := by
  induction fuel with
  | zero =>
    intro t r acc hs t' hwf h
    cases r with
    | nil =>
      simp only [decodeLoop, BlockRes.ok.injEq] at h
      obtain ⟨rfl, rfl⟩ := h
      exact ⟨hwf, [], [], .nil, by simp, rfl⟩
    | cons b r => simp [decodeLoop] at h
  | succ fuel ih =>
    intro t r acc hs t' hwf h
    cases r with
    | nil =>
      simp only [decodeLoop, BlockRes.ok.injEq] at h
      obtain ⟨rfl, rfl⟩ := h
      exact ⟨hwf, [], [], .nil, by simp, rfl⟩
    | cons b r =>
      simp only [decodeLoop] at h
      split at h
      · rename_i hs1 t1 r1 hf
        obtain ⟨hwf1, rep, w, hr, hw, he⟩ := decodeField_sound hwf hf
        obtain ⟨hwf', reps, out, hb, ho, hex⟩ := ih _ _ _ _ _ hwf1 h
        refine ⟨hwf', rep :: reps, hs1 ++ out, ?_, by simp [ho], ?_⟩
        · rw [hr]; exact .cons _ _ _ _ hw hb
        · simp [execReps, he, hex]
      · simp at h
      · simp at h

theorem decodeLoop_complete (reps : List Rep) : ∀ (fuel : Nat) (t : DynTable) (r : Bytes)
    (acc out : List Header) (T : Table), t.WF → r.length ≤ fuel →
    BlockWire Dialect.lenient reps r → execReps sizeLimit t.abs reps = some (out, T) →
    ∃ t', decodeLoop fuel t r acc = .ok (acc ++ out) t' ∧ t'.WF ∧ t'.abs = T := by
  induction reps with
  | nil =>
    intro fuel t r acc out T hwf hl hb he
    cases hb
    simp only [execReps, Option.some.injEq, Prod.mk.injEq] at he
    obtain ⟨rfl, rfl⟩ := he
    exact ⟨t, by cases fuel <;> simp [decodeLoop], hwf, rfl⟩
  | cons rep reps ih =>
    intro fuel t r acc out T hwf hl hb he
    cases hb with
    | cons _ _ w ws hw hws =>
      simp only [execReps] at he
      split at he
      · simp at he
      · rename_i hs1 T1 hex
        obtain ⟨⟨hs2, T2⟩, he2, heq⟩ := Option.map_eq_some_iff.mp he
        simp only [Prod.mk.injEq] at heq
        obtain ⟨rfl, rfl⟩ := heq
        obtain ⟨b, w', t1, rfl, hf, hwf1, habs⟩ := decodeField_complete hwf hw hex ws
        subst habs
        cases fuel with
        | zero => simp at hl
        | succ fuel =>
          obtain ⟨t', h1, h2, h3⟩ := ih fuel t1 ws (acc ++ hs1) hs2 T2 hwf1
            (by simp at hl ⊢; omega) hws he2
          refine ⟨t', ?_, h2, h3⟩
          simp only [List.cons_append, decodeLoop]
          simp only [List.cons_append] at hf
          rw [hf]
          simp only
          rw [h1]; simp

/-- Undefined behaviour happens exactly when, after a valid beginning, an indexed or literal field
starts with a malformed integer. -/
theorem decodeLoop_ub (fuel : Nat) : ∀ (t : DynTable) (r : Bytes) (acc : List Header) (u : UB),
    t.WF → r.length ≤ fuel →
    (decodeLoop fuel t r acc = .ub u ↔
      u = .derefError ∧ ∃ reps w r' out T, r = w ++ r' ∧ BlockWire Dialect.lenient reps w ∧
        execReps sizeLimit t.abs reps = some (out, T) ∧ BadFirstInt r') := by
  induction fuel with
  | zero =>
    intro t r acc u hwf hl
    have : r = [] := List.length_eq_zero_iff.mp (by omega)
    subst this
    simp only [decodeLoop, reduceCtorEq, false_iff]
    rintro ⟨-, reps, w, r', out, T, hr, -, -, b, r'', hr', -⟩
    subst hr'; simp at hr
  | succ fuel ih =>
    intro t r acc u hwf hl
    cases r with
    | nil =>
      simp only [decodeLoop, reduceCtorEq, false_iff]
      rintro ⟨-, reps, w, r', out, T, hr, -, -, b, r'', hr', -⟩
      subst hr'; simp at hr
    | cons b r =>
      have hstep : decodeLoop (fuel + 1) t (b :: r) acc = .ub u ↔
          (decodeField t (b :: r) b = .ub u) ∨ (∃ hs t1 r1, decodeField t (b :: r) b = .ok (hs, t1, r1)
            ∧ decodeLoop fuel t1 r1 (acc ++ hs) = .ub u) := by
        simp only [decodeLoop]
        cases hf : decodeField t (b :: r) b with
        | ok x =>
          obtain ⟨hs, t1, r1⟩ := x
          simp only [reduceCtorEq, false_or, Outcome.ok.injEq, Prod.mk.injEq]
          constructor
          · intro h; exact ⟨_, _, _, ⟨rfl, rfl, rfl⟩, h⟩
          · rintro ⟨_, _, _, ⟨rfl, rfl, rfl⟩, h⟩; exact h
        | err e => simp
        | ub u' => simp
      rw [hstep]
      constructor
      · rintro (h | ⟨hs, t1, r1, hf, hloop⟩)
        · obtain ⟨rfl, hbad⟩ := (decodeField_ub hwf).mp h
          exact ⟨rfl, [], [], b :: r, [], t.abs, rfl, .nil, rfl, hbad⟩
        · obtain ⟨hwf1, rep, w, hr, hw, he⟩ := decodeField_sound hwf hf
          have hlen := repWire_length hw
          have hlr := congrArg List.length hr
          simp only [List.length_cons, List.length_append] at hlr hl
          obtain ⟨rfl, reps, w', r', out, T, hr1, hb, hex, hbad⟩ :=
            (ih t1 r1 _ u hwf1 (by omega)).mp hloop
          exact ⟨rfl, rep :: reps, w ++ w', r', hs ++ out, T, by simp [hr, hr1],
            .cons _ _ _ _ hw hb, by simp [execReps, he, hex], hbad⟩
      · rintro ⟨rfl, reps, w, r', out, T, hr, hb, hex, hbad⟩
        cases hb with
        | nil =>
          left
          simp only [List.nil_append] at hr
          rw [← hr] at hbad
          exact (decodeField_ub hwf).mpr ⟨rfl, hbad⟩
        | cons rep reps w ws hw hws =>
          right
          simp only [execReps] at hex
          split at hex
          · simp at hex
          · rename_i hs1 T1 he1
            obtain ⟨⟨hs2, T2⟩, he2, heq⟩ := Option.map_eq_some_iff.mp hex
            obtain ⟨b', w', t1, rfl, hf, hwf1, habs⟩ := decodeField_complete hwf hw he1 (ws ++ r')
            subst habs
            obtain ⟨rfl, hr'⟩ : b = b' ∧ r = w' ++ (ws ++ r') := by simpa using hr
            refine ⟨hs1, t1, ws ++ r', ?_, ?_⟩
            · rw [hr']; simpa using hf
            · have hlr := congrArg List.length hr'
              simp only [List.length_cons, List.length_append] at hlr hl
              exact (ih t1 _ _ _ hwf1 (by simp only [List.length_append]; omega)).mpr
                ⟨rfl, reps, ws, r', hs2, T2, rfl, hws, he2, hbad⟩

end Ion
