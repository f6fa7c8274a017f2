import Verif.Model.IntCodec
import Verif.Spec.HpackInt
import Verif.Lemmas.Byte

namespace Ion
open Spec

theorem contOctets_ne_nil {cs : Bytes} (h : ContOctets cs) : cs ≠ [] := by
  cases h <;> simp

theorem contOctets_cons {b : UInt8} {cs : Bytes} :
    ContOctets (b :: cs) ↔ (b.toNat < 128 ∧ cs = []) ∨ (128 ≤ b.toNat ∧ ContOctets cs) := by
  constructor
  · intro h; cases h <;> simp_all
  · rintro (⟨h, rfl⟩ | ⟨h, hc⟩)
    · exact .last b h
    · exact .more b cs h hc

theorem shift_check (value d k : Nat) :
    d >>> (7 * k) < value ↔ d < value * 128 ^ k := by
  rw [Nat.shiftRight_eq_div_pow, Nat.pow_mul, Nat.div_lt_iff_lt_mul (Nat.pow_pos (by decide))]

theorem decodeIntLoop_iff (r : Bytes) : ∀ (sum : UInt32) (k : Nat) (v : UInt32) (rest : Bytes),
    k ≤ 5 →
    (decodeIntLoop r sum (UInt32.ofNat (7 * k)) = .ok (v, rest) ↔
      ∃ cs, r = cs ++ rest ∧ ContOctets cs ∧ cs.length ≤ 5 - k ∧
        v.toNat = sum.toNat + 128 ^ k * contValue cs) := by
  induction r with
  | nil =>
    intro sum k v rest hk
    simp only [decodeIntLoop, reduceCtorEq, false_iff]
    rintro ⟨cs, h, hc, -⟩
    have := contOctets_ne_nil hc
    simp at h; exact this h.1
  | cons b r ih =>
    intro sum k v rest hk
    have hsum := sum.toNat_lt
    have hv7 := u8_and_7f b
    have hval : b.toNat % 128 < 128 := Nat.mod_lt _ (by decide)
    simp only [decodeIntLoop]
    by_cases hk5 : k = 5
    · subst hk5
      rw [if_pos (by decide)]
      simp only [reduceCtorEq, false_iff]
      rintro ⟨cs, _, hc, hl, -⟩
      exact contOctets_ne_nil hc (List.length_eq_zero_iff.mp (by omega))
    have hk4 : k ≤ 4 := by omega
    have hsh : (UInt32.ofNat (7 * k)).toNat = 7 * k := by
      simp [UInt32.toNat_ofNat']; omega
    have hpow : 128 ^ k ≤ 128 ^ 4 := Nat.pow_le_pow_right (by decide) hk4
    rw [if_neg (by rw [gt_iff_lt, UInt32.lt_iff_toNat_lt, hsh]; simp; omega)]
    have hcheck : ((b.toUInt32 &&& 0x7F) > (0xFFFFFFFF - sum) >>> UInt32.ofNat (7 * k)) ↔
        4294967295 - sum.toNat < (b.toNat % 128) * 128 ^ k := by
      rw [gt_iff_lt, UInt32.lt_iff_toNat_lt, hv7, UInt32.toNat_shiftRight, hsh,
        UInt32.toNat_sub_of_le _ _ (by rw [UInt32.le_iff_toNat_le]; simp; omega),
        Nat.mod_eq_of_lt (show 7 * k < 32 by omega)]
      exact shift_check _ _ _
    by_cases hov : 4294967295 - sum.toNat < (b.toNat % 128) * 128 ^ k
    · rw [if_pos (hcheck.mpr hov)]
      simp only [reduceCtorEq, false_iff]
      rintro ⟨cs, hr, hc, hl, hv⟩
      have hvlt := v.toNat_lt
      cases hcs : cs with
      | nil => exact contOctets_ne_nil hc hcs
      | cons c cs' =>
        subst hcs
        obtain ⟨rfl, -⟩ : b = c ∧ r = cs' ++ rest := by simpa using hr
        simp only [contValue] at hv
        rw [Nat.mul_add, Nat.mul_comm (128 ^ k) (b.toNat % 128)] at hv
        omega
    · rw [if_neg (fun h => hov (hcheck.mp h))]
      have hshl : ((b.toUInt32 &&& 0x7F) <<< UInt32.ofNat (7 * k)).toNat
          = (b.toNat % 128) * 128 ^ k := by
        rw [UInt32.toNat_shiftLeft, hv7, hsh, Nat.mod_eq_of_lt (show 7 * k < 32 by omega),
          Nat.shiftLeft_eq, Nat.pow_mul]
        apply Nat.mod_eq_of_lt
        have : (2 ^ 7) ^ k = 128 ^ k := rfl
        rw [this]; omega
      have hsum' : (sum + ((b.toUInt32 &&& 0x7F) <<< UInt32.ofNat (7 * k))).toNat
          = sum.toNat + (b.toNat % 128) * 128 ^ k := by
        rw [UInt32.toNat_add, hshl]; apply Nat.mod_eq_of_lt; omega
      have hshift' : UInt32.ofNat (7 * k) + 7 = UInt32.ofNat (7 * (k + 1)) := by
        apply UInt32.toNat_inj.mp
        rw [UInt32.toNat_add, hsh]
        simp [UInt32.toNat_ofNat']; omega
      by_cases hb : 128 ≤ b.toNat
      · rw [if_pos ((u8_and_80 b).mpr hb), hshift', ih _ _ _ _ (by omega)]
        constructor
        · rintro ⟨cs, hr, hc, hl, hv⟩
          refine ⟨b :: cs, by simp [hr], .more b cs hb hc, by simp; omega, ?_⟩
          rw [hv, hsum']; simp only [contValue]
          rw [Nat.pow_succ, Nat.mul_add, Nat.mul_comm (b.toNat % 128), Nat.mul_assoc]
          omega
        · rintro ⟨cs, hr, hc, hl, hv⟩
          cases hcs : cs with
          | nil => exact absurd hcs (contOctets_ne_nil hc)
          | cons c cs' =>
            subst hcs
            obtain ⟨rfl, hr'⟩ : b = c ∧ r = cs' ++ rest := by simpa using hr
            rcases contOctets_cons.mp hc with ⟨h, -⟩ | ⟨-, hc'⟩
            · omega
            refine ⟨cs', hr', hc', by simp at hl; omega, ?_⟩
            rw [hv, hsum']; simp only [contValue]
            rw [Nat.pow_succ, Nat.mul_add, Nat.mul_comm (b.toNat % 128), Nat.mul_assoc]
            omega
      · rw [if_neg (fun h => hb ((u8_and_80 b).mp h))]
        constructor
        · intro h
          simp only [Except.ok.injEq, Prod.mk.injEq] at h
          obtain ⟨rfl, rfl⟩ := h
          refine ⟨[b], by simp, .last b (by omega), by simp; omega, ?_⟩
          rw [hsum']; simp [contValue, Nat.mul_comm]
        · rintro ⟨cs, hr, hc, hl, hv⟩
          cases hcs : cs with
          | nil => exact absurd hcs (contOctets_ne_nil hc)
          | cons c cs' =>
            subst hcs
            obtain ⟨rfl, hr'⟩ : b = c ∧ r = cs' ++ rest := by simpa using hr
            rcases contOctets_cons.mp hc with ⟨h, rfl⟩ | ⟨h, -⟩
            · simp at hr'
              subst hr'
              simp only [Except.ok.injEq, Prod.mk.injEq, and_true]
              apply UInt32.toNat_inj.mp
              rw [hsum', hv]; simp [contValue, Nat.mul_comm]
            · omega

theorem makeMask_toNat (p : UInt8) (h1 : 1 ≤ p.toNat) (h8 : p.toNat ≤ 8) :
    (makeMask p).toNat = 2 ^ p.toNat - 1 := by
  revert p; decide +kernel

theorem and_mask (b p : UInt8) (h1 : 1 ≤ p.toNat) (h8 : p.toNat ≤ 8) :
    (b &&& makeMask p).toNat = b.toNat % 2 ^ p.toNat := by
  rw [UInt8.toNat_and, makeMask_toNat p h1 h8, Nat.and_two_pow_sub_one_eq_mod]

theorem and_mask_eq (b p : UInt8) (h1 : 1 ≤ p.toNat) (h8 : p.toNat ≤ 8) :
    (b &&& makeMask p = makeMask p) ↔ b.toNat % 2 ^ p.toNat = 2 ^ p.toNat - 1 := by
  rw [← UInt8.toNat_inj, and_mask b p h1 h8, makeMask_toNat p h1 h8]

/-- The decoder accepts exactly the representations of section 5.1 with at most five continuation
octets and a value below 2^32. -/
theorem decodeInt_iff (r : Bytes) (p : UInt8) (h1 : 1 ≤ p.toNat) (h8 : p.toNat ≤ 8)
    (v : UInt32) (rest : Bytes) :
    decodeInt r p = .ok (v, rest) ↔
      ∃ flag enc, r = enc ++ rest ∧ IntRep p.toNat flag v.toNat enc ∧ enc.length ≤ 6 := by
  have hp2 : 2 ≤ 2 ^ p.toNat := by
    calc 2 = 2 ^ 1 := rfl
      _ ≤ _ := Nat.pow_le_pow_right (by decide) h1
  cases r with
  | nil =>
    simp only [decodeInt, ByteReader.readByte, reduceCtorEq, false_iff]
    rintro ⟨flag, enc, hr, hrep, -⟩
    cases hrep <;> simp at hr
  | cons b r =>
    simp only [decodeInt, ByteReader.readByte]
    have hdm := Nat.div_add_mod b.toNat (2 ^ p.toNat)
    have hml := Nat.mod_lt b.toNat (show 2 ^ p.toNat > 0 by omega)
    rw [Nat.mul_comm] at hdm
    by_cases hm : b.toNat % 2 ^ p.toNat = 2 ^ p.toNat - 1
    · rw [if_pos ((and_mask_eq b p h1 h8).mpr hm)]
      have hz : (0 : UInt32) = UInt32.ofNat (7 * 0) := rfl
      rw [hz, decodeIntLoop_iff _ _ 0 _ _ (by decide), UInt8.toNat_toUInt32, and_mask b p h1 h8, hm]
      constructor
      · rintro ⟨cs, rfl, hc, hl, hv⟩
        refine ⟨b.toNat / 2 ^ p.toNat, b :: cs, by simp,
          .long b cs (by omega) hc (by simpa using hv), by simp; omega⟩
      · rintro ⟨flag, enc, hr, hrep, hl⟩
        cases hrep with
        | short c hb hv =>
          obtain ⟨rfl, rfl⟩ : b = c ∧ r = rest := by simpa using hr
          rw [hb, Nat.mul_comm, Nat.mul_add_mod, Nat.mod_eq_of_lt (by omega)] at hm
          omega
        | long c cs hb hc hv =>
          obtain ⟨rfl, rfl⟩ : b = c ∧ r = cs ++ rest := by simpa using hr
          exact ⟨cs, rfl, hc, by simp at hl; omega, by simpa using hv⟩
    · rw [if_neg (fun h => hm ((and_mask_eq b p h1 h8).mp h))]
      constructor
      · intro h
        simp only [Except.ok.injEq, Prod.mk.injEq] at h
        obtain ⟨rfl, rfl⟩ := h
        have e : ((b &&& makeMask p).toUInt32).toNat = b.toNat % 2 ^ p.toNat := by
          rw [UInt8.toNat_toUInt32, and_mask b p h1 h8]
        refine ⟨b.toNat / 2 ^ p.toNat, [b], by simp, .short b ?_ ?_, by simp⟩
        · rw [e]; omega
        · rw [e]; omega
      · rintro ⟨flag, enc, hr, hrep, hl⟩
        cases hrep with
        | short c hb hv =>
          obtain ⟨rfl, rfl⟩ : b = c ∧ r = rest := by simpa using hr
          simp only [Except.ok.injEq, Prod.mk.injEq, and_true]
          apply UInt32.toNat_inj.mp
          rw [UInt8.toNat_toUInt32, and_mask b p h1 h8, hb, Nat.mul_comm, Nat.mul_add_mod,
            Nat.mod_eq_of_lt (by omega)]
        | long c cs hb hc hv =>
          obtain ⟨rfl, rfl⟩ : b = c ∧ r = cs ++ rest := by simpa using hr
          rw [hb, Nat.mul_comm, Nat.mul_add_mod, Nat.mod_eq_of_lt (by omega)] at hm
          omega

theorem encodeIntLoop_spec (x : UInt32) :
    ContOctets (encodeIntLoop x) ∧ contValue (encodeIntLoop x) = x.toNat := by
  induction x using encodeIntLoop.induct with
  | case1 x h ih =>
    rw [encodeIntLoop, dif_pos h]
    have hx : 128 ≤ x.toNat := by simpa [UInt32.le_iff_toNat_le] using h
    have hb : ((x &&& 0x7F) ||| 0x80).toUInt8.toNat = x.toNat % 128 + 128 := by
      simp only [UInt32.toNat_toUInt8, UInt32.toNat_or, UInt32.toNat_and]
      have e1 : x.toNat &&& (0x7F : UInt32).toNat = x.toNat % 128 :=
        Nat.and_two_pow_sub_one_eq_mod x.toNat 7
      have hlt : x.toNat % 128 < 2 ^ 7 := Nat.mod_lt _ (by decide)
      have e2 : x.toNat % 128 ||| (0x80 : UInt32).toNat = 128 + x.toNat % 128 := by
        have := Nat.two_pow_add_eq_or_of_lt hlt 1
        rw [Nat.or_comm]; simpa using this.symm
      rw [e1, e2]; omega
    have hs : (x >>> 7).toNat = x.toNat / 128 := by
      simp [UInt32.toNat_shiftRight, Nat.shiftRight_eq_div_pow]
    refine ⟨.more _ _ (by omega) ih.1, ?_⟩
    simp only [contValue]
    rw [ih.2, hb, hs]; omega
  | case2 x h =>
    rw [encodeIntLoop, dif_neg h]
    have hx : x.toNat < 128 := by
      have := h; simp [UInt32.le_iff_toNat_le] at this; omega
    have e : x.toUInt8.toNat = x.toNat := by simp [UInt32.toNat_toUInt8]; omega
    exact ⟨.last _ (by omega), by simp [contValue, e]; omega⟩

theorem encodeIntLoop_minimal (cs : Bytes) : ∀ x : UInt32, ContOctets cs → contValue cs = x.toNat →
    (encodeIntLoop x).length ≤ cs.length := by
  induction cs with
  | nil => intro x h; exact absurd rfl (contOctets_ne_nil h)
  | cons c cs ih =>
    intro x hc hv
    rw [encodeIntLoop]
    split
    · rename_i h
      have hx : 128 ≤ x.toNat := by simpa [UInt32.le_iff_toNat_le] using h
      simp only [contValue] at hv
      rcases contOctets_cons.mp hc with ⟨h', rfl⟩ | ⟨h', hc'⟩
      · simp [contValue] at hv; omega
      · have hs : (x >>> 7).toNat = x.toNat / 128 := by
          simp [UInt32.toNat_shiftRight, Nat.shiftRight_eq_div_pow]
        have := ih (x >>> 7) hc' (by rw [hs]; omega)
        simp only [List.length_cons]; omega
    · simp

theorem encodeIntLoop_length (k : Nat) : ∀ x : UInt32, x.toNat < 2 ^ (7 * (k + 1)) →
    (encodeIntLoop x).length ≤ k + 1 := by
  induction k with
  | zero =>
    intro x hx
    rw [encodeIntLoop, dif_neg (by simp [UInt32.le_iff_toNat_le]; omega)]; simp
  | succ k ih =>
    intro x hx
    rw [encodeIntLoop]
    split
    · have hs : (x >>> 7).toNat = x.toNat / 128 := by
        simp [UInt32.toNat_shiftRight, Nat.shiftRight_eq_div_pow]
      have := ih (x >>> 7) (by
        rw [hs, Nat.div_lt_iff_lt_mul (by decide)]
        calc _ < _ := hx
          _ = _ := by rw [show 7 * (k + 1 + 1) = 7 * (k + 1) + 7 by omega, Nat.pow_add])
      simp only [List.length_cons]; omega
    · simp

theorem encodeInt_some (v : UInt32) (p : UInt8) (h1 : 1 ≤ p.toNat) (h8 : p.toNat ≤ 8) :
    ∃ enc, encodeInt v p = some enc ∧ IntRep p.toNat 0 v.toNat enc ∧ enc.length ≤ 6 ∧
      (∀ flag enc', IntRep p.toNat flag v.toNat enc' → enc.length ≤ enc'.length) := by
  have hp2 : 2 ≤ 2 ^ p.toNat := by
    calc 2 = 2 ^ 1 := rfl
      _ ≤ _ := Nat.pow_le_pow_right (by decide) h1
  have hp8 : 2 ^ p.toNat ≤ 2 ^ 8 := Nat.pow_le_pow_right (by decide) h8
  have hm : (UInt32.ofNat (2 ^ p.toNat - 1)).toNat = 2 ^ p.toNat - 1 := by
    rw [UInt32.toNat_ofNat']; apply Nat.mod_eq_of_lt; omega
  have hvl := v.toNat_lt
  simp only [encodeInt]
  rw [if_neg (by
    rintro (h | h)
    · rw [h] at h1; simp at h1
    · rw [gt_iff_lt, UInt8.lt_iff_toNat_lt] at h; simp at h; omega)]
  by_cases hlt : v.toNat < 2 ^ p.toNat - 1
  · rw [if_pos (by rw [UInt32.lt_iff_toNat_lt, hm]; exact hlt)]
    refine ⟨_, rfl, .short _ ?_ hlt, by simp, ?_⟩
    · simp [UInt32.toNat_toUInt8]; omega
    · intro flag enc' h; cases h <;> simp
  · rw [if_neg (by rw [UInt32.lt_iff_toNat_lt, hm]; exact hlt)]
    have hsub : (v - UInt32.ofNat (2 ^ p.toNat - 1)).toNat = v.toNat - (2 ^ p.toNat - 1) := by
      rw [UInt32.toNat_sub_of_le _ _ (by rw [UInt32.le_iff_toNat_le, hm]; omega), hm]
    have hspec := encodeIntLoop_spec (v - UInt32.ofNat (2 ^ p.toNat - 1))
    refine ⟨_, rfl, .long _ _ ?_ hspec.1 ?_, ?_, ?_⟩
    · rw [UInt32.toNat_toUInt8, hm]; omega
    · rw [hspec.2, hsub]; omega
    · have := encodeIntLoop_length 4 (v - UInt32.ofNat (2 ^ p.toNat - 1)) (by rw [hsub]; omega)
      simp only [List.length_cons]; omega
    · intro flag enc' h
      cases h with
      | short b hb hv => omega
      | long b cs hb hc hv =>
        have := encodeIntLoop_minimal cs (v - UInt32.ofNat (2 ^ p.toNat - 1)) hc (by
          rw [hsub]; omega)
        simp only [List.length_cons]; omega

end Ion
