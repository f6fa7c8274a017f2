import Verif.Lemmas.IntCodec

/-! # C01-C03: HPACK integers -/

namespace Ion
open Spec

theorem Spec.IntRep.withFlag {p v : Nat} {e0 hi : UInt8} {es : Bytes} (h : IntRep p 0 v (e0 :: es))
    (hhi : hi.toNat % 2 ^ p = 0) : IntRep p (hi.toNat / 2 ^ p) v ((e0 ||| hi) :: es) := by
  have hpos : 0 < 2 ^ p := Nat.pow_pos (by decide)
  have key : e0.toNat < 2 ^ p → (e0 ||| hi).toNat = hi.toNat / 2 ^ p * 2 ^ p + e0.toNat := by
    intro hlt
    have e : hi.toNat = 2 ^ p * (hi.toNat / 2 ^ p) := by
      have := Nat.div_add_mod hi.toNat (2 ^ p); omega
    rw [UInt8.toNat_or, Nat.or_comm, Nat.mul_comm, Nat.two_pow_add_eq_or_of_lt hlt, ← e]
  cases h with
  | short _ hb hv => exact .short _ (by rw [key (by omega)]; omega) hv
  | long _ _ hb hc hv => exact .long _ _ (by rw [key (by omega)]; omega) hc hv

/-- C01: decoding what was encoded gives the value back, for every 32-bit value, every prefix width
1..8, every choice of flag bits above the prefix, and every continuation of the input. -/
theorem C01_int_roundtrip (v : UInt32) (p : UInt8) (hp : 1 ≤ p.toNat ∧ p.toNat ≤ 8) (hi : UInt8)
    (hhi : hi.toNat % 2 ^ p.toNat = 0) (rest : Bytes) :
    ∃ e0 es, encodeInt v p = some (e0 :: es) ∧
      decodeInt (((e0 ||| hi) :: es) ++ rest) p = .ok (v, rest) := by
  obtain ⟨enc, he, hrep, hl, -⟩ := encodeInt_some v p hp.1 hp.2
  cases enc with
  | nil => cases hrep
  | cons e0 es =>
    refine ⟨e0, es, he, ?_⟩
    rw [decodeInt_iff _ _ hp.1 hp.2]
    exact ⟨_, _, rfl, hrep.withFlag hhi, by simpa using hl⟩

example : decodeInt ([0xff, 0x9a, 0x0a, 0x55]) 5 = .ok (1337, [0x55]) ∧
    encodeInt 1337 5 = some [0x1f, 0x9a, 0x0a] ∧ (0xe0 : UInt8).toNat % 2 ^ 5 = 0 := by
  decide +kernel

/-- C02: success means exactly that the input starts with a section 5.1 representation of the
returned value with at most five continuation octets (the value is below 2^32 by its type). -/
theorem C02_int_decode_exact (r : Bytes) (p : UInt8) (hp : 1 ≤ p.toNat ∧ p.toNat ≤ 8)
    (v : UInt32) (rest : Bytes) :
    decodeInt r p = .ok (v, rest) ↔
      ∃ flag enc, r = enc ++ rest ∧ IntRep p.toNat flag v.toNat enc ∧ enc.length ≤ 6 :=
  decodeInt_iff r p hp.1 hp.2 v rest

/-- C02: conversely an error means that no prefix of the input is such a representation of any
32-bit value: nothing representable is refused and nothing is wrapped. -/
theorem C02_int_decode_error (r : Bytes) (p : UInt8) (hp : 1 ≤ p.toNat ∧ p.toNat ≤ 8)
    (e : IntErr) (h : decodeInt r p = .error e) :
    ¬ ∃ flag v enc rest, r = enc ++ rest ∧ IntRep p.toNat flag v enc ∧ enc.length ≤ 6 ∧
      v < 2 ^ 32 := by
  rintro ⟨flag, v, enc, rest, hr, hrep, hl, hv⟩
  have hvv : (UInt32.ofNat v).toNat = v := by
    rw [UInt32.toNat_ofNat']; exact Nat.mod_eq_of_lt hv
  have := (decodeInt_iff r p hp.1 hp.2 (UInt32.ofNat v) rest).mpr
    ⟨flag, enc, hr, by rw [hvv]; exact hrep, hl⟩
  rw [h] at this; cases this

example : decodeInt [0xff, 0xff, 0xff, 0xff, 0xff, 0x0f] 7 = .error .integerOverflow ∧
    decodeInt [0xff, 0x80, 0xff, 0xff, 0xff, 0x0f] 7 = .ok (0xffffffff, []) ∧
    decodeInt [0xff, 0x80, 0x80, 0x80, 0x80, 0x80, 0x00] 7 = .error .tooManyContinuationBytes := by
  decide +kernel

/-- C03: widths outside 1..8 are rejected. -/
theorem C03_int_encode_rejects (v : UInt32) (p : UInt8) :
    encodeInt v p = none ↔ ¬ (1 ≤ p.toNat ∧ p.toNat ≤ 8) := by
  constructor
  · intro h hp
    obtain ⟨enc, he, -⟩ := encodeInt_some v p hp.1 hp.2
    rw [h] at he; cases he
  · intro h
    have : p = 0 ∨ p > 8 := by
      by_cases h0 : p.toNat = 0
      · exact .inl (UInt8.toNat_inj.mp (by simpa using h0))
      · right; rw [gt_iff_lt, UInt8.lt_iff_toNat_lt]
        have : (8 : UInt8).toNat = 8 := rfl
        omega
    simp only [encodeInt]; rw [if_pos this]

/-- C03: otherwise the output is a representation of the value with clear flag bits, of at most six
octets, and no representation (with any flag bits) is shorter. -/
theorem C03_int_encode_canonical (v : UInt32) (p : UInt8) (hp : 1 ≤ p.toNat ∧ p.toNat ≤ 8) :
    ∃ enc, encodeInt v p = some enc ∧ IntRep p.toNat 0 v.toNat enc ∧ enc.length ≤ 6 ∧
      (∀ flag enc', IntRep p.toNat flag v.toNat enc' → enc.length ≤ enc'.length) :=
  encodeInt_some v p hp.1 hp.2

/-- A non-minimal representation exists, so minimality says something. -/
example : IntRep 5 0 31 [0x1f, 0x80, 0x00] ∧ IntRep 5 0 31 [0x1f, 0x00] := by
  refine ⟨.long _ _ (by decide) (.more _ _ (by decide) (.last _ (by decide))) (by decide),
    .long _ _ (by decide) (.last _ (by decide)) (by decide)⟩

end Ion
