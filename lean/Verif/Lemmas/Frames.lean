import Verif.Model.Frames
import Verif.Spec.Frames
import Verif.Lemmas.Byte

/-! # Bytes in network order -/

namespace Ion
open Spec

theorem or_add {a b k : Nat} (h : b < 2 ^ k) : (a * 2 ^ k) ||| b = a * 2 ^ k + b := by
  rw [Nat.mul_comm, Nat.two_pow_add_eq_or_of_lt h]

theorem loadU16_toNat (a b : UInt8) : (loadU16 a b).toNat = a.toNat * 2 ^ 8 + b.toNat := by
  have := a.toNat_lt
  have := b.toNat_lt
  simp only [loadU16, UInt16.toNat_or, UInt16.toNat_shiftLeft, UInt8.toNat_toUInt16,
    Nat.shiftLeft_eq]
  rw [show (UInt16.toNat 8 % 16) = 8 from rfl, Nat.mod_eq_of_lt (by omega)]
  exact or_add (by omega)

theorem loadU24_toNat (a b c : UInt8) :
    (loadU24 a b c).toNat = a.toNat * 2 ^ 16 + b.toNat * 2 ^ 8 + c.toNat := by
  have := a.toNat_lt
  have := b.toNat_lt
  have := c.toNat_lt
  simp only [loadU24, UInt32.toNat_or, UInt32.toNat_shiftLeft, UInt8.toNat_toUInt32,
    Nat.shiftLeft_eq]
  rw [show (UInt32.toNat 16 % 32) = 16 from rfl, show (UInt32.toNat 8 % 32) = 8 from rfl,
    Nat.mod_eq_of_lt (by omega), Nat.mod_eq_of_lt (by omega), or_add (by omega),
    show a.toNat * 2 ^ 16 + b.toNat * 2 ^ 8 = (a.toNat * 2 ^ 8 + b.toNat) * 2 ^ 8 by omega,
    or_add (by omega)]

theorem loadU32_toNat (a b c d : UInt8) :
    (loadU32 a b c d).toNat =
      a.toNat * 2 ^ 24 + b.toNat * 2 ^ 16 + c.toNat * 2 ^ 8 + d.toNat := by
  have := a.toNat_lt
  have := b.toNat_lt
  have := c.toNat_lt
  have := d.toNat_lt
  simp only [loadU32, UInt32.toNat_or, UInt32.toNat_shiftLeft, UInt8.toNat_toUInt32,
    Nat.shiftLeft_eq]
  rw [show (UInt32.toNat 24 % 32) = 24 from rfl, show (UInt32.toNat 16 % 32) = 16 from rfl,
    show (UInt32.toNat 8 % 32) = 8 from rfl,
    Nat.mod_eq_of_lt (by omega), Nat.mod_eq_of_lt (by omega), Nat.mod_eq_of_lt (by omega),
    or_add (by omega),
    show a.toNat * 2 ^ 24 + b.toNat * 2 ^ 16 = (a.toNat * 2 ^ 8 + b.toNat) * 2 ^ 16 by omega,
    or_add (by omega),
    show (a.toNat * 2 ^ 8 + b.toNat) * 2 ^ 16 + c.toNat * 2 ^ 8 =
      (a.toNat * 2 ^ 16 + b.toNat * 2 ^ 8 + c.toNat) * 2 ^ 8 by omega,
    or_add (by omega)]

theorem and_31 (v : UInt32) : (v &&& 0x7FFFFFFF).toNat = v.toNat % 2 ^ 31 := by
  rw [UInt32.toNat_and, show UInt32.toNat 0x7FFFFFFF = 2 ^ 31 - 1 from rfl,
    Nat.and_two_pow_sub_one_eq_mod]

theorem byte32 (v : UInt32) (k : UInt32) :
    (v >>> k &&& 0xFF).toUInt8.toNat = v.toNat / 2 ^ (k.toNat % 32) % 256 := by
  rw [UInt32.toNat_toUInt8, UInt32.toNat_and, UInt32.toNat_shiftRight, Nat.shiftRight_eq_div_pow,
    show UInt32.toNat 0xFF = 2 ^ 8 - 1 from rfl, Nat.and_two_pow_sub_one_eq_mod]
  simp

theorem byte32_0 (v : UInt32) : (v &&& 0xFF).toUInt8.toNat = v.toNat % 256 := by
  rw [UInt32.toNat_toUInt8, UInt32.toNat_and,
    show UInt32.toNat 0xFF = 2 ^ 8 - 1 from rfl, Nat.and_two_pow_sub_one_eq_mod]
  simp

theorem byte16_8 (v : UInt16) : (v >>> 8 &&& 0xFF).toUInt8.toNat = v.toNat / 2 ^ 8 % 256 := by
  rw [UInt16.toNat_toUInt8, UInt16.toNat_and, UInt16.toNat_shiftRight, Nat.shiftRight_eq_div_pow,
    show UInt16.toNat 0xFF = 2 ^ 8 - 1 from rfl, Nat.and_two_pow_sub_one_eq_mod,
    show (UInt16.toNat 8 % 16) = 8 from rfl]
  simp

theorem byte16_0 (v : UInt16) : (v &&& 0xFF).toUInt8.toNat = v.toNat % 256 := by
  rw [UInt16.toNat_toUInt8, UInt16.toNat_and,
    show UInt16.toNat 0xFF = 2 ^ 8 - 1 from rfl, Nat.and_two_pow_sub_one_eq_mod]
  simp

theorem u8_ext {a b : UInt8} (h : a.toNat = b.toNat) : a = b := UInt8.toNat_inj.mp h
theorem u32_ext {a b : UInt32} (h : a.toNat = b.toNat) : a = b := UInt32.toNat_inj.mp h
theorem u16_ext {a b : UInt16} (h : a.toNat = b.toNat) : a = b := UInt16.toNat_inj.mp h

/-- The stored octets, as numbers. -/
theorem storeU32_eq (v : UInt32) : ∃ a b c d : UInt8, storeU32 v = [a, b, c, d] ∧
    a.toNat = v.toNat / 2 ^ 24 % 256 ∧ b.toNat = v.toNat / 2 ^ 16 % 256 ∧
    c.toNat = v.toNat / 2 ^ 8 % 256 ∧ d.toNat = v.toNat % 256 :=
  ⟨_, _, _, _, rfl, byte32 v 24, byte32 v 16, byte32 v 8, byte32_0 v⟩

theorem storeU24_eq (v : UInt32) : ∃ a b c : UInt8, storeU24 v = [a, b, c] ∧
    a.toNat = v.toNat / 2 ^ 16 % 256 ∧ b.toNat = v.toNat / 2 ^ 8 % 256 ∧
    c.toNat = v.toNat % 256 :=
  ⟨_, _, _, rfl, byte32 v 16, byte32 v 8, byte32_0 v⟩

theorem storeU16_eq (v : UInt16) : ∃ a b : UInt8, storeU16 v = [a, b] ∧
    a.toNat = v.toNat / 2 ^ 8 % 256 ∧ b.toNat = v.toNat % 256 :=
  ⟨_, _, rfl, byte16_8 v, byte16_0 v⟩

theorem storeU32_load (a b c d : UInt8) : storeU32 (loadU32 a b c d) = [a, b, c, d] := by
  obtain ⟨a', b', c', d', h, ha, hb, hc, hd⟩ := storeU32_eq (loadU32 a b c d)
  rw [loadU32_toNat] at ha hb hc hd
  have := a.toNat_lt
  have := b.toNat_lt
  have := c.toNat_lt
  have := d.toNat_lt
  rw [h, u8_ext (a := a') (b := a) (by omega), u8_ext (a := b') (b := b) (by omega),
    u8_ext (a := c') (b := c) (by omega), u8_ext (a := d') (b := d) (by omega)]

/-- The same with the reserved bit cleared. -/
theorem storeU32_load_31 (a b c d : UInt8) :
    storeU32 (loadU32 a b c d &&& 0x7FFFFFFF) = [a &&& 0x7F, b, c, d] := by
  obtain ⟨a', b', c', d', h, ha, hb, hc, hd⟩ := storeU32_eq (loadU32 a b c d &&& 0x7FFFFFFF)
  rw [and_31, loadU32_toNat] at ha hb hc hd
  have h7 : (a &&& 0x7F).toNat = a.toNat % 128 := by
    rw [UInt8.toNat_and, show UInt8.toNat 0x7F = 2 ^ 7 - 1 from rfl, Nat.and_two_pow_sub_one_eq_mod]
  have := a.toNat_lt
  have := b.toNat_lt
  have := c.toNat_lt
  have := d.toNat_lt
  rw [h, u8_ext (a := a') (b := a &&& 0x7F) (by rw [h7]; omega), u8_ext (a := b') (b := b) (by omega),
    u8_ext (a := c') (b := c) (by omega), u8_ext (a := d') (b := d) (by omega)]

theorem load_storeU32 (v : UInt32) {a b c d : UInt8} (h : storeU32 v = [a, b, c, d]) :
    loadU32 a b c d = v := by
  obtain ⟨a', b', c', d', h', ha, hb, hc, hd⟩ := storeU32_eq v
  rw [h'] at h
  simp only [List.cons.injEq, and_true] at h
  obtain ⟨rfl, rfl, rfl, rfl⟩ := h
  have := v.toNat_lt
  exact u32_ext (by rw [loadU32_toNat]; omega)

theorem be_two (a b : UInt8) : be [a, b] = a.toNat * 2 ^ 8 + b.toNat := by simp [be]
theorem be_three (a b c : UInt8) :
    be [a, b, c] = a.toNat * 2 ^ 16 + b.toNat * 2 ^ 8 + c.toNat := by simp [be]; omega
theorem be_four (a b c d : UInt8) :
    be [a, b, c, d] = a.toNat * 2 ^ 24 + b.toNat * 2 ^ 16 + c.toNat * 2 ^ 8 + d.toNat := by
  simp [be]; omega

theorem be_storeU32 (v : UInt32) : be (storeU32 v) = v.toNat := by
  obtain ⟨a, b, c, d, h, ha, hb, hc, hd⟩ := storeU32_eq v
  have := v.toNat_lt
  rw [h, be_four]; omega

theorem be_storeU24 (v : UInt32) (h : v.toNat < 2 ^ 24) : be (storeU24 v) = v.toNat := by
  obtain ⟨a, b, c, h, ha, hb, hc⟩ := storeU24_eq v
  rw [h, be_three]; omega

theorem be_storeU16 (v : UInt16) : be (storeU16 v) = v.toNat := by
  obtain ⟨a, b, h, ha, hb⟩ := storeU16_eq v
  have := v.toNat_lt
  rw [h, be_two]; omega

theorem storeU32_length (v : UInt32) : (storeU32 v).length = 4 := rfl
theorem storeU24_length (v : UInt32) : (storeU24 v).length = 3 := rfl
theorem storeU16_length (v : UInt16) : (storeU16 v).length = 2 := rfl

theorem FrameHeader.serialize_length (h : FrameHeader) : h.serialize.length = 9 := rfl

/-- A serialised header followed by its payload is a frame. -/
theorem serialize_wire (h : FrameHeader) (payload : Bytes) (hl : h.length.toNat = payload.length)
    (hlt : payload.length < 2 ^ 24) :
    FrameWire ⟨h.type, h.flags, h.streamId.toNat % 2 ^ 31, payload⟩ (h.serialize ++ payload) := by
  refine ⟨storeU24 h.length, storeU32 (h.streamId &&& 0x7FFFFFFF), rfl, rfl, ?_, ?_, ?_⟩
  · simp [FrameHeader.serialize]
  · rw [be_storeU24 _ (by omega)]; exact hl
  · rw [be_storeU32, and_31]; simp

end Ion
