import Verif.Model.Base

/-! Facts about single octets, by exhaustive kernel evaluation over all 256 values. -/

namespace Ion

theorem forall_u8 {p : UInt8 → Prop} (h : ∀ n : Fin 256, p (UInt8.ofNat n.val)) : ∀ b, p b := by
  intro b
  have hb : b.toNat < 256 := b.toNat_lt
  have := h ⟨b.toNat, hb⟩
  simpa using this

instance decidableForallU8 (p : UInt8 → Prop) [DecidablePred p] : Decidable (∀ b, p b) :=
  if h : ∀ n : Fin 256, p (UInt8.ofNat n.val) then .isTrue (forall_u8 h)
  else .isFalse fun H => h fun _ => H _

theorem u8_and_7f (b : UInt8) : (b.toUInt32 &&& 0x7F).toNat = b.toNat % 128 := by
  revert b; decide +kernel

theorem u8_and_80 (b : UInt8) : (b &&& 0x80 ≠ 0) ↔ 128 ≤ b.toNat := by
  revert b; decide +kernel

end Ion
