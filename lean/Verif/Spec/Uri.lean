import Verif.Model.Base

/-!
# Specification: request targets, RFC 3986 sections 2.1, 3.4; RFC 9110 section 4.2.3
-/

namespace Ion.Spec

/-- The path of a target: what comes before its query. -/
def targetPath (target : Bytes) : Bytes := target.takeWhile (· ≠ 0x3f)

/-- The value of a hexadecimal digit. -/
def hexValue (b : UInt8) : Option Nat :=
  if 0x30 ≤ b ∧ b ≤ 0x39 then some (b.toNat - 0x30)
  else if 0x41 ≤ b ∧ b ≤ 0x46 then some (b.toNat - 0x41 + 10)
  else if 0x61 ≤ b ∧ b ≤ 0x66 then some (b.toNat - 0x61 + 10)
  else none

/-- The octets a percent-encoded text stands for. -/
inductive PctDecodes : Bytes → Bytes → Prop
  | nil : PctDecodes [] []
  | plain (b : UInt8) (t d : Bytes) (hb : b ≠ 0x25) (h : PctDecodes t d) : PctDecodes (b :: t) (b :: d)
  | encoded (x y : UInt8) (i j : Nat) (t d : Bytes) (hx : hexValue x = some i) (hy : hexValue y = some j)
      (h : PctDecodes t d) : PctDecodes (0x25 :: x :: y :: t) (UInt8.ofNat (16 * i + j) :: d)

end Ion.Spec
