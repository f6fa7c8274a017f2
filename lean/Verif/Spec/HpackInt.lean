import Verif.Model.Base

/-!
# Specification: integer representation, RFC 7541 section 5.1

Stated without reference to the codec under study.
-/

namespace Ion.Spec

/-- Value of a list of continuation octets: seven low bits each, least significant first. -/
def contValue : Bytes → Nat
  | [] => 0
  | b :: bs => b.toNat % 128 + 128 * contValue bs

/-- A well-formed run of continuation octets: all but the last have the top bit set. -/
inductive ContOctets : Bytes → Prop
  | last (b : UInt8) (h : b.toNat < 128) : ContOctets [b]
  | more (b : UInt8) (bs : Bytes) (h : 128 ≤ b.toNat) (hs : ContOctets bs) : ContOctets (b :: bs)

/-- `IntRep n flag v bytes`: `bytes` represents the integer `v` with an `n`-bit prefix, and the
bits of the first octet above the prefix are `flag`. -/
inductive IntRep (n flag v : Nat) : Bytes → Prop
  | short (b : UInt8) (hb : b.toNat = flag * 2 ^ n + v) (hv : v < 2 ^ n - 1) : IntRep n flag v [b]
  | long (b : UInt8) (cs : Bytes) (hb : b.toNat = flag * 2 ^ n + (2 ^ n - 1)) (hc : ContOctets cs)
      (hv : v = 2 ^ n - 1 + contValue cs) : IntRep n flag v (b :: cs)

end Ion.Spec
