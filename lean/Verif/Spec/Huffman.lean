import Verif.Model.Base

/-!
# Specification: Huffman code, RFC 7541 section 5.2 and appendix B

The code of appendix B is a canonical Huffman code: it is determined by the code lengths alone.
This file gives the lengths and the canonical construction, and defines what it means for an octet
string to be the Huffman encoding of another one.  Nothing here mentions trees or bit writers.
-/

namespace Ion.Spec

/-- Code lengths of symbols 0..255 and, last, of the end-of-string symbol 256 (appendix B). -/
def huffLengths : List Nat := [
   13, 23, 28, 28, 28, 28, 28, 28, 28, 24, 30, 28, 28, 30, 28, 28,
   28, 28, 28, 28, 28, 28, 30, 28, 28, 28, 28, 28, 28, 28, 28, 28,
   6, 10, 10, 12, 13, 6, 8, 11, 10, 10, 8, 11, 8, 6, 6, 6,
   5, 5, 5, 6, 6, 6, 6, 6, 6, 6, 7, 8, 15, 6, 12, 10,
   13, 6, 7, 7, 7, 7, 7, 7, 7, 7, 7, 7, 7, 7, 7, 7,
   7, 7, 7, 7, 7, 7, 7, 7, 8, 7, 8, 13, 19, 13, 14, 6,
   15, 5, 6, 5, 6, 5, 6, 6, 6, 5, 7, 7, 6, 6, 6, 5,
   6, 7, 6, 5, 5, 6, 7, 7, 7, 7, 7, 15, 11, 14, 13, 28,
   20, 22, 20, 20, 22, 22, 22, 23, 22, 23, 23, 23, 23, 23, 24, 23,
   24, 24, 22, 23, 24, 23, 23, 23, 23, 21, 22, 23, 22, 23, 23, 24,
   22, 21, 20, 22, 22, 23, 23, 21, 23, 22, 22, 24, 21, 22, 23, 23,
   21, 21, 22, 21, 23, 22, 23, 23, 20, 22, 22, 22, 23, 22, 22, 23,
   26, 26, 20, 19, 22, 23, 22, 25, 26, 26, 26, 27, 27, 26, 24, 25,
   19, 21, 26, 27, 27, 26, 27, 24, 21, 21, 26, 26, 28, 27, 27, 27,
   20, 24, 20, 21, 22, 21, 21, 23, 22, 22, 25, 25, 24, 24, 26, 23,
   26, 27, 26, 26, 27, 27, 27, 27, 27, 28, 27, 27, 27, 27, 27, 26,
   30]

/-- Symbols ordered by code length, then by value, with their length. -/
def huffOrder : List (Nat × Nat) :=
  (List.range 31).flatMap fun len =>
    (huffLengths.zipIdx.filter fun p => p.1 == len).map fun p => (p.2, p.1)

/-- Canonical assignment: codes are consecutive numbers, extended with zeros whenever the length
grows. `next` is the code of the next symbol if it had length `len`. -/
def canonical : List (Nat × Nat) → (next len : Nat) → List (Nat × Nat × Nat)
  | [], _, _ => []
  | (sym, l) :: rest, next, len =>
    let c := next * 2 ^ (l - len)
    (sym, c, l) :: canonical rest (c + 1) l

/-- Big-endian bits of a number, `n` digits. -/
def bitsOfNat (v : Nat) : Nat → List Bool
  | 0 => []
  | n + 1 => (v / 2 ^ n % 2 == 1) :: bitsOfNat v n

/-- The code table: symbol and its bits. -/
def huffTable : List (Nat × List Bool) :=
  (canonical huffOrder 0 0).map fun (sym, c, l) => (sym, bitsOfNat c l)

/-- Code of an octet. -/
def huffCode (s : UInt8) : List Bool := (huffTable.lookup s.toNat).getD []

/-- Code of the end-of-string symbol. -/
def eosCode : List Bool := (huffTable.lookup 256).getD []

/-- Concatenated codes of a string. -/
def huffBits (s : Bytes) : List Bool := s.flatMap huffCode

/-- Bits of an octet string, most significant bit of each octet first. -/
def bitsOf (data : Bytes) : List Bool := data.flatMap fun b => bitsOfNat b.toNat 8

/-- Section 5.2: `data` encodes `s` if it consists of the codes of `s` followed by padding, where
the padding is the most significant bits of the EOS code (ones), strictly shorter than 8 bits. -/
def HuffEncodes (data s : Bytes) : Prop :=
  ∃ pad, bitsOf data = huffBits s ++ pad ∧ (∀ b ∈ pad, b = true) ∧ pad.length < 8

end Ion.Spec
