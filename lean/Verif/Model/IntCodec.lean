import Verif.Model.Base

/-!
# HPACK integers: `lib/hpack/byte_reader.cpp`, `int_decoder.cpp`, `int_encoder.cpp`

A `ByteReader` is represented by the bytes it has not consumed yet (`data_.subspan(pos_)`).
The C++ keeps the whole span and a position; the position never exceeds the size, so the
remaining bytes determine all observable behaviour.
-/

namespace Ion

/-- Unread bytes of a `ByteReader` (lib/hpack/byte_reader.h:9-27). -/
abbrev ByteReader := Bytes

namespace ByteReader

/-- `ByteReader::has_bytes` (lib/hpack/byte_reader.cpp:3-5). -/
def hasBytes (r : ByteReader) (count : Nat := 1) : Bool := decide (count ≤ List.length r)

/-- `ByteReader::read_byte` (lib/hpack/byte_reader.cpp:7-12); `none` is `NotEnoughBytes`. -/
def readByte (r : ByteReader) : Option (UInt8 × ByteReader) :=
  match r with
  | [] => none
  | b :: rest => some (b, rest)

/-- `ByteReader::peek_byte` (lib/hpack/byte_reader.cpp:14-19). -/
def peekByte (r : ByteReader) : Option UInt8 :=
  match r with
  | [] => none
  | b :: _ => some b

/-- `ByteReader::read_bytes` (lib/hpack/byte_reader.cpp:21-30). -/
def readBytes (r : ByteReader) (count : Nat) : Option (Bytes × ByteReader) :=
  if hasBytes r count then some (List.take count r, List.drop count r) else none

end ByteReader

/-- `enum class IntegerDecodeError` (lib/hpack/int_decoder.h), in declaration order. -/
inductive IntErr where
  | notEnoughBytes
  | integerOverflow
  | tooManyContinuationBytes
deriving DecidableEq, Repr

/-- `make_mask` (lib/hpack/int_decoder.cpp:7-15). The shift is on `int`, here on `Nat`, then
truncated to `uint8_t`. -/
def makeMask (bits : UInt8) : UInt8 :=
  if bits = 0 then 0
  else if bits ≥ 8 then 0xff
  else UInt8.ofNat (2 ^ bits.toNat - 1)

/-- The `while (cont)` loop of `IntegerDecoder::decode` (lib/hpack/int_decoder.cpp:32-49), entered
with `cont = true`. All arithmetic is on `uint32_t`. -/
def decodeIntLoop : ByteReader → UInt32 → UInt32 → Except IntErr (UInt32 × ByteReader)
  | [], _, _ => .error .notEnoughBytes
  | b :: rest, sum, shift =>
    let value : UInt32 := b.toUInt32 &&& 0x7F
    if shift > 28 then .error .tooManyContinuationBytes
    else if value > (0xFFFFFFFF - sum) >>> shift then .error .integerOverflow
    else
      let sum' := sum + (value <<< shift)
      let shift' := shift + 7
      if b &&& 0x80 ≠ 0 then decodeIntLoop rest sum' shift' else .ok (sum', rest)

/-- `IntegerDecoder::decode` (lib/hpack/int_decoder.cpp:17-51). -/
def decodeInt (r : ByteReader) (prefixBits : UInt8) : Except IntErr (UInt32 × ByteReader) :=
  match r.readByte with
  | none => .error .notEnoughBytes
  | some (b, rest) =>
    let mask := makeMask prefixBits
    let pfx := b &&& mask
    if pfx = mask then decodeIntLoop rest pfx.toUInt32 0
    else .ok (pfx.toUInt32, rest)

/-- The `while (value >= 0x80)` loop and final `push_back` of `IntegerEncoder::encode`
(lib/hpack/int_encoder.cpp:20-25). -/
def encodeIntLoop (value : UInt32) : Bytes :=
  if _h : value ≥ 0x80 then
    ((value &&& 0x7F) ||| 0x80).toUInt8 :: encodeIntLoop (value >>> 7)
  else [value.toUInt8]
termination_by value.toNat
decreasing_by
  have : (0x80 : UInt32).toNat ≤ value.toNat := UInt32.le_iff_toNat_le.mp _h
  simp [UInt32.toNat_shiftRight, Nat.shiftRight_eq_div_pow] at *
  omega

/-- `IntegerEncoder::encode` (lib/hpack/int_encoder.cpp:7-27); `none` is `std::out_of_range`.
`(1 << prefix_bits) - 1` is an `int` between 1 and 255, so the mixed comparison and subtraction
happen on `uint32_t`. -/
def encodeInt (value : UInt32) (prefixBits : UInt8) : Option Bytes :=
  if prefixBits = 0 ∨ prefixBits > 8 then none
  else
    let m : UInt32 := UInt32.ofNat (2 ^ prefixBits.toNat - 1)
    if value < m then some [value.toUInt8]
    else some (m.toUInt8 :: encodeIntLoop (value - m))

end Ion
