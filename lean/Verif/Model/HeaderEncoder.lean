import Verif.Model.IntCodec
import Verif.Model.Huffman
import Verif.Model.DynamicTable

/-!
# HPACK header block encoder: `lib/hpack/header_block_encoder.cpp`

`charSigned` says whether plain `char` is signed on the target platform (implementation-defined;
signed on x86-64 Linux, unsigned on AArch64 Linux). It matters because strings are indexed into the
Huffman table with a `char`.
-/

namespace Ion

/-- `MAX_PLAIN_TEXT_STRING_LENGTH` (lib/hpack/header_block_encoder.cpp:14). -/
def maxPlainTextStringLength : Nat := 3

/-- `HUFFMAN_CODES[c]` for a `const char c` (lib/hpack/header_block_encoder.cpp:25-26): with a signed
`char` an octet of 0x80 or more is negative and the index out of range. -/
def huffmanCodeOfChar {ε : Type} (charSigned : Bool) (c : UInt8) : Outcome ε HuffmanCode :=
  if charSigned && decide (c ≥ 0x80) then .ub .index
  else
    match huffmanCodes[c.toNat]? with
    | some code => .ok code
    | none => .ub .index

/-- The loop of lib/hpack/header_block_encoder.cpp:25-28. -/
def huffmanWrite {ε : Type} (charSigned : Bool) : Bytes → BitWriter → Outcome ε BitWriter
  | [], bw => .ok bw
  | c :: cs, bw => do
    let code ← huffmanCodeOfChar charSigned c
    huffmanWrite charSigned cs (bw.writeBits code.code code.len)

/-- `IntegerEncoder::encode(n, 7)`; the width is valid, so it does not throw. The `size_t` argument
is converted to `uint32_t`. -/
def encodeLength (n : Nat) : Bytes := (encodeInt (UInt32.ofNat n) 7).getD []

/-- `0x80 | encoded_length[0]` followed by the rest (lib/hpack/header_block_encoder.cpp:32-35). -/
def orFirst (flag : UInt8) : Bytes → Bytes
  | [] => []
  | b :: bs => (flag ||| b) :: bs

/-- `write_length_and_string` (lib/hpack/header_block_encoder.cpp:19-51). -/
def writeLengthAndString {ε : Type} (charSigned : Bool) (str : Bytes) : Outcome ε Bytes :=
  if str.length > maxPlainTextStringLength then do
    let bw ← huffmanWrite charSigned str {}
    let bitstream := bw.finalize
    .ok (orFirst 0x80 (encodeLength bitstream.length) ++ bitstream)
  else .ok (encodeLength str.length ++ str)

/-- `static_cast<uint8_t>(index | flag)` on `size_t` (lib/hpack/header_block_encoder.cpp:66,73,85,99):
bits above the low eight are lost. -/
def indexByte (index : Nat) (flag : Nat) : UInt8 := UInt8.ofNat (index ||| flag)

/-- One iteration of the loop in `HeaderBlockEncoder::encode`
(lib/hpack/header_block_encoder.cpp:55-119). -/
def encodeHeader {ε : Type} (charSigned : Bool) (t : DynTable) (hdr : Header) :
    Outcome ε (Bytes × DynTable) :=
  match staticTable.findIdx? (fun h => h.name == hdr.name && h.value == hdr.value) with
  | some tableIndex => .ok ([indexByte (tableIndex + 1) 0x80], t)
  | none =>
    match t.find hdr with
    | some i => .ok ([indexByte (staticTable.length + i + 1) 0x80], t)
    | none =>
      match staticTable.findIdx? (fun h => h.name == hdr.name) with
      | some tableIndex => do
        let v ← writeLengthAndString charSigned hdr.value
        let t ← t.insert hdr
        .ok (indexByte (tableIndex + 1) 0x40 :: v, t)
      | none =>
        match t.findName hdr.name with
        | some i => do
          let v ← writeLengthAndString charSigned hdr.value
          let t ← t.insert hdr
          .ok (indexByte (staticTable.length + i + 1) 0x40 :: v, t)
        | none => do
          let n ← writeLengthAndString charSigned hdr.name
          let v ← writeLengthAndString charSigned hdr.value
          let t ← t.insert hdr
          .ok (0x40 :: (n ++ v), t)

/-- `HeaderBlockEncoder::encode` (lib/hpack/header_block_encoder.cpp:53-121). -/
def encodeBlock {ε : Type} (charSigned : Bool) : DynTable → List Header → Outcome ε (Bytes × DynTable)
  | t, [] => .ok ([], t)
  | t, h :: hs => do
    let (b, t) ← encodeHeader charSigned t h
    let (bs, t) ← encodeBlock charSigned t hs
    .ok (b ++ bs, t)

end Ion
