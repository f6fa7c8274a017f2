import Verif.Model.IntCodec
import Verif.Model.Huffman
import Verif.Model.DynamicTable

/-!
# HPACK header block decoder: `lib/hpack/header_block_decoder.cpp`, `header_field.h`
-/

namespace Ion

/-- `MAX_HEADER_STRING_LENGTH` (lib/hpack/header_block_decoder.cpp:16). -/
def maxHeaderStringLength : Nat := 4 * 1024

/-- `enum class HeaderFieldType` (lib/hpack/header_field.h:6-13). -/
inductive FieldType where
  | indexed | literalIncremental | sizeUpdate | literalNeverIndex | literalNoIndex | invalid
deriving DecidableEq, Repr

/-- `HeaderField::from_byte` (lib/hpack/header_field.h:16-33). -/
def fieldType (firstByte : UInt8) : FieldType :=
  if firstByte &&& 0x80 ≠ 0 then .indexed
  else if firstByte &&& 0x40 ≠ 0 then .literalIncremental
  else if firstByte &&& 0x20 ≠ 0 then .sizeUpdate
  else if firstByte &&& 0x10 ≠ 0 then .literalNeverIndex
  else if firstByte < 0x10 then .literalNoIndex
  else .invalid

/-- Result of a decoding step: `FrameError` or undefined behaviour are the other outcomes. -/
abbrev Dec (α : Type) := Outcome FrameError α

/-- `string_length_within_limit` (lib/hpack/header_block_decoder.cpp:54-61). -/
def stringLengthWithinLimit (size : Nat) : Bool := !decide (size > maxHeaderStringLength)

/-- `decode_huffman_string` (lib/hpack/header_block_decoder.cpp:63-73). -/
def decodeHuffmanString (size : Nat) (data : Bytes) : Dec Bytes :=
  if size > data.length then .ub .subspan
  else
    match huffmanTree.decode (data.take size) with
    | .ub u => .ub u
    | .err _ => .err .protocolError
    | .ok bytes => if stringLengthWithinLimit bytes.length then .ok bytes else .err .protocolError

/-- `read_string` (lib/hpack/header_block_decoder.cpp:75-85). -/
def readString (isHuffman : Bool) (size : Nat) (data : Bytes) : Dec Bytes :=
  if isHuffman then decodeHuffmanString size data
  else if !stringLengthWithinLimit size then .err .protocolError
  else if size > data.length then .ub .subspan
  else .ok (data.take size)

/-- `read_length_and_string` (lib/hpack/header_block_decoder.cpp:30-52); also returns what the
reader has left. -/
def readLengthAndString (r : ByteReader) : Dec (Bytes × ByteReader) :=
  match r.peekByte with
  | none => .err .protocolError
  | some lengthByte =>
    let isHuffman : Bool := decide (lengthByte &&& 0x80 ≠ 0)
    match decodeInt r 7 with
    | .error _ => .err .protocolError
    | .ok (strSize, r) =>
      match r.readBytes strSize.toNat with
      | none => .err .protocolError
      | some (span, r) => do
        let s ← readString isHuffman strSize.toNat span
        .ok (s, r)

/-- `index - 1` on `size_t`: wraps for 0 (lib/hpack/header_block_decoder.cpp:88,111). -/
@[irreducible] def tableIndexOf (index : Nat) : Nat := (index + (2 ^ 64 - 1)) % 2 ^ 64

/-- Body of `read_indexed_header` after the subtraction (lib/hpack/header_block_decoder.cpp:89-107). -/
def headerAt (t : DynTable) (tableIndex : Nat) : Dec Header :=
  match staticTable[tableIndex]? with
  | some h => .ok h
  | none =>
    let dynamicIndex := tableIndex - staticTable.length
    if dynamicIndex ≥ t.count then .err .protocolError else t.get dynamicIndex

/-- `read_indexed_header`, from the wire index (lib/hpack/header_block_decoder.cpp:87-108). -/
def readIndexedHeader (t : DynTable) (index : Nat) : Dec Header :=
  headerAt t (tableIndexOf index)

/-- Body of `read_indexed_header_name` after the subtraction
(lib/hpack/header_block_decoder.cpp:112-130). -/
def headerNameAt (t : DynTable) (tableIndex : Nat) : Dec Bytes :=
  match staticTable[tableIndex]? with
  | some h => .ok h.name
  | none =>
    let dynamicIndex := tableIndex - staticTable.length
    if dynamicIndex ≥ t.count then .err .protocolError else do
      let h ← t.get dynamicIndex
      .ok h.name

/-- `read_indexed_header_name`, from the wire index (lib/hpack/header_block_decoder.cpp:110-131). -/
def readIndexedHeaderName (t : DynTable) (index : Nat) : Dec Bytes :=
  headerNameAt t (tableIndexOf index)

/-- `decode_indexed_field` (lib/hpack/header_block_decoder.cpp:133-144). A failed integer decode is
only logged (135-137); `*index` on line 139 then dereferences an error: undefined behaviour. -/
def decodeIndexedField (t : DynTable) (r : ByteReader) : Dec (Header × ByteReader) :=
  match decodeInt r 7 with
  | .error _ => .ub .derefError
  | .ok (index, r) =>
    if index < 1 then .err .protocolError
    else do
      let h ← readIndexedHeader t index.toNat
      .ok (h, r)

/-- `decode_literal_field` (lib/hpack/header_block_decoder.cpp:146-167). As above, `*index` on line
153 is undefined behaviour after a failed integer decode. -/
def decodeLiteralField (t : DynTable) (idxPrefixBits : UInt8) (r : ByteReader) :
    Dec (Header × ByteReader) :=
  match decodeInt r idxPrefixBits with
  | .error _ => .ub .derefError
  | .ok (index, r) => do
    let (name, r) ←
      if index = 0 then readLengthAndString r
      else do
        let n ← readIndexedHeaderName t index.toNat
        .ok (n, r)
    let (value, r) ← readLengthAndString r
    .ok (⟨name, value⟩, r)

/-- `decode_dynamic_table_size_update` (lib/hpack/header_block_decoder.cpp:169-186). -/
def decodeSizeUpdate (t : DynTable) (r : ByteReader) : Dec (DynTable × ByteReader) :=
  match decodeInt r 5 with
  | .error _ => .err .protocolError
  | .ok (newSz, r) =>
    if newSz.toNat > hardTableSizeLimit then .err .protocolError
    else do
      let t ← t.setMaxTableSize newSz.toNat
      .ok (t, r)

/-- One iteration of the loop in `HeaderBlockDecoder::decode` (lib/hpack/header_block_decoder.cpp:
194-234) on a non-empty reader: headers pushed, new table, remaining input. -/
def decodeField (t : DynTable) (r : ByteReader) (firstByte : UInt8) :
    Dec (List Header × DynTable × ByteReader) :=
  match fieldType firstByte with
  | .indexed => do
    let (h, r) ← decodeIndexedField t r
    .ok ([h], t, r)
  | .literalIncremental => do
    let (h, r) ← decodeLiteralField t 6 r
    let t ← t.insert h
    .ok ([h], t, r)
  | .literalNoIndex | .literalNeverIndex => do
    let (h, r) ← decodeLiteralField t 4 r
    .ok ([h], t, r)
  | .sizeUpdate => do
    let (t, r) ← decodeSizeUpdate t r
    .ok ([], t, r)
  | .invalid => .err .protocolError

/-- Result of `HeaderBlockDecoder::decode`. The dynamic table belongs to the connection and keeps
the changes made before an error, so it is part of the error case too. -/
inductive BlockRes where
  | ok (hdrs : List Header) (t : DynTable)
  | err (e : FrameError) (t : DynTable)
  | ub (u : UB)
deriving DecidableEq, Repr

/-- The loop of `HeaderBlockDecoder::decode` (lib/hpack/header_block_decoder.cpp:193-236). Every
iteration consumes at least one byte; `fuel` is the number of iterations allowed, and the caller
passes the number of bytes, which always suffices (`decodeBlock_fuel`). -/
def decodeLoop : (fuel : Nat) → DynTable → ByteReader → List Header → BlockRes
  | _, t, [], hdrs => .ok hdrs t
  | 0, t, _ :: _, _ => .err .protocolError t
  | fuel + 1, t, b :: r, hdrs =>
    match decodeField t (b :: r) b with
    | .ok (hs, t', r') => decodeLoop fuel t' r' (hdrs ++ hs)
    | .err e => .err e t
    | .ub u => .ub u

/-- `HeaderBlockDecoder::decode` (lib/hpack/header_block_decoder.cpp:188-237). -/
def decodeBlock (t : DynTable) (data : Bytes) : BlockRes := decodeLoop data.length t data []

end Ion
