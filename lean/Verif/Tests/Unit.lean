import Verif.Model.HeaderEncoder
import Verif.Model.HeaderDecoder
import Verif.Model.Frames

/-!
# The project's unit tests (test/unit/hpack, test/unit/test_frame_parsing.cpp), run against the model

These are tests, not proofs: they compare the model with what the authors expect of the code. Every
`TEST_CASE` and `SECTION` of the files named is here, in order.
-/

namespace Ion
namespace Tests

/-! ## test_bit_reader.cpp -/

/-- Reads `n` bits. -/
def bits : Nat → BitReader → List (Bool × Bool)
  | 0, _ => []
  | n + 1, r => (r.hasMore, r.readBit.1) :: bits n r.readBit.2

example : bits 16 { data := [0x9f, 0xfa] } =
    [true, false, false, true, true, true, true, true, true, true, true, true, true, false, true, false].map
      (true, ·) := by decide +kernel

/-! ## test_byte_reader.cpp -/

/-- read byte -/
example : (do let (a, r) ← ByteReader.readByte [1, 2, 3]
              let (b, r) ← ByteReader.readByte r
              let (c, _) ← ByteReader.readByte r
              some [a, b, c]) = some [1, 2, 3] := by decide

/-- read bytes -/
example : (ByteReader.readBytes [1, 2, 3] 2).map (·.1) = some [1, 2] := by decide

/-- peek byte reads current byte without incrementing pointer -/
example : ByteReader.peekByte [1, 2, 3] = some 1 := by decide

/-- has bytes returns false if empty; false if end of data; true if data available -/
example : ByteReader.hasBytes [] = false ∧
    (ByteReader.readBytes [1, 2, 3] 3).map (fun x => ByteReader.hasBytes x.2) = some false ∧
    (ByteReader.readBytes [1, 2, 3] 2).map (fun x => ByteReader.hasBytes x.2) = some true := by decide

/-- read bytes, read byte, peek byte return error if not enough bytes -/
example : ByteReader.readBytes [1, 2, 3] 4 = none ∧ ByteReader.readByte [] = none ∧
    ByteReader.peekByte [] = none := by decide

/-! ## test_int_decoder.cpp -/

/-- decodes ints with prefix range: prefix 8, 6, 6 (LSB bit 0), 4, 2, 0 -/
example : decodeInt [0x7f] 8 = .ok (127, []) ∧ decodeInt [0x7f, 0x06] 6 = .ok (69, []) ∧
    decodeInt [0x7e] 6 = .ok (62, []) ∧ decodeInt [0xf2] 4 = .ok (2, []) ∧ decodeInt [0xfd] 2 = .ok (1, []) := by
  decide +kernel

/-- prefix 0 (not expected). The test dereferences the result and requires 0. The mask is 0, so the loop is
entered, finds no byte and returns `NotEnoughBytes`: the test dereferences an error, which is undefined. (It
passes where the first enumerator, 0, is read as the value.) -/
example : decodeInt [0x12] 0 = .error .notEnoughBytes := by decide +kernel

/-- decodes ints outside prefix range: prefix 8, 4, not enough bytes, integer overflow -/
example : decodeInt [0xff, 0x01] 8 = .ok (256, []) ∧ decodeInt [0xff, 0xff, 0x01] 4 = .ok (15 + 127 + 128, []) ∧
    decodeInt [0xff] 8 = .error .notEnoughBytes ∧
    decodeInt [0xff, 0xff, 0xff, 0xff, 0xff, 0x10] 7 = .error .integerOverflow := by decide +kernel

/-- long continuation sequence -/
example : decodeInt ([0xff] ++ List.replicate 1000 0x80 ++ [0x00]) 8 = .error .tooManyContinuationBytes := by
  decide +kernel

/-! ## test_int_encoder.cpp -/

example : encodeInt 30 5 = some [0x1e] ∧ encodeInt 126 7 = some [0x7e] ∧ encodeInt 31 5 = some [0x1f, 0x00] ∧
    encodeInt 127 7 = some [0x7f, 0x00] ∧ encodeInt 1023 7 = some [0x7f, 0x80, 0x07] ∧
    encodeInt 30 0 = none ∧ encodeInt 126 9 = none := by decide +kernel

/-! ## test_huffman_tree.cpp -/

/-- basic inserts & decodes (2 symbols) -/
example : (do let t ← HuffTree.empty.insertSymbol 0 ⟨0b1111111111000, 13⟩
              let t ← t.insertSymbol 35 ⟨0b111111111010, 12⟩
              some (t.decode [0b11111111, 0b11000111, 0b11111101, 0b01111111])) = some (.ok [0, 35]) := by
  decide +kernel

/-- handles symbol with all zeros -/
example : (do let t ← HuffTree.empty.insertSymbol 48 ⟨0, 5⟩
              some (t.decode ((({} : BitWriter).writeBits 0 5).finalize))) = some (.ok [48]) := by decide +kernel

/-- handles all HPACK-defined codes: here for the printable octets; for all octet strings it is C05. -/
example : huffmanTree.decode (((huffmanCodes.drop 32).take 95).foldl (fun w c => w.writeBits c.code c.len)
    ({} : BitWriter)).finalize = .ok ((List.range' 32 95).map UInt8.ofNat) := by decide +kernel

/-- throws on invalid code that isn't padding -/
example : (do let t ← HuffTree.empty.insertSymbol 0 ⟨1, 1⟩
              some (t.decode [0])) = some (.err .invalidCode) := by decide +kernel

/-! ## test_dynamic_table.cpp -/

/-- The table after the insertions. -/
def inserted (max : Nat) (hs : List Header) : Outcome Empty DynTable :=
  hs.foldl (fun t h => t >>= fun t => t.insert h) (.ok { maxTableSize := max })

/-- Number of entries and size. -/
def measures : Outcome Empty DynTable → Option (Nat × Nat)
  | .ok t => some (t.count, t.tableSize)
  | _ => none

/-- inserts new header at the front -/
example : (match inserted defaultMaxTableSize [⟨b!"foo", b!"bar"⟩, ⟨b!"foo", b!"baz"⟩] with
    | .ok t => t.find ⟨b!"foo", b!"baz"⟩
    | _ => none) = some 0 := by decide +kernel

/-- returns count of entries, returns table size (in octets) -/
example : measures (inserted defaultMaxTableSize [⟨b!"foo", b!"bar"⟩]) = some (1, 3 + 3 + 32) := by decide +kernel

/-- evicts old headers when table size exceeds max -/
example : measures (inserted 50 [⟨b!"foo", b!"bar"⟩, ⟨b!"fo1", b!"b"⟩]) = some (1, 36) := by decide +kernel

/-- wipes whole table when inserted entry is bigger than max size -/
example : measures (inserted 50 [⟨b!"foo", b!"baaar"⟩, ⟨List.replicate 8 0x41, List.replicate 11 0x41⟩]) =
    some (0, 0) := by decide +kernel

/-- table is empty and entry NOT added if larger than max_table_size_ -/
example : measures (inserted 100 [⟨b!"small", b!"header"⟩]) = some (1, 43) ∧
    measures (inserted 100 [⟨b!"small", b!"header"⟩, ⟨List.replicate 30 0x61, List.replicate 39 0x62⟩]) =
      some (0, 0) := by decide +kernel

/-- table resized with headers evicted to maintain new max size -/
example : (let t := inserted 120 [⟨b!"1234", b!"1234"⟩, ⟨b!"a234", b!"1234"⟩, ⟨b!"b234", b!"1234"⟩]
    let t1 := t >>= fun t => t.setMaxTableSize 81
    let t2 := t1 >>= fun t => t.setMaxTableSize 41
    let t3 := t2 >>= fun t => t.setMaxTableSize 0
    [measures t1, measures t2, measures t3]) = [some (2, 80), some (1, 40), some (0, 0)] := by decide +kernel

/-! ## test_hb_decoder.cpp -/

/-- The headers of blocks decoded one after the other, and the table. -/
def decodeAll : DynTable → List Bytes → Option (List (List Header) × DynTable)
  | t, [] => some ([], t)
  | t, b :: bs =>
    match decodeBlock t b with
    | .ok hs t => (decodeAll t bs).map fun x => (hs :: x.1, x.2)
    | _ => none

/-- The headers only. -/
def headersOf (bs : List Bytes) : Option (List (List Header)) := (decodeAll {} bs).map (·.1)

/-- Whether a block is refused with `ProtocolError`. -/
def refused (t : DynTable) (b : Bytes) : Bool :=
  match decodeBlock t b with
  | .err .protocolError _ => true
  | _ => false

/-- static table entries only -/
example : headersOf [[0x82, 0x84, 0x87]] =
    some [[⟨b!":method", b!"GET"⟩, ⟨b!":path", b!"/"⟩, ⟨b!":scheme", b!"https"⟩]] := by decide +kernel

/-- literal header field with indexed name; without indexing; min/max indices -/
example : headersOf [[0x41, 0x86, 0xa0, 0xe4, 0x1d, 0x13, 0x9d, 0x9]] = some [[⟨b!":authority", b!"localhost"⟩]] ∧
    headersOf [[0x04, 0x84, 0x62, 0x33, 0xc9, 0xeb]] = some [[⟨b!":path", b!"/body"⟩]] ∧
    headersOf [[0x81, 0xbd]] = some [[⟨b!":authority", []⟩, ⟨b!"www-authenticate", []⟩]] := by decide +kernel

/-- handles out-of-range indices -/
example : refused {} [0x80, 0xbe] = true := by decide +kernel

/-- stores and returns dynamic header with static header name -/
example : headersOf [[0x82, 0x84, 0x41, 0x86, 0xa0, 0xe4, 0x1d, 0x13, 0x9d, 0x9, 0x87], [0x82, 0x84, 0xbe, 0x87]] =
    some (List.replicate 2 [⟨b!":method", b!"GET"⟩, ⟨b!":path", b!"/"⟩, ⟨b!":authority", b!"localhost"⟩,
      ⟨b!":scheme", b!"https"⟩]) := by decide +kernel

/-- literal header field - dynamic header name -/
example : headersOf [[0x40, 0x82, 0x94, 0xe7, 0x83, 0x8c, 0x76, 0x7f],
      [0x7e, 0x91, 0x8c, 0x76, 0x29, 0x18, 0xfd, 0xa9, 0x18, 0xec, 0x52, 0x31, 0xfb, 0x52, 0x31, 0xd8, 0xa4, 0x63, 0xf7]] =
    some [[⟨b!"foo", b!"bar"⟩], [⟨b!"foo", b!"bar baz bar baz bar baz"⟩]] := by decide +kernel

/-- literal header field - new name (short value, non-huffman) -/
example : headersOf [[0x40, 0x84, 0xf2, 0xb4, 0xa7, 0x3f, 0x3, 0x62, 0x61, 0x72]] = some [[⟨b!"x-foo", b!"bar"⟩]] := by
  decide +kernel

/-- literal header field - new name, and the same without indexing (long value, huffman) -/
example : [0x40, 0x00].map (fun b : UInt8 => headersOf [[b, 0x84, 0xf2, 0xb4, 0xa7, 0x3f, 0x9a, 0x94, 0xe7, 0x52, 0x31,
      0xd8, 0xa4, 0x63, 0xf6, 0xa4, 0xa7, 0x3a, 0x91, 0x8e, 0xc5, 0x23, 0x1f, 0xb5, 0x25, 0x39, 0xd4, 0x8c, 0x76, 0x29,
      0x18, 0xfd, 0xff]]) =
    List.replicate 2 (some [[⟨b!"x-foo", b!"foo bar baz foo bar baz foo bar baz"⟩]]) := by decide +kernel

/-- headers from Chrome -/
def chrome : Bytes :=
  [0x82, 0x41, 0x8a, 0xa0, 0xe4, 0x1d, 0x13, 0x9d, 0x9, 0xb8, 0xf3, 0x4d, 0x33, 0x87, 0x4, 0x86, 0x61, 0x9,
   0x1a, 0x4c, 0x46, 0x3f, 0x40, 0x85, 0xae, 0xc1, 0xcd, 0x48, 0xff, 0x86, 0xa8, 0xeb, 0x10, 0x64, 0x9c, 0xbf,
   0x58, 0x86, 0xa8, 0xeb, 0x10, 0x64, 0x9c, 0xbf, 0x40, 0x87, 0x41, 0x48, 0xb1, 0x27, 0x5a, 0xd1, 0xff, 0xb8,
   0xfe, 0x6f, 0x4f, 0x61, 0xe9, 0x35, 0xb4, 0xff, 0x3f, 0x7d, 0xe0, 0xfe, 0x42, 0xd0, 0xbf, 0x9f, 0xa5, 0x3f,
   0x9c, 0x47, 0x3c, 0xd4, 0x15, 0x4b, 0xd3, 0xd8, 0x7a, 0x4b, 0xfc, 0xfd, 0xf7, 0x83, 0xf9, 0xb, 0x42, 0xfe,
   0x7e, 0x94, 0xfe, 0x74, 0x9d, 0x31, 0x42, 0xa5, 0xdb, 0x7, 0x54, 0x9f, 0xcf, 0xdf, 0x78, 0x3f, 0x97, 0xdf,
   0xfe, 0x7f, 0x40, 0x8b, 0x41, 0x48, 0xb1, 0x27, 0x5a, 0xd1, 0xad, 0x49, 0xe3, 0x35, 0x5, 0x2, 0x3f, 0x30,
   0x40, 0x8d, 0x41, 0x48, 0xb1, 0x27, 0x5a, 0xd1, 0xad, 0x5d, 0x3, 0x4c, 0xa7, 0xb2, 0x9f, 0x7, 0x22, 0x6d,
   0x61, 0x63, 0x4f, 0x53, 0x22, 0x40, 0x3, 0x64, 0x6e, 0x74, 0x1, 0x31, 0x40, 0x92, 0xb6, 0xb9, 0xac, 0x1c,
   0x85, 0x58, 0xd5, 0x20, 0xa4, 0xb6, 0xc2, 0xad, 0x61, 0x7b, 0x5a, 0x54, 0x25, 0x1f, 0x1, 0x31, 0x7a, 0xd9,
   0xd0, 0x7f, 0x66, 0xa2, 0x81, 0xb0, 0xda, 0xe0, 0x53, 0xfa, 0xd0, 0x32, 0x1a, 0xa4, 0x9d, 0x13, 0xfd, 0xa9,
   0x92, 0xa4, 0x96, 0x85, 0x34, 0xc, 0x8a, 0x6a, 0xdc, 0xa7, 0xe2, 0x81, 0x4, 0x41, 0x6e, 0x27, 0x7f, 0xb5,
   0x21, 0xae, 0xba, 0xb, 0xc8, 0xb1, 0xe6, 0x32, 0x58, 0x6d, 0x97, 0x57, 0x65, 0xc5, 0x3f, 0xac, 0xd8, 0xf7,
   0xe8, 0xcf, 0xf4, 0xa5, 0x6, 0xea, 0x55, 0x31, 0x14, 0x9d, 0x4f, 0xfd, 0xa9, 0x7a, 0x7b, 0xf, 0x49, 0x58,
   0xb, 0x42, 0x5c, 0xb, 0x81, 0x70, 0x29, 0xb8, 0x72, 0x8e, 0xc3, 0x30, 0xdb, 0x2e, 0xae, 0xcb, 0x9f, 0x53,
   0xe5, 0x49, 0x7c, 0xa5, 0x89, 0xd3, 0x4d, 0x1f, 0x43, 0xae, 0xba, 0xc, 0x41, 0xa4, 0xc7, 0xa9, 0x8f, 0x33,
   0xa6, 0x9a, 0x3f, 0xdf, 0x9a, 0x68, 0xfa, 0x1d, 0x75, 0xd0, 0x62, 0xd, 0x26, 0x3d, 0x4c, 0x79, 0xa6, 0x8f,
   0xbe, 0xd0, 0x1, 0x77, 0xfe, 0x8d, 0x48, 0xe6, 0x2b, 0x3, 0xee, 0x69, 0x7e, 0x8d, 0x48, 0xe6, 0x2b, 0x1e,
   0xb, 0x1d, 0x7f, 0x46, 0xa4, 0x73, 0x15, 0x81, 0xd7, 0x54, 0xdf, 0x5f, 0x2c, 0x7c, 0xfd, 0xf6, 0x80, 0xb,
   0xbd, 0xf4, 0x3a, 0xeb, 0xa0, 0xc4, 0x1a, 0x4c, 0x7a, 0x98, 0x41, 0xa6, 0xa8, 0xb2, 0x2c, 0x5f, 0x24, 0x9c,
   0x75, 0x4c, 0x5f, 0xbe, 0xf0, 0x46, 0xcf, 0xdf, 0x68, 0x0, 0xbb, 0xbf, 0x40, 0x8a, 0x41, 0x48, 0xb4, 0xa5,
   0x49, 0x27, 0x59, 0x6, 0x49, 0x7f, 0x83, 0xa8, 0xf5, 0x17, 0x40, 0x8a, 0x41, 0x48, 0xb4, 0xa5, 0x49, 0x27,
   0x5a, 0x93, 0xc8, 0x5f, 0x86, 0xa8, 0x7d, 0xcd, 0x30, 0xd2, 0x5f, 0x40, 0x8a, 0x41, 0x48, 0xb4, 0xa5, 0x49,
   0x27, 0x5a, 0xd4, 0x16, 0xcf, 0x2, 0x3f, 0x31, 0x40, 0x8a, 0x41, 0x48, 0xb4, 0xa5, 0x49, 0x27, 0x5a, 0x42,
   0xa1, 0x3f, 0x86, 0x90, 0xe4, 0xb6, 0x92, 0xd4, 0x9f, 0x50, 0x92, 0x9b, 0xd9, 0xab, 0xfa, 0x52, 0x42, 0xcb,
   0x40, 0xd2, 0x5f, 0xa5, 0x23, 0xb3, 0xe9, 0x4f, 0x68, 0x4c, 0x9f, 0x51, 0x8b, 0x2d, 0x4b, 0x70, 0xdd, 0xf4,
   0x5a, 0xbe, 0xfb, 0x40, 0x5, 0xdf, 0x40, 0x86, 0xae, 0xc3, 0x1e, 0xc3, 0x27, 0xd7, 0x85, 0xb6, 0x0, 0x7d,
   0x28, 0x6f]

/-- headers from Chrome, second block -/
def chrome2 : Bytes :=
  [0x82, 0xce, 0x87, 0x4, 0x91, 0x61, 0x9, 0x1a, 0x4c, 0x46, 0x8, 0x84, 0x31, 0x48, 0xcd, 0x52, 0xe4, 0x42,
   0x3f, 0xce, 0xf0, 0x3f, 0xcd, 0xcc, 0xc9, 0xc6, 0xcb, 0xc8, 0xca, 0x53, 0x8e, 0x49, 0x7c, 0xa5, 0x82, 0x21,
   0x1f, 0x5f, 0x2c, 0x7c, 0xfd, 0xf6, 0x80, 0xb, 0x87, 0x7f, 0x6, 0x88, 0x40, 0xe9, 0x2a, 0xc7, 0xb0, 0xd3,
   0x1a, 0xaf, 0x7f, 0x6, 0x85, 0xa8, 0xeb, 0x10, 0xf6, 0x23, 0x7f, 0x5, 0x84, 0x42, 0x7d, 0x50, 0x5f, 0x73,
   0x95, 0x9d, 0x29, 0xad, 0x17, 0x18, 0x62, 0x83, 0x90, 0x74, 0x4e, 0x74, 0x26, 0xe3, 0xcd, 0x34, 0xcb, 0x8,
   0x48, 0xd2, 0x62, 0x31, 0xc5, 0xc4, 0x7f, 0x4, 0x3, 0x75, 0x3d, 0x30]

/-- headers from Chrome; w/Integer prefix continuation. The test asks for success and 20 headers in the first
block. -/
example : (headersOf [chrome, chrome2]).map (fun x => x.map List.length) = some [20, 19] := by decide +kernel

/-- returns error for invalid first bytes. The test requires `ProtocolError`; lib/hpack/header_block_decoder.cpp:139
dereferences the failed integer, which is undefined. (It passes where the first enumerator, 0, is read as the
index.) -/
example : (match decodeBlock {} [0xff] with | .ub .derefError => true | _ => false) = true := by decide +kernel

/-- literal header field never index - new name (non-huffman) -/
example : (decodeAll {} [[0x10, 0x84, 0xf2, 0xb4, 0xa7, 0x3f, 0x3, 0x62, 0x61, 0x72]]).map
    (fun x => (x.1, x.2.count)) = some ([[⟨b!"x-foo", b!"bar"⟩]], 0) := by decide +kernel

/-- Blocks encoded one after the other. -/
def encodeAll : DynTable → List (List Header) → Option (List Bytes)
  | _, [] => some []
  | t, hs :: rest =>
    match (encodeBlock true t hs : Outcome Empty _) with
    | .ok (b, t) => (encodeAll t rest).map (b :: ·)
    | _ => none

/-- enforce string length limit on decode: the lengths; for the strings themselves it is C09. -/
example : [4096, 4097].map stringLengthWithinLimit = [true, false] := by decide +kernel

/-- The four blocks of "dynamic table management". -/
def four : List Bytes :=
  (encodeAll {} [[⟨b!"x-fo1", b!"ba1"⟩], [⟨b!"x-fo2", b!"ba2"⟩], [⟨b!"x-fo3", b!"ba3"⟩], [⟨b!"x-fo4", b!"ba4"⟩]]).getD []

/-- evicts headers when max size reached -/
example : (decodeAll { maxTableSize := 120 } four).map (fun x => x.2.table.map Header.name) =
    some [b!"x-fo4", b!"x-fo3", b!"x-fo2"] := by decide +kernel

/-- evicts headers when new max size received -/
example : [four.take 1, four.take 2, four.take 3, four.take 3 ++ [[0x3f, 0x31]]].map
      (fun bs => (decodeAll { maxTableSize := 120 } bs).map fun x => (x.2.count, x.2.tableSize)) =
    [some (1, 40), some (2, 80), some (3, 120), some (2, 80)] := by decide +kernel

/-- limits maximum size of table requested -/
example : refused { maxTableSize := 120 } [0x3f, 0xe2, 0xff, 0x03] = true := by decide +kernel

/-! ## test_hb_encoder.cpp -/

/-- encodes static table entries -/
example : encodeAll {} [[⟨b!":method", b!"GET"⟩, ⟨b!":scheme", b!"https"⟩, ⟨b!":path", b!"/"⟩]] =
      some [[0x82, 0x87, 0x84]] ∧
    encodeAll {} [[⟨b!":status", b!"200"⟩]] = some [[0x88]] := by decide +kernel

/-- dynamic header with static header name (not huffman, huffman); stored and returned -/
example : encodeAll {} [[⟨b!":authority", b!"foo"⟩], [⟨b!":authority", b!"foo"⟩]] =
      some [[0x41, 0x03, 0x66, 0x6f, 0x6f], [0xbe]] ∧
    encodeAll {} [[⟨b!":authority", b!"localhost"⟩]] =
      some [[0x41, 0x86, 0xa0, 0xe4, 0x1d, 0x13, 0x9d, 0x9]] := by decide +kernel

/-- stores and returns dynamic header with indexed name when value changes -/
example : encodeAll {} [[⟨b!"foo", b!"bar"⟩], [⟨b!"foo", b!"baz"⟩]] =
    some [[0x40, 0x03, 0x66, 0x6f, 0x6f, 0x03, 0x62, 0x61, 0x72], [0x7e, 0x03, 0x62, 0x61, 0x7a]] := by decide +kernel

/-! ## test_frame_parsing.cpp -/

/-- can parse frame header -/
example : (FrameHeader.parse [0x00, 0x00, 0x0C, 0x04, 0x00, 0x00, 0x00, 0x00, 0x00] : Outcome Empty FrameHeader) =
    .ok { length := 12, type := 4, flags := 0, streamId := 0 } := by decide +kernel

/-- can parse frame header with priority set; header block can be decoded successfully -/
example : (match (FrameHeader.parse ([0x0, 0x1, 0xed, 0x1, 0x25, 0x0, 0x0, 0x0, 0x1, 0x80, 0x0, 0x0, 0x0, 0xff] ++
        chrome) : Outcome Empty FrameHeader) with
    | .ok h =>
      let f : FrameReader := ⟨h, ([0x80, 0x0, 0x0, 0x0, 0xff] ++ chrome).take h.length.toNat⟩
      (h == { length := 493, type := 1, flags := 0x25, streamId := 1 }) && f.priority && !f.hasFlag 0x08 &&
      (match (f.headersBlock : Outcome Empty Bytes) with
        | .ok b => (headersOf [b]).map (fun x => x.map List.length) == some [20]
        | _ => false)
    | _ => false) = true := by decide +kernel

end Tests
end Ion
