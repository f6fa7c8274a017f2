import Verif.Model.Base

/-!
# HPACK Huffman coding: `huffman_codes.h`, `bit_writer.h`, `bit_reader.h`, `huffman_tree.cpp`
-/

namespace Ion

/-- `struct HuffmanCode` (lib/hpack/huffman_codes.h:6-9). The fields are `uint32_t` and `uint8_t`;
they are only shifted right and counted, so naturals behave identically. -/
structure HuffmanCode where
  code : Nat
  len : Nat
deriving DecidableEq, Repr

/-- `HUFFMAN_CODES` (lib/hpack/huffman_codes.h:11-63), transcribed mechanically. -/
def huffmanCodes : List HuffmanCode := [
   ⟨0x1ff8, 13⟩, ⟨0x7fffd8, 23⟩, ⟨0xfffffe2, 28⟩, ⟨0xfffffe3, 28⟩, ⟨0xfffffe4, 28⟩, ⟨0xfffffe5, 28⟩, ⟨0xfffffe6, 28⟩, ⟨0xfffffe7, 28⟩,
   ⟨0xfffffe8, 28⟩, ⟨0xffffea, 24⟩, ⟨0x3ffffffc, 30⟩, ⟨0xfffffe9, 28⟩, ⟨0xfffffea, 28⟩, ⟨0x3ffffffd, 30⟩, ⟨0xfffffeb, 28⟩, ⟨0xfffffec, 28⟩,
   ⟨0xfffffed, 28⟩, ⟨0xfffffee, 28⟩, ⟨0xfffffef, 28⟩, ⟨0xffffff0, 28⟩, ⟨0xffffff1, 28⟩, ⟨0xffffff2, 28⟩, ⟨0x3ffffffe, 30⟩, ⟨0xffffff3, 28⟩,
   ⟨0xffffff4, 28⟩, ⟨0xffffff5, 28⟩, ⟨0xffffff6, 28⟩, ⟨0xffffff7, 28⟩, ⟨0xffffff8, 28⟩, ⟨0xffffff9, 28⟩, ⟨0xffffffa, 28⟩, ⟨0xffffffb, 28⟩,
   ⟨0x14, 6⟩, ⟨0x3f8, 10⟩, ⟨0x3f9, 10⟩, ⟨0xffa, 12⟩, ⟨0x1ff9, 13⟩, ⟨0x15, 6⟩, ⟨0xf8, 8⟩, ⟨0x7fa, 11⟩,
   ⟨0x3fa, 10⟩, ⟨0x3fb, 10⟩, ⟨0xf9, 8⟩, ⟨0x7fb, 11⟩, ⟨0xfa, 8⟩, ⟨0x16, 6⟩, ⟨0x17, 6⟩, ⟨0x18, 6⟩,
   ⟨0x0, 5⟩, ⟨0x1, 5⟩, ⟨0x2, 5⟩, ⟨0x19, 6⟩, ⟨0x1a, 6⟩, ⟨0x1b, 6⟩, ⟨0x1c, 6⟩, ⟨0x1d, 6⟩,
   ⟨0x1e, 6⟩, ⟨0x1f, 6⟩, ⟨0x5c, 7⟩, ⟨0xfb, 8⟩, ⟨0x7ffc, 15⟩, ⟨0x20, 6⟩, ⟨0xffb, 12⟩, ⟨0x3fc, 10⟩,
   ⟨0x1ffa, 13⟩, ⟨0x21, 6⟩, ⟨0x5d, 7⟩, ⟨0x5e, 7⟩, ⟨0x5f, 7⟩, ⟨0x60, 7⟩, ⟨0x61, 7⟩, ⟨0x62, 7⟩,
   ⟨0x63, 7⟩, ⟨0x64, 7⟩, ⟨0x65, 7⟩, ⟨0x66, 7⟩, ⟨0x67, 7⟩, ⟨0x68, 7⟩, ⟨0x69, 7⟩, ⟨0x6a, 7⟩,
   ⟨0x6b, 7⟩, ⟨0x6c, 7⟩, ⟨0x6d, 7⟩, ⟨0x6e, 7⟩, ⟨0x6f, 7⟩, ⟨0x70, 7⟩, ⟨0x71, 7⟩, ⟨0x72, 7⟩,
   ⟨0xfc, 8⟩, ⟨0x73, 7⟩, ⟨0xfd, 8⟩, ⟨0x1ffb, 13⟩, ⟨0x7fff0, 19⟩, ⟨0x1ffc, 13⟩, ⟨0x3ffc, 14⟩, ⟨0x22, 6⟩,
   ⟨0x7ffd, 15⟩, ⟨0x3, 5⟩, ⟨0x23, 6⟩, ⟨0x4, 5⟩, ⟨0x24, 6⟩, ⟨0x5, 5⟩, ⟨0x25, 6⟩, ⟨0x26, 6⟩,
   ⟨0x27, 6⟩, ⟨0x6, 5⟩, ⟨0x74, 7⟩, ⟨0x75, 7⟩, ⟨0x28, 6⟩, ⟨0x29, 6⟩, ⟨0x2a, 6⟩, ⟨0x7, 5⟩,
   ⟨0x2b, 6⟩, ⟨0x76, 7⟩, ⟨0x2c, 6⟩, ⟨0x8, 5⟩, ⟨0x9, 5⟩, ⟨0x2d, 6⟩, ⟨0x77, 7⟩, ⟨0x78, 7⟩,
   ⟨0x79, 7⟩, ⟨0x7a, 7⟩, ⟨0x7b, 7⟩, ⟨0x7ffe, 15⟩, ⟨0x7fc, 11⟩, ⟨0x3ffd, 14⟩, ⟨0x1ffd, 13⟩, ⟨0xffffffc, 28⟩,
   ⟨0xfffe6, 20⟩, ⟨0x3fffd2, 22⟩, ⟨0xfffe7, 20⟩, ⟨0xfffe8, 20⟩, ⟨0x3fffd3, 22⟩, ⟨0x3fffd4, 22⟩, ⟨0x3fffd5, 22⟩, ⟨0x7fffd9, 23⟩,
   ⟨0x3fffd6, 22⟩, ⟨0x7fffda, 23⟩, ⟨0x7fffdb, 23⟩, ⟨0x7fffdc, 23⟩, ⟨0x7fffdd, 23⟩, ⟨0x7fffde, 23⟩, ⟨0xffffeb, 24⟩, ⟨0x7fffdf, 23⟩,
   ⟨0xffffec, 24⟩, ⟨0xffffed, 24⟩, ⟨0x3fffd7, 22⟩, ⟨0x7fffe0, 23⟩, ⟨0xffffee, 24⟩, ⟨0x7fffe1, 23⟩, ⟨0x7fffe2, 23⟩, ⟨0x7fffe3, 23⟩,
   ⟨0x7fffe4, 23⟩, ⟨0x1fffdc, 21⟩, ⟨0x3fffd8, 22⟩, ⟨0x7fffe5, 23⟩, ⟨0x3fffd9, 22⟩, ⟨0x7fffe6, 23⟩, ⟨0x7fffe7, 23⟩, ⟨0xffffef, 24⟩,
   ⟨0x3fffda, 22⟩, ⟨0x1fffdd, 21⟩, ⟨0xfffe9, 20⟩, ⟨0x3fffdb, 22⟩, ⟨0x3fffdc, 22⟩, ⟨0x7fffe8, 23⟩, ⟨0x7fffe9, 23⟩, ⟨0x1fffde, 21⟩,
   ⟨0x7fffea, 23⟩, ⟨0x3fffdd, 22⟩, ⟨0x3fffde, 22⟩, ⟨0xfffff0, 24⟩, ⟨0x1fffdf, 21⟩, ⟨0x3fffdf, 22⟩, ⟨0x7fffeb, 23⟩, ⟨0x7fffec, 23⟩,
   ⟨0x1fffe0, 21⟩, ⟨0x1fffe1, 21⟩, ⟨0x3fffe0, 22⟩, ⟨0x1fffe2, 21⟩, ⟨0x7fffed, 23⟩, ⟨0x3fffe1, 22⟩, ⟨0x7fffee, 23⟩, ⟨0x7fffef, 23⟩,
   ⟨0xfffea, 20⟩, ⟨0x3fffe2, 22⟩, ⟨0x3fffe3, 22⟩, ⟨0x3fffe4, 22⟩, ⟨0x7ffff0, 23⟩, ⟨0x3fffe5, 22⟩, ⟨0x3fffe6, 22⟩, ⟨0x7ffff1, 23⟩,
   ⟨0x3ffffe0, 26⟩, ⟨0x3ffffe1, 26⟩, ⟨0xfffeb, 20⟩, ⟨0x7fff1, 19⟩, ⟨0x3fffe7, 22⟩, ⟨0x7ffff2, 23⟩, ⟨0x3fffe8, 22⟩, ⟨0x1ffffec, 25⟩,
   ⟨0x3ffffe2, 26⟩, ⟨0x3ffffe3, 26⟩, ⟨0x3ffffe4, 26⟩, ⟨0x7ffffde, 27⟩, ⟨0x7ffffdf, 27⟩, ⟨0x3ffffe5, 26⟩, ⟨0xfffff1, 24⟩, ⟨0x1ffffed, 25⟩,
   ⟨0x7fff2, 19⟩, ⟨0x1fffe3, 21⟩, ⟨0x3ffffe6, 26⟩, ⟨0x7ffffe0, 27⟩, ⟨0x7ffffe1, 27⟩, ⟨0x3ffffe7, 26⟩, ⟨0x7ffffe2, 27⟩, ⟨0xfffff2, 24⟩,
   ⟨0x1fffe4, 21⟩, ⟨0x1fffe5, 21⟩, ⟨0x3ffffe8, 26⟩, ⟨0x3ffffe9, 26⟩, ⟨0xffffffd, 28⟩, ⟨0x7ffffe3, 27⟩, ⟨0x7ffffe4, 27⟩, ⟨0x7ffffe5, 27⟩,
   ⟨0xfffec, 20⟩, ⟨0xfffff3, 24⟩, ⟨0xfffed, 20⟩, ⟨0x1fffe6, 21⟩, ⟨0x3fffe9, 22⟩, ⟨0x1fffe7, 21⟩, ⟨0x1fffe8, 21⟩, ⟨0x7ffff3, 23⟩,
   ⟨0x3fffea, 22⟩, ⟨0x3fffeb, 22⟩, ⟨0x1ffffee, 25⟩, ⟨0x1ffffef, 25⟩, ⟨0xfffff4, 24⟩, ⟨0xfffff5, 24⟩, ⟨0x3ffffea, 26⟩, ⟨0x7ffff4, 23⟩,
   ⟨0x3ffffeb, 26⟩, ⟨0x7ffffe6, 27⟩, ⟨0x3ffffec, 26⟩, ⟨0x3ffffed, 26⟩, ⟨0x7ffffe7, 27⟩, ⟨0x7ffffe8, 27⟩, ⟨0x7ffffe9, 27⟩, ⟨0x7ffffea, 27⟩,
   ⟨0x7ffffeb, 27⟩, ⟨0xffffffe, 28⟩, ⟨0x7ffffec, 27⟩, ⟨0x7ffffed, 27⟩, ⟨0x7ffffee, 27⟩, ⟨0x7ffffef, 27⟩, ⟨0x7fffff0, 27⟩, ⟨0x3ffffee, 26⟩]

/-- Bits of a code, most significant first: the order in which `BitWriter::write_bits`
(lib/hpack/bit_writer.h:9-14) and `HuffmanTree::insert_symbol` (lib/hpack/huffman_tree.cpp:16-17)
enumerate `(value >> i) & 1` for `i = len-1 .. 0`. -/
def msbBits (value : Nat) : Nat → List Bool
  | 0 => []
  | i + 1 => ((value >>> i) % 2 == 1) :: msbBits value i

/-- `class BitWriter` (lib/hpack/bit_writer.h:7-48). -/
structure BitWriter where
  buffer : Bytes := []
  currentByte : UInt8 := 0
  bitsInCurrent : Nat := 0
deriving DecidableEq, Repr

namespace BitWriter

/-- `BitWriter::write_bit` (lib/hpack/bit_writer.h:16-27). -/
def writeBit (w : BitWriter) (bit : Bool) : BitWriter :=
  let cur := if bit then w.currentByte ||| UInt8.ofNat (1 <<< (7 - w.bitsInCurrent))
    else w.currentByte
  let n := w.bitsInCurrent + 1
  if n = 8 then { buffer := w.buffer ++ [cur], currentByte := 0, bitsInCurrent := 0 }
  else { w with currentByte := cur, bitsInCurrent := n }

/-- `BitWriter::write_bits` (lib/hpack/bit_writer.h:9-14). -/
def writeBits (w : BitWriter) (value bitCount : Nat) : BitWriter :=
  (msbBits value bitCount).foldl writeBit w

/-- `BitWriter::finalize` (lib/hpack/bit_writer.h:29-38). -/
def finalize (w : BitWriter) : Bytes :=
  if w.bitsInCurrent > 0 then
    ((List.replicate (8 - w.bitsInCurrent) true).foldl writeBit w).buffer
  else w.buffer

end BitWriter

/-- `class BitReader` (lib/hpack/bit_reader.h:5-25). -/
structure BitReader where
  data : Bytes
  bitPos : Nat := 0

namespace BitReader

/-- `BitReader::has_more` (lib/hpack/bit_reader.h:22-24). -/
def hasMore (r : BitReader) : Bool := decide (r.bitPos < r.data.length * 8)

/-- `BitReader::read_bit` (lib/hpack/bit_reader.h:12-20). `data_[byte_idx]` is in range by the guard
on the first line: the proof is part of the definition. -/
def readBit (r : BitReader) : Bool × BitReader :=
  if h : r.bitPos ≥ r.data.length * 8 then (false, r)
  else
    have inRange : r.bitPos / 8 < r.data.length := by omega
    let bitIdx := 7 - r.bitPos % 8
    ((r.data[r.bitPos / 8].toNat >>> bitIdx) % 2 == 1, { r with bitPos := r.bitPos + 1 })

theorem bitPos_readBit (r : BitReader) (h : r.hasMore = true) :
    r.readBit.2.data = r.data ∧ r.readBit.2.bitPos = r.bitPos + 1 := by
  simp only [hasMore, decide_eq_true_eq] at h
  simp only [readBit]
  rw [dif_neg (by omega)]; simp

end BitReader

/-- `struct HuffmanNode` (lib/hpack/huffman_tree.h:10-18); `nil` is a null `unique_ptr`. -/
inductive HuffTree where
  | nil
  | node (left right : HuffTree) (symbol : Option UInt8)
deriving DecidableEq, Repr

/-- `enum class HuffmanDecodeError` (lib/hpack/huffman_tree.h:20). -/
inductive HuffErr where
  | invalidCode
deriving DecidableEq, Repr

namespace HuffTree

/-- A fresh node (`std::make_unique<HuffmanNode>()`); also the initial root
(lib/hpack/huffman_tree.h:31). -/
def empty : HuffTree := node nil nil none

/-- The walk and assignment of `HuffmanTree::insert_symbol` (lib/hpack/huffman_tree.cpp:15-34):
missing nodes on the way are created; `none` is the "Duplicate symbol" exception. -/
def insertPath : HuffTree → List Bool → UInt8 → Option HuffTree
  | nil, [], s => some (node nil nil (some s))
  | node l r none, [], s => some (node l r (some s))
  | node _ _ (some _), [], _ => none
  | nil, false :: bs, s => (insertPath nil bs s).map fun t => node t nil none
  | nil, true :: bs, s => (insertPath nil bs s).map fun t => node nil t none
  | node l r m, false :: bs, s => (insertPath l bs s).map fun t => node t r m
  | node l r m, true :: bs, s => (insertPath r bs s).map fun t => node l t m

/-- `HuffmanTree::insert_symbol` (lib/hpack/huffman_tree.cpp:10-35); `none` is an exception. -/
def insertSymbol (t : HuffTree) (symbol : UInt8) (c : HuffmanCode) : Option HuffTree :=
  if c.len = 0 ∨ c.len > 31 then none
  else t.insertPath (msbBits c.code c.len) symbol

/-- The loop of `populate_huffman_tree` (lib/hpack/header_block_decoder.cpp:18-23): symbols are the
positions in the table, cast to `uint8_t`. -/
def populate (t : HuffTree) (codes : List HuffmanCode) (i : Nat := 0) : Option HuffTree :=
  match codes with
  | [] => some t
  | c :: cs =>
    match t.insertSymbol (UInt8.ofNat i) c with
    | none => none
    | some t' => populate t' cs (i + 1)

/-- Inner padding loop of `HuffmanTree::decode` (lib/hpack/huffman_tree.cpp:53-60): `true` when all
remaining bits are ones. -/
def restIsOnes (br : BitReader) : Bool :=
  if _h : br.hasMore then
    if !br.readBit.1 then false else restIsOnes br.readBit.2
  else true
termination_by br.data.length * 8 - br.bitPos
decreasing_by
  have := br.bitPos_readBit _h
  simp only [BitReader.hasMore, decide_eq_true_eq] at _h
  rw [this.1, this.2]; omega

/-- Main loop of `HuffmanTree::decode` (lib/hpack/huffman_tree.cpp:44-70). Taking a child of a null
`current` would be undefined behaviour. -/
def decodeLoop (root : HuffTree) (br : BitReader) (current : HuffTree) (result : Bytes) :
    Outcome HuffErr Bytes :=
  if _h : br.hasMore then
    match current with
    | nil => .ub .nullDeref
    | node left right _ =>
      match (if !br.readBit.1 then left else right) with
      | nil => if restIsOnes br.readBit.2 then .ok result else .err .invalidCode
      | node _ _ (some s) => decodeLoop root br.readBit.2 root (result ++ [s])
      | node l r none => decodeLoop root br.readBit.2 (node l r none) result
  else .ok result
termination_by br.data.length * 8 - br.bitPos
decreasing_by
  all_goals
    have := br.bitPos_readBit _h
    simp only [BitReader.hasMore, decide_eq_true_eq] at _h
    rw [this.1, this.2]; omega

/-- `HuffmanTree::decode` (lib/hpack/huffman_tree.cpp:37-71). -/
def decode (root : HuffTree) (data : Bytes) : Outcome HuffErr Bytes :=
  decodeLoop root { data := data } root []

end HuffTree

/-- The tree held by a `HeaderBlockDecoder` (lib/hpack/header_block_decoder.cpp:25-28). Were an
insertion to throw, the constructor would fail; C04 shows it does not, so the fallback is unused. -/
def huffmanTree : HuffTree := (HuffTree.empty.populate huffmanCodes).getD HuffTree.nil

end Ion
