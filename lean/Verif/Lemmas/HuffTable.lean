import Verif.Model.Huffman
import Verif.Spec.Huffman
import Verif.Lemmas.Byte

namespace Ion
open Spec

/-- The model's code of a byte. -/
def codeBits (s : UInt8) : List Bool :=
  let c := huffmanCodes.getD s.toNat ⟨0, 0⟩
  msbBits c.code c.len

set_option maxRecDepth 100000 in
theorem codeBits_eq (s : UInt8) : codeBits s = huffCode s := by
  revert s; decide +kernel

theorem huffmanTree_some : HuffTree.empty.populate huffmanCodes = some huffmanTree := by
  decide +kernel

end Ion
