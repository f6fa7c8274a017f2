import Verif.Lemmas.Huffman
import Verif.Model.HeaderEncoder

/-! # C04-C07: Huffman coding -/

namespace Ion
open Spec

/-- C04: the table is exactly the canonical code of appendix B. -/
theorem C04_table_is_canonical (s : UInt8) :
    ∃ c, huffmanCodes[s.toNat]? = some c ∧ msbBits c.code c.len = huffCode s := by
  have hlen : huffmanCodes.length = 256 := by decide +kernel
  have hs : s.toNat < huffmanCodes.length := by rw [hlen]; exact s.toNat_lt
  refine ⟨huffmanCodes[s.toNat], List.getElem?_eq_getElem hs, ?_⟩
  rw [← codeBits_eq, codeBits, List.getD_eq_getElem?_getD, List.getElem?_eq_getElem hs]
  rfl

/-- C04: every code fits its declared length, and lengths are between 5 and 30. -/
theorem C04_codes_fit : ∀ c ∈ huffmanCodes, c.code < 2 ^ c.len ∧ 5 ≤ c.len ∧ c.len ≤ 30 := by
  decide +kernel

/-- C04: no code is a prefix of another one. -/
theorem C04_prefix_free (a b : UInt8) (h : huffCode a <+: huffCode b) : a = b := by
  rw [← codeBits_eq, ← codeBits_eq] at h
  refine Decidable.byContradiction fun hne => ?_
  have hlen : codeBits a ≠ codeBits b := by
    intro e
    have h1 := huffmanTree_follow a
    rw [e, huffmanTree_follow b] at h1
    exact hne (by simpa using h1.symm)
  have h1 := HuffTree.decodeBits_proper_prefix huffmanTree _ _ _ _ [] (huffmanTree_follow b) h hlen
  have h2 := decodeBits_codes [a] [] []
  simp only [List.flatMap_cons, List.flatMap_nil, List.append_nil, List.nil_append] at h2
  rw [h1] at h2
  simp [HuffTree.decodeBits] at h2

/-- C04: no code is a prefix of the end-of-string code, nor the other way round. -/
theorem C04_prefix_free_eos (a : UInt8) : ¬ huffCode a <+: eosCode ∧ ¬ eosCode <+: huffCode a := by
  have he : eosCode = List.replicate 30 true := by decide +kernel
  have h : ∀ a, false ∈ codeBits a := by decide +kernel
  rw [he, ← codeBits_eq]
  constructor
  · intro hp
    have := hp.subset (h a)
    exact absurd (List.eq_of_mem_replicate this) (by simp)
  · intro hp
    have hl := codeBits_length a
    have := hp.eq_of_length_le (by simpa using hl.2)
    have hm := h a
    rw [← this] at hm
    exact absurd (List.eq_of_mem_replicate hm) (by simp)

/-- C04: with the end-of-string code the codes fill the code space (Kraft equality). -/
theorem C04_kraft : (huffmanCodes.map fun c => 2 ^ (30 - c.len)).sum + 1 = 2 ^ 30 := by
  decide +kernel

/-- C04: building the tree does not throw. -/
theorem C04_tree_builds : HuffTree.empty.populate huffmanCodes ≠ none := by
  rw [huffmanTree_some]; simp

/-- Writing a string on a platform where the index is in range. -/
theorem huffmanWrite_spec {ε : Type} (sgn : Bool) (s : Bytes)
    (hs : sgn = false ∨ ∀ c ∈ s, c.toNat < 128) : ∀ w : BitWriter, w.Inv →
    ∃ w', (huffmanWrite sgn s w : Outcome ε BitWriter) = .ok w' ∧ w'.Inv ∧
      w'.bits = w.bits ++ huffBits s := by
  induction s with
  | nil => intro w hw; exact ⟨w, rfl, hw, by simp [huffBits]⟩
  | cons c s ih =>
    intro w hw
    obtain ⟨code, hc, hb⟩ := C04_table_is_canonical c
    have hcond : (sgn && decide (c ≥ 0x80)) = false := by
      rcases hs with h | h
      · simp [h]
      · have := h c (by simp)
        have : ¬ c ≥ 0x80 := by rw [ge_iff_le, UInt8.le_iff_toNat_le]; simpa using this
        simp [this]
    have hf := BitWriter.foldl_spec (msbBits code.code code.len) w hw
    obtain ⟨w', h1, h2, h3⟩ := ih (hs.imp id fun h c hc => h c (by simp [hc]))
      (w.writeBits code.code code.len) hf.1
    refine ⟨w', ?_, h2, ?_⟩
    · simp only [huffmanWrite, huffmanCodeOfChar, hcond, hc]
      exact h1
    · rw [h3, BitWriter.writeBits, hf.2, hb]; simp [huffBits]

/-- C05: for every byte string, write the codes, finalise, decode: the string comes back. (The
platform's `char` only matters for bytes above 0x7f, see C21; here the index is in range.) -/
theorem C05_huffman_roundtrip (sgn : Bool) (s : Bytes)
    (hs : sgn = false ∨ ∀ c ∈ s, c.toNat < 128) :
    ∃ w, (huffmanWrite sgn s {} : Outcome FrameError BitWriter) = .ok w ∧
      huffmanTree.decode w.finalize = .ok s ∧ HuffEncodes w.finalize s := by
  obtain ⟨w, h1, h2, h3⟩ := huffmanWrite_spec (ε := FrameError) sgn s hs {} BitWriter.inv_empty
  obtain ⟨pad, hp1, hp2, hp3⟩ := w.finalize_spec h2
  have hbits : bitsOf w.finalize = huffBits s ++ pad := by
    rw [hp1, h3]; simp [BitWriter.bits]
  refine ⟨w, h1, ?_, pad, hbits, hp2, hp3⟩
  rw [huffDecode_ok_iff]
  exact ⟨pad, by rw [flatMap_codeBits]; exact hbits, .inr hp2⟩

example : (∀ c ∈ b!"www.example.com", c.toNat < 128) ∧
    (do let w ← (huffmanWrite true b!"www.example.com" {} : Outcome FrameError BitWriter)
        .ok w.finalize) =
      .ok [0xf1, 0xe3, 0xc2, 0xe5, 0xf2, 0x3a, 0x6b, 0xa0, 0xab, 0x90, 0xf4, 0xff] := by
  decide +kernel

/-- C06, refuted: ion accepts encodings that section 5.2 forbids: a padding longer than seven bits,
a padding that is not ones, and an explicit end-of-string code. -/
theorem C06_not_strict :
    (huffmanTree.decode [0xff, 0xff] = .ok [] ∧ ¬ HuffEncodes [0xff, 0xff] []) ∧
    (huffmanTree.decode [0x18] = .ok b!"a" ∧ ¬ HuffEncodes [0x18] b!"a") ∧
    (huffmanTree.decode [0xff, 0xff, 0xff, 0xff] = .ok [] ∧
      ¬ HuffEncodes [0xff, 0xff, 0xff, 0xff] []) := by
  refine ⟨⟨by decide +kernel, ?_⟩, ⟨by decide +kernel, ?_⟩, ⟨by decide +kernel, ?_⟩⟩
  · rintro ⟨pad, h, -, hl⟩
    have := congrArg List.length h
    simp [huffBits] at this; omega
  · rintro ⟨pad, h, hp, -⟩
    have e : bitsOf [0x18] = [false, false, false, true, true, false, false, false] := by decide +kernel
    have e2 : huffBits b!"a" = [false, false, false, true, true] := by decide +kernel
    rw [e, e2] at h
    have : pad = [false, false, false] := by simpa using h.symm
    exact absurd (hp false (by simp [this])) (by simp)
  · rintro ⟨pad, h, -, hl⟩
    have := congrArg List.length h
    simp [huffBits] at this; omega

/-- C06, what does hold: the accepted language exactly. Every strictly valid encoding is accepted
with the right result, and whatever is accepted consists of the codes of the result followed by
either ones or a strict beginning of some code. Missing from C06: rejection of paddings of eight or
more bits, of paddings other than ones, and of the end-of-string code. -/
theorem C06_accepted_language_partial (data s : Bytes) :
    (huffmanTree.decode data = .ok s ↔
      ∃ t, bitsOf data = huffBits s ++ t ∧
        ((∃ c, t <+: huffCode c ∧ t ≠ huffCode c) ∨ ∀ b ∈ t, b = true)) ∧
    (HuffEncodes data s → huffmanTree.decode data = .ok s) := by
  have h1 : huffmanTree.decode data = .ok s ↔
      ∃ t, bitsOf data = huffBits s ++ t ∧
        ((∃ c, t <+: huffCode c ∧ t ≠ huffCode c) ∨ ∀ b ∈ t, b = true) := by
    rw [huffDecode_ok_iff, flatMap_codeBits]
    simp only [HuffTree.Tail, codeBits_eq]
  refine ⟨h1, ?_⟩
  rintro ⟨pad, hb, hp, -⟩
  exact h1.mpr ⟨pad, hb, .inr hp⟩

/-- `0x1f` is the strict encoding of "a". -/
example : HuffEncodes [0x1f] b!"a" :=
  ⟨[true, true, true], by decide +kernel, by simp, by simp⟩

/-- C07: decoding is total and defined: a string or `InvalidCode`, never undefined behaviour, and the
string is at most 8/5 as long as the input. -/
theorem C07_huffman_total_bounded (data : Bytes) :
    (∃ s, huffmanTree.decode data = .ok s ∧ 5 * s.length ≤ 8 * data.length) ∨
      huffmanTree.decode data = .err .invalidCode := by
  match h : huffmanTree.decode data with
  | .ok s =>
    left
    refine ⟨s, rfl, ?_⟩
    obtain ⟨t, ht, -⟩ := (huffDecode_ok_iff data s).mp h
    have hl := congrArg List.length ht
    rw [bitsOf_length, List.length_append] at hl
    have : ∀ l : Bytes, 5 * l.length ≤ (l.flatMap codeBits).length := by
      intro l
      induction l with
      | nil => simp
      | cons c l ih =>
        have := codeBits_length c
        simp only [List.flatMap_cons, List.length_append, List.length_cons]; omega
    have := this s
    omega
  | .err .invalidCode => right; rfl
  | .ub u => exact absurd h (huffDecode_no_ub data u)

/-- Both outcomes occur. -/
example : huffmanTree.decode [0x1f] = .ok b!"a" ∧
    huffmanTree.decode [0xff, 0xff, 0xff, 0xff, 0xfe] = .err .invalidCode := by
  decide +kernel

end Ion
