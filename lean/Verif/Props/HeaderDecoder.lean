import Verif.Lemmas.HeaderBlock
import Verif.Props.IntCodec
import Verif.Props.Huffman

/-! # C08, C09, C13-C18: decoding header blocks

`DynTable.WF` says that the cached size is the sum of the entry sizes and within the maximum; by C10
this holds of every table that can be built through the table's interface. `DynTable.abs` forgets
the cached size. -/

namespace Ion
open Spec

/-! ### Strings -/

theorem encodeLength_spec (n : Nat) (hn : n < 2 ^ 32) :
    ∃ b bs, encodeLength n = b :: bs ∧ IntRep 7 0 n (b :: bs) ∧ (b :: bs).length ≤ 6 := by
  have hv : (UInt32.ofNat n).toNat = n := by
    rw [UInt32.toNat_ofNat']; exact Nat.mod_eq_of_lt hn
  obtain ⟨enc, he, hrep, hl, -⟩ := encodeInt_some (UInt32.ofNat n) 7 (by decide) (by decide)
  rw [hv] at hrep
  cases enc with
  | nil => cases hrep
  | cons b bs => exact ⟨b, bs, by simp [encodeLength, he], hrep, hl⟩

theorem or_80_comm (b : UInt8) : (0x80 ||| b) = (b ||| 0x80) := by
  revert b; decide +kernel

theorem huffBits_length (s : Bytes) : (huffBits s).length ≤ 30 * s.length := by
  induction s with
  | nil => simp [huffBits]
  | cons c s ih =>
    have := (codeBits_length c).2
    rw [codeBits_eq] at this
    simp only [huffBits, List.flatMap_cons, List.length_append, List.length_cons] at ih ⊢
    omega

theorem huffEncodes_length {data s : Bytes} (h : HuffEncodes data s) :
    data.length ≤ 4 * s.length + 1 := by
  obtain ⟨pad, h1, -, h3⟩ := h
  have hl := congrArg List.length h1
  have := huffBits_length s
  simp only [bitsOf_length, List.length_append] at hl
  omega

/-- What the encoder writes for a string is a section 5.2 string literal. -/
theorem writeLengthAndString_spec {ε : Type} (sgn : Bool) (s : Bytes) (hlen : s.length < 2 ^ 29)
    (hs : sgn = false ∨ s.length ≤ 3 ∨ ∀ c ∈ s, c.toNat < 128) :
    ∃ w, (writeLengthAndString sgn s : Outcome ε Bytes) = .ok w ∧
      StrWire { int := Dialect.limited.int, huff := HuffEncodes, str := fun _ => True } s w := by
  unfold writeLengthAndString
  by_cases h : s.length > 3
  · rw [if_pos (show s.length > maxPlainTextStringLength from h)]
    have hs' : sgn = false ∨ ∀ c ∈ s, c.toNat < 128 := by
      rcases hs with h1 | h1 | h1
      · exact .inl h1
      · omega
      · exact .inr h1
    obtain ⟨w, h1, h2, h3⟩ := huffmanWrite_spec (ε := ε) sgn s hs' {} BitWriter.inv_empty
    obtain ⟨pad, hp1, hp2, hp3⟩ := w.finalize_spec h2
    have henc : HuffEncodes w.finalize s :=
      ⟨pad, by rw [hp1, h3]; simp [BitWriter.bits], hp2, hp3⟩
    have hl := huffEncodes_length henc
    obtain ⟨b, bs, hb, hrep, hbl⟩ := encodeLength_spec w.finalize.length (by omega)
    refine ⟨orFirst 0x80 (encodeLength w.finalize.length) ++ w.finalize, by simp [h1], ?_⟩
    have h80 := hrep.withFlag (hi := 0x80) (by decide)
    rw [← or_80_comm] at h80
    rw [hb]
    exact .huffman _ _ ⟨h80, by simpa [orFirst] using hbl, by omega⟩ henc trivial
  · rw [if_neg (show ¬ s.length > maxPlainTextStringLength from h)]
    obtain ⟨b, bs, hb, hrep, hbl⟩ := encodeLength_spec s.length (by omega)
    exact ⟨_, rfl, by rw [hb]; exact .plain _ ⟨hrep, hbl, by omega⟩ trivial⟩

/-- C08: a string of at most 4096 bytes, written by the encoder and followed by anything, is read
back by the decoder, which stops exactly behind it. (For a signed `char` and bytes above 0x7f the
encoder is undefined, see C21; plain strings of at most three bytes are not affected.) -/
theorem C08_string_roundtrip (sgn : Bool) (s rest : Bytes) (hlen : s.length ≤ 4096)
    (hs : sgn = false ∨ s.length ≤ 3 ∨ ∀ c ∈ s, c.toNat < 128) :
    ∃ w, (writeLengthAndString sgn s : Outcome FrameError Bytes) = .ok w ∧
      readLengthAndString (w ++ rest) = .ok (s, rest) := by
  obtain ⟨w, h1, h2⟩ := writeLengthAndString_spec (ε := FrameError) sgn s (by omega) hs
  refine ⟨w, h1, (readLengthAndString_iff _ _ _).mpr ⟨w, rfl, ?_⟩⟩
  cases h2 with
  | plain len h _ => exact .plain len h hlen
  | huffman len data h hd _ => exact .huffman len data h (huffEncodes_lenient hd) hlen

example : (writeLengthAndString true b!"no-cache" : Outcome FrameError Bytes) =
      .ok [0x86, 0xa8, 0xeb, 0x10, 0x64, 0x9c, 0xbf] ∧
    readLengthAndString [0x86, 0xa8, 0xeb, 0x10, 0x64, 0x9c, 0xbf, 0x01] =
      .ok (b!"no-cache", [0x01]) := by
  decide +kernel

/-! ### Blocks -/

/-- C13: if a header list is returned, the block is a sequence of section 6 representations (with
ion's limits, and Huffman strings read as leniently as C06 says) whose execution yields exactly that
list and exactly the new table. -/
theorem C13_decode_sound (t t' : DynTable) (hwf : t.WF) (data : Bytes) (hs : List Header)
    (h : decodeBlock t data = .ok hs t') :
    ∃ reps, BlockWire Dialect.lenient reps data ∧
      execReps 65536 t.abs reps = some (hs, t'.abs) ∧ t'.WF := by
  obtain ⟨hwf', reps, out, h1, h2, h3⟩ := decodeLoop_sound _ _ _ _ _ _ hwf h
  exact ⟨reps, h1, by rw [h2]; exact h3, hwf'⟩

/-- C14: every valid block within the limits is accepted with the RFC's result. -/
theorem C14_decode_complete (t : DynTable) (hwf : t.WF) (reps : List Rep) (data : Bytes)
    (hw : BlockWire Dialect.limited reps data) (hs : List Header) (T : Table)
    (he : execReps 65536 t.abs reps = some (hs, T)) :
    ∃ t', decodeBlock t data = .ok hs t' ∧ t'.abs = T ∧ t'.WF := by
  obtain ⟨t', h1, h2, h3⟩ := decodeLoop_complete reps data.length t data [] hs T hwf
    (Nat.le_refl _) (blockWire_limited hw) he
  exact ⟨t', by simpa [decodeBlock] using h1, h3, h2⟩

/-- RFC 7541 C.4.1, by the decoder and by the specification. -/
example :
    let data : Bytes := [0x82, 0x86, 0x84, 0x41, 0x8c, 0xf1, 0xe3, 0xc2, 0xe5, 0xf2, 0x3a, 0x6b,
      0xa0, 0xab, 0x90, 0xf4, 0xff]
    let hs : List Header := [⟨b!":method", b!"GET"⟩, ⟨b!":scheme", b!"http"⟩, ⟨b!":path", b!"/"⟩,
      ⟨b!":authority", b!"www.example.com"⟩]
    decodeBlock {} data = .ok hs { table := [⟨b!":authority", b!"www.example.com"⟩], tableSize := 57 } ∧
    execReps 65536 (({} : DynTable).abs) [.indexed 2, .indexed 6, .indexed 4,
      .literal .incremental (.index 1) b!"www.example.com"] =
      some (hs, ⟨[⟨b!":authority", b!"www.example.com"⟩], 65536⟩) := by
  decide +kernel

/-- C15: which indices are valid: 1..61 and the current dynamic entries. -/
theorem C15_valid_indices (T : Table) (i : Nat) :
    T.lookup i = none ↔ i = 0 ∨ 61 + T.entries.length < i := lookup_none_iff

/-- C15: after any accepted beginning, an indexed field with an invalid index is rejected. -/
theorem C15_indexed_rejected (t : DynTable) (hwf : t.WF) (reps : List Rep) (w : Bytes)
    (hw : BlockWire Dialect.lenient reps w) (hs : List Header) (T : Table)
    (he : execReps 65536 t.abs reps = some (hs, T)) (i : Nat) (wi rest : Bytes)
    (hi : Dialect.lenient.int 7 1 i wi) (hbad : i = 0 ∨ 61 + T.entries.length < i) :
    ∃ t', decodeBlock t (w ++ (wi ++ rest)) = .err .protocolError t' ∧ t'.abs = T := by
  obtain ⟨fuel, t', h1, h2, h3, h4⟩ := decodeLoop_prefix reps _ t w (wi ++ rest) [] hs T hwf
    (Nat.le_refl _) hw he
  refine ⟨t', ?_, h4⟩
  unfold decodeBlock
  rw [h1]
  obtain ⟨b, w', rfl⟩ := int_ne_nil hi.1
  have hf := intRep_first hi.1
  have hlt := b.toNat_lt
  have h128 : 128 ≤ b.toNat := by omega
  obtain ⟨hd, hv⟩ := decodeInt_of_int (p := 7) (by decide) (by decide) hi rest
  cases fuel with
  | zero => simp at h2
  | succ fuel =>
    have hfield : decodeField t' (b :: (w' ++ rest)) b = .err .protocolError := by
      simp only [List.cons_append] at hd
      simp only [decodeField, fieldType_eq, h128, if_true, decodeIndexedField, hd]
      by_cases h0 : i = 0
      · subst h0; rfl
      · rw [if_neg (by rw [UInt32.lt_iff_toNat_lt, hv]; simp; omega), hv,
          readIndexedHeader_eq t' i (by omega) (by have := hi.2.2; omega), h4,
          lookup_none_iff.mpr hbad]
        rfl
    simp only [List.cons_append, decodeLoop, hfield]

/-- C15: likewise a literal whose name index is invalid (index 0 there means a new name). -/
theorem C15_literal_rejected (t : DynTable) (hwf : t.WF) (reps : List Rep) (w : Bytes)
    (hw : BlockWire Dialect.lenient reps w) (hs : List Header) (T : Table)
    (he : execReps 65536 t.abs reps = some (hs, T)) (mode : Indexing) (i : Nat) (wi rest : Bytes)
    (hi : Dialect.lenient.int (litPrefix mode) (litFlag mode) i wi)
    (hbad : 61 + T.entries.length < i) :
    ∃ t', decodeBlock t (w ++ (wi ++ rest)) = .err .protocolError t' ∧ t'.abs = T := by
  obtain ⟨fuel, t', h1, h2, h3, h4⟩ := decodeLoop_prefix reps _ t w (wi ++ rest) [] hs T hwf
    (Nat.le_refl _) hw he
  refine ⟨t', ?_, h4⟩
  unfold decodeBlock
  rw [h1]
  obtain ⟨b, w', rfl⟩ := int_ne_nil hi.1
  have hf := intRep_first hi.1
  have hlt := b.toNat_lt
  have hlit : ∀ p : UInt8, p.toNat = litPrefix mode → 1 ≤ p.toNat → p.toNat ≤ 8 →
      decodeLiteralField t' p (b :: (w' ++ rest)) = .err .protocolError := by
    intro p hp hp1 hp8
    rw [← hp] at hi
    obtain ⟨hd, hv⟩ := decodeInt_of_int (p := p) hp1 hp8 hi rest
    simp only [List.cons_append] at hd
    simp only [decodeLiteralField, hd]
    rw [if_neg (by
      intro e
      have := congrArg UInt32.toNat e
      rw [hv] at this; simp at this; omega), hv,
      readIndexedHeaderName_eq t' i (by omega) (by have := hi.2.2; omega), h4,
      lookup_none_iff.mpr (.inr hbad)]
    rfl
  cases fuel with
  | zero => simp at h2
  | succ fuel =>
    have hfield : decodeField t' (b :: (w' ++ rest)) b = .err .protocolError := by
      cases mode with
      | incremental =>
        have h6 := hlit 6 rfl (by decide) (by decide)
        simp only [litPrefix, litFlag] at hf
        have h128 : ¬ 128 ≤ b.toNat := by omega
        have h64 : 64 ≤ b.toNat := by omega
        simp [decodeField, fieldType_eq, h128, h64, h6]
      | without =>
        have h4 := hlit 4 rfl (by decide) (by decide)
        simp only [litPrefix, litFlag] at hf
        have h128 : ¬ 128 ≤ b.toNat := by omega
        have h64 : ¬ 64 ≤ b.toNat := by omega
        have h32 : ¬ 32 ≤ b.toNat := by omega
        have h16 : ¬ 16 ≤ b.toNat := by omega
        simp [decodeField, fieldType_eq, h128, h64, h32, h16, h4]
      | never =>
        have h4 := hlit 4 rfl (by decide) (by decide)
        simp only [litPrefix, litFlag] at hf
        have h128 : ¬ 128 ≤ b.toNat := by omega
        have h64 : ¬ 64 ≤ b.toNat := by omega
        have h32 : ¬ 32 ≤ b.toNat := by omega
        have h16 : 16 ≤ b.toNat := by omega
        simp [decodeField, fieldType_eq, h128, h64, h32, h16, h4]
    simp only [List.cons_append, decodeLoop, hfield]

/-- Index 62 with an empty dynamic table, index 0, and a name index 70. -/
example : decodeBlock {} [0x82, 0xbe] = .err .protocolError {} ∧
    decodeBlock {} [0x80] = .err .protocolError {} ∧
    decodeBlock {} [0x7f, 0x07, 0x00] = .err .protocolError {} := by decide +kernel

/-! ### Undefined behaviour -/

/-- Some prefix of `r` is an integer the decoder can read. -/
def Spec.HasInt (n : Nat) (r : Bytes) : Prop :=
  ∃ flag v wi rest, r = wi ++ rest ∧ IntRep n flag v wi ∧ wi.length ≤ 6 ∧ v < 2 ^ 32

/-- The field at the head of `r` is an indexed field or a literal whose leading integer is
unreadable (truncated, too long or too big). -/
def Spec.BadIndexField (r : Bytes) : Prop :=
  ∃ b r', r = b :: r' ∧
    ((128 ≤ b.toNat ∧ ¬ HasInt 7 r) ∨ (64 ≤ b.toNat ∧ b.toNat < 128 ∧ ¬ HasInt 6 r) ∨
      (b.toNat < 32 ∧ ¬ HasInt 4 r))

theorem decodeInt_error_iff (r : Bytes) (p : UInt8) (h1 : 1 ≤ p.toNat) (h8 : p.toNat ≤ 8) :
    (∃ e, decodeInt r p = .error e) ↔ ¬ HasInt p.toNat r := by
  constructor
  · rintro ⟨e, he⟩ ⟨flag, v, wi, rest, hr, hrep, hl, hv⟩
    exact C02_int_decode_error r p ⟨h1, h8⟩ e he ⟨flag, v, wi, rest, hr, hrep, hl, hv⟩
  · intro hn
    cases hd : decodeInt r p with
    | error e => exact ⟨e, rfl⟩
    | ok x =>
      obtain ⟨v, rest⟩ := x
      obtain ⟨flag, enc, hr, hrep, hl⟩ := (C02_int_decode_exact r p ⟨h1, h8⟩ v rest).mp hd
      exact absurd ⟨flag, v.toNat, enc, rest, hr, hrep, hl, v.toNat_lt⟩ hn

theorem badFirstInt_iff (r : Bytes) : BadFirstInt r ↔ BadIndexField r := by
  have h7 : ∀ r, (∃ e, decodeInt r 7 = .error e) ↔ ¬ HasInt 7 r :=
    fun r => decodeInt_error_iff r 7 (by decide) (by decide)
  have h6 : ∀ r, (∃ e, decodeInt r 6 = .error e) ↔ ¬ HasInt 6 r :=
    fun r => decodeInt_error_iff r 6 (by decide) (by decide)
  have h4 : ∀ r, (∃ e, decodeInt r 4 = .error e) ↔ ¬ HasInt 4 r :=
    fun r => decodeInt_error_iff r 4 (by decide) (by decide)
  simp only [BadFirstInt, BadIndexField, h7, h6, h4]

/-- C17, refuted: a block of one octet makes the decoder dereference an error value. -/
theorem C17_ub_exists : decodeBlock {} [0xff] = .ub .derefError := by decide +kernel

/-- C17, exactly when: undefined behaviour happens if and only if an accepted beginning of the block
is followed by an indexed field or literal with an unreadable leading integer. In particular no table
is ever read out of range (C15), no empty table is popped, and no string read leaves the block. -/
theorem C17_ub_exact (t : DynTable) (hwf : t.WF) (data : Bytes) (u : UB) :
    decodeBlock t data = .ub u ↔
      u = .derefError ∧ ∃ reps w r out T, data = w ++ r ∧ BlockWire Dialect.lenient reps w ∧
        execReps 65536 t.abs reps = some (out, T) ∧ BadIndexField r := by
  simp only [decodeBlock, decodeLoop_ub _ t data [] u hwf (Nat.le_refl _), badFirstInt_iff]

/-- C17, what does hold: blocks in which every accepted beginning is followed by a readable integer
are decoded without undefined behaviour. Missing from C17: truncated or overlong leading integers. -/
theorem C17_no_ub_partial (t : DynTable) (hwf : t.WF) (data : Bytes)
    (h : ∀ w r, data = w ++ r → ¬ BadIndexField r) :
    (∃ hs t', decodeBlock t data = .ok hs t') ∨ (∃ e t', decodeBlock t data = .err e t') := by
  cases hd : decodeBlock t data with
  | ok hs t' => exact .inl ⟨hs, t', rfl⟩
  | err e t' => exact .inr ⟨e, t', rfl⟩
  | ub u =>
    obtain ⟨-, reps, w, r, out, T, hr, -, -, hbad⟩ := (C17_ub_exact t hwf data u).mp hd
    exact absurd hbad (h w r hr)

/-- The hypothesis is met by a real block (C.2.4 of the RFC), and more generally by any block whose
octets avoid the all-ones prefixes. -/
example : ∀ w r, ([0x82] : Bytes) = w ++ r → ¬ BadIndexField r := by
  rintro w r hr ⟨b, r', rfl, h⟩
  have hw : w = [] := by
    cases w with
    | nil => rfl
    | cons x xs =>
      have := congrArg List.length hr; simp at this
  subst hw
  obtain ⟨rfl, rfl⟩ : b = 0x82 ∧ r' = [] := by
    simpa [eq_comm] using hr
  rcases h with ⟨-, h⟩ | ⟨-, h, -⟩ | ⟨h, -⟩
  · exact h ⟨1, 2, [0x82], [], rfl, .short _ (by decide) (by decide), by decide, by decide⟩
  · exact absurd h (by decide)
  · exact absurd h (by decide)

/-! ### Whole connections -/

/-- Decoder tables reachable over the life of a connection: blocks accepted or rejected. -/
inductive DecoderReach : DynTable → Prop
  | init : DecoderReach {}
  | ok {t t' data hs} : DecoderReach t → decodeBlock t data = .ok hs t' → DecoderReach t'
  | err {t t' data e} : DecoderReach t → decodeBlock t data = .err e t' → DecoderReach t'

theorem decoderReach_inv {t : DynTable} (h : DecoderReach t) :
    t.WF ∧ t.maxTableSize ≤ 65536 ∧ ∀ h ∈ t.table, h.Short := by
  induction h with
  | init => exact ⟨⟨rfl, Nat.zero_le _⟩, by decide, by simp⟩
  | ok hr hd ih =>
    obtain ⟨hwf, hm, hsh⟩ := ih
    obtain ⟨reps, h1, h2, h3⟩ := C13_decode_sound _ _ hwf _ _ hd
    exact ⟨h3, execReps_max reps h2 hm, (execReps_short h1 h2 hsh).2⟩
  | err hr hd ih =>
    obtain ⟨hwf, hm, hsh⟩ := ih
    obtain ⟨hwf', reps, w, r', out, -, h1, h2⟩ := decodeLoop_err _ _ _ _ _ _ hwf hd
    exact ⟨hwf', execReps_max reps h2 hm, (execReps_short h1 h2 hsh).2⟩

/-- C09: whatever blocks were sent before, no string longer than 4096 bytes is in the table or in
the header list handed out for the next block. -/
theorem C09_string_limit (t : DynTable) (hr : DecoderReach t) :
    (∀ h ∈ t.table, h.name.length ≤ 4096 ∧ h.value.length ≤ 4096) ∧
    ∀ data hs t', decodeBlock t data = .ok hs t' →
      ∀ h ∈ hs, h.name.length ≤ 4096 ∧ h.value.length ≤ 4096 := by
  obtain ⟨hwf, -, hsh⟩ := decoderReach_inv hr
  refine ⟨hsh, ?_⟩
  intro data hs t' hd
  obtain ⟨reps, h1, h2, -⟩ := C13_decode_sound _ _ hwf _ _ hd
  exact (execReps_short h1 h2 hsh).1

/-- C16: a block of n bytes gives at most n headers, and the table never exceeds 65536 octets. -/
theorem C16_resource_bound (t : DynTable) (hr : DecoderReach t) :
    (t.table.map fun h => h.name.length + h.value.length + 32).sum ≤ 65536 ∧
    ∀ data hs t', decodeBlock t data = .ok hs t' → hs.length ≤ data.length := by
  obtain ⟨hwf, hm, -⟩ := decoderReach_inv hr
  refine ⟨?_, ?_⟩
  · have h1 := hwf.1
    have h2 := hwf.2
    have : sizes t.table ≤ 65536 := by omega
    exact this
  · intro data hs t' hd
    obtain ⟨reps, h1, h2, -⟩ := C13_decode_sound _ _ hwf _ _ hd
    exact execReps_count h1 h2

/-- A history with an accepted and a rejected block, after which the table is not empty. -/
example : DecoderReach { table := [⟨b!"a", b!"b"⟩], tableSize := 34, maxTableSize := 65536 } := by
  have h1 : decodeBlock {} [0x40, 0x01, 0x61, 0x01, 0x62] =
      .ok [⟨b!"a", b!"b"⟩] { table := [⟨b!"a", b!"b"⟩], tableSize := 34, maxTableSize := 65536 } := by
    decide +kernel
  have h2 : decodeBlock { table := [⟨b!"a", b!"b"⟩], tableSize := 34, maxTableSize := 65536 } [0x80] =
      .err .protocolError { table := [⟨b!"a", b!"b"⟩], tableSize := 34, maxTableSize := 65536 } := by
    decide +kernel
  exact .err (.ok .init h1) h2

/-! ### A peer with a smaller table -/

/-- The specification over several blocks: the header list of each. -/
def Spec.execBlocks (limit : Nat) : Table → List (List Rep) → Option (List (List Header) × Table)
  | T, [] => some ([], T)
  | T, b :: bs =>
    match execReps limit T b with
    | none => none
    | some (hs, T') => (execBlocks limit T' bs).map fun (hss, T'') => (hs :: hss, T'')

/-- The decoder over several blocks. -/
def decodeBlocks : DynTable → List Bytes → Option (List (List Header) × DynTable)
  | t, [] => some ([], t)
  | t, d :: ds =>
    match decodeBlock t d with
    | .ok hs t' => (decodeBlocks t' ds).map fun (hss, t'') => (hs :: hss, t'')
    | _ => none

/-- C18: a client whose own table is limited to `limit` (4096 unless renegotiated, which ion never
does), and which therefore only ever refers to what such a table holds, is decoded exactly over any
number of blocks, although ion's table is larger. -/
theorem C18_smaller_peer (limit : Nat) (hlim : limit ≤ 65536) (blocks : List (List Rep × Bytes))
    (hw : ∀ b ∈ blocks, BlockWire Dialect.limited b.1 b.2) (hss : List (List Header)) (T : Table)
    (he : execBlocks limit ⟨[], limit⟩ (blocks.map Prod.fst) = some (hss, T)) :
    ∃ t, decodeBlocks {} (blocks.map Prod.snd) = some (hss, t) ∧ T.entries <+: t.table := by
  suffices H : ∀ (blocks : List (List Rep × Bytes)) (Tc : Table) (t : DynTable)
      (hss : List (List Header)) (T : Table), t.WF → Within Tc t.abs →
      (∀ b ∈ blocks, BlockWire Dialect.limited b.1 b.2) →
      execBlocks limit Tc (blocks.map Prod.fst) = some (hss, T) →
      ∃ t', decodeBlocks t (blocks.map Prod.snd) = some (hss, t') ∧ T.entries <+: t'.table from
    H blocks ⟨[], limit⟩ {} hss T ⟨rfl, Nat.zero_le _⟩ ⟨List.nil_prefix, hlim⟩ hw he
  intro blocks
  induction blocks with
  | nil =>
    intro Tc t hss T hwf hin hw he
    simp only [List.map_nil, execBlocks, Option.some.injEq, Prod.mk.injEq] at he
    obtain ⟨rfl, rfl⟩ := he
    exact ⟨t, rfl, hin.1⟩
  | cons b bs ih =>
    intro Tc t hss T hwf hin hw he
    simp only [List.map_cons, execBlocks] at he
    split at he
    · simp at he
    · rename_i hs T1 h1
      obtain ⟨⟨hss', T2⟩, h2, heq⟩ := Option.map_eq_some_iff.mp he
      simp only [Prod.mk.injEq] at heq
      obtain ⟨rfl, rfl⟩ := heq
      obtain ⟨Td, h3, h4⟩ := execReps_within hlim b.1 hin h1
      obtain ⟨t1, h5, h6, h7⟩ := C14_decode_complete t hwf b.1 b.2 (hw b (by simp)) hs Td h3
      obtain ⟨t', h8, h9⟩ := ih T1 t1 hss' T2 h7 (by rw [h6]; exact h4)
        (fun b' hb' => hw b' (by simp [hb'])) h2
      exact ⟨t', by simp [decodeBlocks, h5, h8], h9⟩

/-- A client with a table of 40 octets inserts two entries (evicting the first), then refers to the
newest; ion still holds both. -/
example :
    execBlocks 40 ⟨[], 40⟩ [[.literal .incremental (.new b!"a") b!"1"],
      [.literal .incremental (.new b!"b") b!"2"], [.indexed 62]] =
      some ([[⟨b!"a", b!"1"⟩], [⟨b!"b", b!"2"⟩], [⟨b!"b", b!"2"⟩]], ⟨[⟨b!"b", b!"2"⟩], 40⟩) ∧
    decodeBlocks {} [[0x40, 1, 0x61, 1, 0x31], [0x40, 1, 0x62, 1, 0x32], [0xbe]] =
      some ([[⟨b!"a", b!"1"⟩], [⟨b!"b", b!"2"⟩], [⟨b!"b", b!"2"⟩]],
        { table := [⟨b!"b", b!"2"⟩, ⟨b!"a", b!"1"⟩], tableSize := 68 }) := by
  decide +kernel

end Ion
