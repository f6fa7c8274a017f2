import Verif.Spec.Log
import Verif.Lemmas.ConnStep
import Verif.Lemmas.ConnServe
import Verif.Lemmas.ConnInv
import Verif.Lemmas.ConnExample
import Verif.Lemmas.HeaderDecoder
import Verif.Props.ConnServe
import Verif.Model.App

/-!
# What the log says about frames (C160, C161)
-/

namespace Ion
open Spec

variable {W : Type}

/-! ### Texts -/

theorem reason_fixed {p : Bytes} (h : [p] ∈ reasons) : Reason p := ⟨_, h, .last p⟩

theorem reason_one {p q d : Bytes} {n : Nat} (h : [p, q] ∈ reasons) (hd : IsDecimal n d) : Reason (p ++ d ++ q) :=
  ⟨_, h, .gap p [q] n _ q hd (.last q)⟩

theorem reason_two {p q r a b : Bytes} {n m : Nat} (h : [p, q, r] ∈ reasons) (ha : IsDecimal n a) (hb : IsDecimal m b) :
    Reason (p ++ a ++ q ++ b ++ r) := by
  rw [List.append_assoc, List.append_assoc (p ++ a), ← List.append_assoc q]
  exact ⟨_, h, .gap p [q, r] n _ _ ha (.gap q [r] m _ r hb (.last r))⟩

theorem strFault_reason {r text : Bytes} (h : StrFault r text) : Reason text := by
  cases h with
  | empty => exact reason_fixed (by decide)
  | length => exact reason_fixed (by decide)
  | short => exact reason_fixed (by decide)
  | long n w rest d h1 h2 h3 h4 => exact reason_one (by decide) h4
  | decodedLong w data rest s d h1 h2 h3 h4 => exact reason_one (by decide) h4
  | code w data rest n d h1 h2 h3 => exact reason_one (by decide) h3

theorem fieldFault_reason {T : Table} {r text : Bytes} (h : FieldFault T r text) : Reason text := by
  cases h with
  | zero => exact reason_fixed (by decide)
  | entry i w rest a b h1 h2 h3 h4 h5 => exact reason_two (by decide) h4 h5
  | name mode i w rest a b h1 h2 h3 h4 h5 => exact reason_two (by decide) h4 h5
  | value mode i w r text h1 h2 h3 h4 => exact strFault_reason h4
  | newName mode w r text h1 h2 => exact strFault_reason h2
  | newValue mode w name wn r text h1 h2 h3 => exact strFault_reason h3
  | sizeInt => exact reason_fixed (by decide)
  | size n w rest d h1 h2 h3 => exact reason_one (by decide) h3

theorem fault_reason {T : Table} {f : Frame} {text : Bytes} (h : Fault T f text) : Reason text := by
  rcases h with ⟨-, rfl⟩ | ⟨-, block, -, reps, w, r, out, T', -, -, -, h⟩
  · exact reason_fixed (by decide)
  · exact fieldFault_reason h

/-! ### Lines at level info and above -/

/-- The lines say why a computation failed: one line, of which `P` holds, if it reported an error, none above level
debug if it succeeded. -/
def Explains {ε α : Type} (P : Bytes → Prop) (o : Outcome ε α) (lines : List Line) : Prop :=
  match o with
  | .ok _ => written 2 lines = []
  | .err _ => ∃ text, written 2 lines = [(.err, text)] ∧ P text
  | .ub _ => True

theorem written_append (n : Nat) (a b : List Line) : written n (a ++ b) = written n a ++ written n b := by
  simp [written]

theorem written_quiet {n : Nat} {v : Level} {text : Bytes} (h : v.rank < n) (ls : List Line) :
    written n ((v, text) :: ls) = written n ls := by
  simp only [written]
  rw [List.filter_cons, if_neg (by simpa using h)]

theorem written_loud {n : Nat} {v : Level} {text : Bytes} (h : n ≤ v.rank) (ls : List Line) :
    written n ((v, text) :: ls) = (v, text) :: written n ls := by
  simp only [written]
  rw [List.filter_cons, if_pos (by simpa using h)]

theorem written_nil (n : Nat) : written n [] = [] := rfl

variable {P Q : Bytes → Prop}

theorem Explains.err {ε α : Type} {e : ε} {text : Bytes} (h : P text) :
    Explains P (.err e : Outcome ε α) [(.err, text)] := ⟨text, rfl, h⟩

theorem Explains.trace {ε α : Type} {v : α} {text : Bytes} :
    Explains P (.ok v : Outcome ε α) [(.trace, text)] := rfl

theorem Explains.mono {ε α : Type} {o : Outcome ε α} {ls : List Line} (h : Explains P o ls) (hpq : ∀ x, P x → Q x) :
    Explains Q o ls := by
  cases o with
  | ok v => exact h
  | err e => obtain ⟨text, h, hp⟩ := h; exact ⟨text, h, hpq _ hp⟩
  | ub u => trivial

theorem Explains.ok_append {ε α ε' α' : Type} {o : Outcome ε α} {v : α'} {a b : List Line}
    (ha : Explains P (.ok v : Outcome ε' α') a) (hb : Explains Q o b) : Explains Q o (a ++ b) := by
  have ha : written 2 a = [] := ha
  cases o with
  | ok u => exact (written_append 2 a b).trans (by rw [ha, show written 2 b = [] from hb]; rfl)
  | err e =>
    obtain ⟨text, h, hr⟩ := hb
    exact ⟨text, by rw [written_append, ha, h]; rfl, hr⟩
  | ub u => trivial

theorem Explains.err_append {ε α ε' α' : Type} {e : ε} {e' : ε'} {a : List Line}
    (ha : Explains P (.err e : Outcome ε α) a) (hpq : ∀ x, P x → Q x) :
    Explains Q (.err e' : Outcome ε' α') (a ++ []) := by
  rw [List.append_nil]
  obtain ⟨text, h, hp⟩ := ha
  exact ⟨text, h, hpq _ hp⟩

theorem Explains.quiet {ε α : Type} {o : Outcome ε α} {v : Level} {text : Bytes} {ls : List Line} (hl : v.rank < 2)
    (h : Explains P o ls) : Explains P o ((v, text) :: ls) := by
  cases o with
  | ok u => exact (written_quiet hl ls).trans h
  | err e =>
    obtain ⟨text, h, hr⟩ := h
    exact ⟨text, (written_quiet hl ls).trans h, hr⟩
  | ub u => trivial

/-! ### Tables -/

theorem insertLines_quiet (t : DynTable) (h : Header) : written 2 (t.insertLines h) = [] := by
  simp only [DynTable.insertLines]
  split <;> rfl

theorem entryLines_quiet : ∀ (hs : List Header) (pos : Nat), written 2 (entryLines pos hs) = []
  | [], _ => rfl
  | _ :: hs, pos => (written_quiet (by decide) _).trans (entryLines_quiet hs (pos + 1))

theorem tablesLines_quiet (dec enc : DynTable) : written 2 (tablesLines dec enc) = [] := by
  rw [tablesLines, List.cons_append, written_quiet (by decide), written_append, DynTable.contentLines,
    written_quiet (by decide), entryLines_quiet, written_quiet (by decide), DynTable.contentLines,
    written_quiet (by decide), entryLines_quiet]
  rfl

/-! ### Decoder -/

namespace HuffTree

theorem restLines_explains (br : BitReader) (bits : Nat) :
    (restIsOnes br = true → restLines br bits = []) ∧
    (restIsOnes br = false → ∃ n, restLines br bits =
      [(.err, b!"remaining unmatched Huffman code is not padding: (bit pos = " ++ decimal n ++ b!")")]) := by
  induction br, bits using restLines.induct with
  | case1 br bits h hb =>
    rw [restIsOnes, restLines]
    simp only [h, hb, if_true, dif_pos]
    exact ⟨by simp, fun _ => ⟨_, rfl⟩⟩
  | case2 br bits h hb ih =>
    rw [restIsOnes, restLines]
    simp only [h, hb, dif_pos, if_false, Bool.false_eq_true]
    exact ih
  | case3 br bits h =>
    rw [restIsOnes, restLines]
    simp [h]

/-- The text for Huffman code that is not padded, with some position. -/
def NoPadding (text : Bytes) : Prop := ∃ n,
  text = b!"remaining unmatched Huffman code is not padding: (bit pos = " ++ decimal n ++ b!")"

theorem rest_case (br : BitReader) (bits : Nat) (result : Bytes) :
    Explains NoPadding (if restIsOnes br then .ok result else .err .invalidCode : Outcome HuffErr Bytes)
      (restLines br bits) := by
  obtain ⟨h1, h2⟩ := restLines_explains br bits
  cases h : restIsOnes br with
  | true => rw [if_pos rfl]; exact (congrArg _ (h1 h)).trans (written_nil 2)
  | false =>
    obtain ⟨n, hn⟩ := h2 h
    rw [if_neg (by decide), hn]
    exact .err ⟨n, rfl⟩

theorem loopLines_explains (root : HuffTree) (br : BitReader) (current : HuffTree) (bits : Nat) (result : Bytes) :
    Explains NoPadding (decodeLoop root br current result) (loopLines root br current bits) := by
  induction br, current, bits using loopLines.induct (root := root) generalizing result with
  | case1 br bits h => rw [decodeLoop, loopLines]; simp only [h, dif_pos]; trivial
  | case2 br bits h left right sym hn =>
    rw [decodeLoop, loopLines]
    simp only [h, dif_pos]
    rw [dite_eq_ite] at hn
    rw [hn]
    exact rest_case _ _ _
  | case3 br bits h left right sym l r s hn ih =>
    rw [decodeLoop, loopLines]
    simp only [h, dif_pos]
    rw [dite_eq_ite] at hn
    rw [hn]
    exact ih _
  | case4 br bits h left right sym l r hn ih =>
    rw [decodeLoop, loopLines]
    simp only [h, dif_pos]
    rw [dite_eq_ite] at hn
    rw [hn]
    exact ih _
  | case5 br current bits h =>
    rw [decodeLoop.eq_def, loopLines.eq_def]
    rw [dif_neg h, dif_neg h]
    rfl

theorem decodeLines_explains (root : HuffTree) (data : Bytes) :
    Explains NoPadding (root.decode data) (root.decodeLines data) := loopLines_explains root _ root 0 []

end HuffTree

theorem noInt_of_error {r : Bytes} {p : UInt8} (h1 : 1 ≤ p.toNat) (h8 : p.toNat ≤ 8) {e : IntErr}
    (h : decodeInt r p = .error e) : NoInt p.toNat r := by
  rintro flag v w rest rfl hint
  rw [(decodeInt_of_int h1 h8 hint rest).1] at h
  cases h

/-- The text for a string that is too long. -/
def TooLong (size : Nat) (text : Bytes) : Prop := 4096 < size ∧
  text = b!"Header string length exceeds maximum allowed size (len: " ++ decimal size ++ b!", max: 4096)"

theorem limitLines_explains {ε α : Type} (size : Nat) (v : α) (e : ε) :
    Explains (TooLong size) (if stringLengthWithinLimit size then .ok v else .err e : Outcome ε α) (limitLines size) := by
  simp only [limitLines]
  split
  · rfl
  · rename_i h
    have : b!", max: 4096)" = b!", max: " ++ decimal maxHeaderStringLength ++ b!")" := by decide +kernel
    refine .err ⟨Nat.lt_of_not_le fun hc => h ((within_iff size).mpr hc), ?_⟩
    rw [this]
    simp only [List.append_assoc]

/-- What can be wrong with the octets of a string. -/
def DataFault (isHuffman : Bool) (data text : Bytes) : Prop :=
  if isHuffman then (∃ s, HuffLenient data s ∧ TooLong s.length text) ∨
    ((∀ s, ¬ HuffLenient data s) ∧ HuffTree.NoPadding text)
  else TooLong data.length text

theorem stringLines_explains (isHuffman : Bool) (data : Bytes) :
    Explains (DataFault isHuffman data) (readString isHuffman data.length data)
      (stringLines isHuffman data.length data) := by
  cases isHuffman with
  | true =>
    simp only [readString, stringLines, if_true, decodeHuffmanString, huffmanStringLines]
    rw [if_neg (Nat.lt_irrefl _), if_neg (Nat.lt_irrefl _), List.take_of_length_le (Nat.le_refl _)]
    have h := HuffTree.decodeLines_explains huffmanTree data
    have hs := huffDecode_lenient data
    revert h hs
    generalize huffmanTree.decodeLines data = lines
    cases huffmanTree.decode data with
    | ok bytes =>
      intro h hs
      refine h.ok_append ((limitLines_explains _ _ _).mono fun x hx => ?_)
      exact .inl ⟨bytes, (hs bytes).mp rfl, hx⟩
    | err e =>
      intro h hs
      refine h.err_append fun x hx => .inr ⟨fun s hc => ?_, hx⟩
      cases (hs s).mpr hc
    | ub u => exact fun _ _ => trivial
  | false =>
    simp only [readString, stringLines, Bool.false_eq_true, if_false]
    have h := limitLines_explains (ε := FrameError) data.length data .protocolError
    cases hw : stringLengthWithinLimit data.length with
    | false =>
      rw [hw] at h
      exact h
    | true =>
      rw [hw] at h
      simp only [Bool.not_true, Bool.false_eq_true, if_false]
      rw [if_neg (Nat.lt_irrefl _)]
      exact h

theorem lengthAndStringLines_explains (r : ByteReader) :
    Explains (StrFault r) (readLengthAndString r) (lengthAndStringLines r) := by
  cases r with
  | nil => exact .err .empty
  | cons b r =>
    simp only [readLengthAndString, lengthAndStringLines, ByteReader.peekByte]
    cases hd : decodeInt (b :: r) 7 with
    | error e => exact .err (.length _ (by simp) (noInt_of_error (p := 7) (by decide) (by decide) hd))
    | ok v =>
      obtain ⟨n, r'⟩ := v
      obtain ⟨b', w, hr, hint⟩ := (decodeInt_lenient _ 7 (by decide) (by decide) _ _).mp hd
      obtain ⟨rfl, -⟩ : b = b' ∧ r = w ++ r' := by simpa using hr
      rw [hr]
      simp only
      by_cases hl : n.toNat ≤ r'.length
      · rw [readBytes_pos hl]
        simp only
        have hlen : (r'.take n.toNat).length = n.toNat := by rw [List.length_take]; omega
        have hsplit : r' = r'.take n.toNat ++ r'.drop n.toNat := (List.take_append_drop _ _).symm
        have h := stringLines_explains (decide (b &&& 0x80 ≠ 0)) (r'.take n.toNat)
        rw [hlen] at h
        have h : Explains (StrFault ((b :: w) ++ r')) (readString (decide (b &&& 0x80 ≠ 0)) n.toNat (r'.take n.toNat))
            (stringLines (decide (b &&& 0x80 ≠ 0)) n.toNat (r'.take n.toNat)) := by
          refine h.mono fun x hx => ?_
          simp only [DataFault, strFlag] at hx
          rcases byte_div_128 b with hb | hb
          · rw [show ((7 : UInt8).toNat) = 7 from rfl, hb] at hint
            simp only [hb, Nat.zero_ne_one, decide_false, Bool.false_eq_true, if_false, hlen] at hx
            obtain ⟨h1, rfl⟩ := hx
            exact .long n.toNat _ _ _ hint hl h1 (Sim.decimal_spec _)
          · rw [show ((7 : UInt8).toNat) = 7 from rfl, hb, ← hlen] at hint
            simp only [hb, decide_true, if_true] at hx
            rw [hsplit]
            rcases hx with ⟨s, h1, h2, rfl⟩ | ⟨h1, n, rfl⟩
            · exact .decodedLong _ _ _ s _ hint h1 h2 (Sim.decimal_spec _)
            · exact .code _ _ _ n _ hint h1 (Sim.decimal_spec _)
        revert h
        cases readString (decide (b &&& 0x80 ≠ 0)) n.toNat (r'.take n.toNat) <;> exact fun h => h
      · rw [readBytes_neg hl]
        exact .err (.short _ _ _ _ hint (by omega))

theorem headerAtLines_explains (t : DynTable) (index i : Nat) :
    Explains (fun text => text = b!"invalid dynamic table index lookup for header (idx: " ++ decimal index ++ b!", sz: " ++
      decimal t.count ++ b!")") (headerAt t i) (headerAtLines t index i) := by
  rw [headerAt.eq_def, headerAtLines.eq_def]
  generalize staticTable = st
  cases st[i]? with
  | some x => exact .trace
  | none =>
    simp only
    split
    · exact .err rfl
    · simp only [DynTable.get]
      cases t.table[i - st.length]? with
      | some x => exact .trace
      | none => trivial

theorem headerNameAtLines_explains (t : DynTable) (index i : Nat) :
    Explains (fun text => text = b!"invalid dynamic table index lookup for header name (idx: " ++ decimal index ++
      b!", sz: " ++ decimal t.count ++ b!")") (headerNameAt t i) (headerNameAtLines t index i) := by
  rw [headerNameAt.eq_def, headerNameAtLines.eq_def]
  generalize staticTable = st
  cases st[i]? with
  | some x => exact .trace
  | none =>
    simp only
    split
    · exact .err rfl
    · simp only [DynTable.get]
      cases t.table[i - st.length]? with
      | some x => exact .trace
      | none => trivial

theorem indexedFieldLines_explains (t : DynTable) (b : UInt8) (r : Bytes) (hb : 128 ≤ b.toNat) :
    Explains (FieldFault t.abs (b :: r)) (decodeIndexedField t (b :: r)) (indexedFieldLines t (b :: r)) := by
  simp only [decodeIndexedField, indexedFieldLines]
  cases hd : decodeInt (b :: r) 7 with
  | error e => trivial
  | ok v =>
    obtain ⟨index, r'⟩ := v
    obtain ⟨b', w, hr, hint⟩ := (decodeInt_lenient _ 7 (by decide) (by decide) _ _).mp hd
    obtain ⟨rfl, -⟩ : b = b' ∧ r = w ++ r' := by simpa using hr
    have hflag : b.toNat / 2 ^ 7 = 1 := by have := b.toNat_lt; omega
    rw [show ((7 : UInt8).toNat) = 7 from rfl, hflag] at hint
    rw [hr]
    simp only
    split
    · rename_i h0
      have h0 : index.toNat = 0 := by have := UInt32.lt_iff_toNat_lt.mp h0; simp at this; omega
      rw [h0] at hint
      exact .err (.zero _ _ hint)
    · rename_i h0
      have h0 : 1 ≤ index.toNat := by
        have := fun hc => h0 (UInt32.lt_iff_toNat_lt.mpr hc)
        simp at this; omega
      have h := headerAtLines_explains t index.toNat (tableIndexOf index.toNat)
      have he := readIndexedHeader_eq t index.toNat h0 (by have := index.toNat_lt; omega)
      have h : Explains (FieldFault t.abs ((b :: w) ++ r')) (readIndexedHeader t index.toNat)
          (indexedHeaderLines t index.toNat) := by
        cases hl : t.abs.lookup index.toNat with
        | some x =>
          rw [hl] at he
          have h : Explains _ (readIndexedHeader t index.toNat) (indexedHeaderLines t index.toNat) := h
          rw [he] at h ⊢
          exact h
        | none =>
          refine Explains.mono (h : Explains _ (readIndexedHeader t index.toNat) (indexedHeaderLines t index.toNat)) ?_
          rintro x rfl
          exact .entry _ _ _ _ _ hint (by omega) hl (Sim.decimal_spec _) (Sim.decimal_spec _)
      revert h
      cases readIndexedHeader t index.toNat <;> exact fun h => h

theorem valueLines_explains (name : Bytes) (r : ByteReader) :
    Explains (StrFault r) (do let (value, r) ← readLengthAndString r; .ok ((⟨name, value⟩ : Header), r))
      (valueLines name r) := by
  simp only [valueLines]
  have h := lengthAndStringLines_explains r
  revert h
  generalize lengthAndStringLines r = lines
  cases readLengthAndString r with
  | ok v => exact fun h => h.ok_append (P := StrFault r) (Q := StrFault r) (.trace (P := StrFault r) (ε := FrameError))
  | err e => exact fun h => h.err_append fun _ hx => hx
  | ub u => exact fun _ => trivial

theorem literalFieldLines_explains (t : DynTable) (mode : Indexing) (bits : UInt8) (b : UInt8) (r : Bytes)
    (hbits : bits.toNat = litPrefix mode) (hflag : b.toNat / 2 ^ litPrefix mode = litFlag mode) :
    Explains (FieldFault t.abs (b :: r)) (decodeLiteralField t bits (b :: r)) (literalFieldLines t bits (b :: r)) := by
  have hb : 1 ≤ bits.toNat ∧ bits.toNat ≤ 8 := by rw [hbits]; cases mode <;> decide
  simp only [decodeLiteralField, literalFieldLines]
  cases hd : decodeInt (b :: r) bits with
  | error e => trivial
  | ok v =>
    obtain ⟨index, r'⟩ := v
    obtain ⟨b', w, hr, hint⟩ := (decodeInt_lenient _ bits hb.1 hb.2 _ _).mp hd
    obtain ⟨rfl, -⟩ : b = b' ∧ r = w ++ r' := by simpa using hr
    rw [hbits, hflag] at hint
    rw [hr]
    simp only
    refine .quiet (by decide) ?_
    split
    · rename_i h0
      subst h0
      have h := lengthAndStringLines_explains r'
      have hok := readLengthAndString_iff r'
      revert h hok
      generalize lengthAndStringLines r' = lines
      cases readLengthAndString r' with
      | ok v =>
        intro h hok
        obtain ⟨wn, hwn, hn⟩ := (hok v.1 v.2).mp rfl
        refine h.ok_append ((valueLines_explains v.1 v.2).mono fun x hx => ?_)
        rw [hwn]
        exact .newValue mode _ _ _ _ _ hint hn hx
      | err e => exact fun h _ => h.err_append fun x hx => .newName mode _ _ _ hint hx
      | ub u => exact fun _ _ => trivial
    · rename_i h0
      have h0 : index.toNat ≠ 0 := fun hc => h0 (UInt32.toNat_inj.mp hc)
      have h : Explains _ (readIndexedHeaderName t index.toNat) (indexedNameLines t index.toNat) :=
        headerNameAtLines_explains t index.toNat (tableIndexOf index.toNat)
      have he := readIndexedHeaderName_eq t index.toNat (by omega) (by have := index.toNat_lt; omega)
      revert h he
      generalize indexedNameLines t index.toNat = lines
      cases readIndexedHeaderName t index.toNat with
      | ok v =>
        intro h he
        refine h.ok_append ((valueLines_explains v r').mono fun x hx => .value mode _ _ _ _ hint h0 ?_ hx)
        intro hc
        rw [hc] at he
        cases he
      | err e =>
        intro h he
        refine h.err_append ?_
        rintro x rfl
        cases hl : t.abs.lookup index.toNat with
        | none => exact .name mode _ _ _ _ _ hint h0 hl (Sim.decimal_spec _) (Sim.decimal_spec _)
        | some y => rw [hl] at he; cases he
      | ub u => exact fun _ _ => trivial

theorem evict_ne_err {ε : Type} (t : DynTable) (need : Nat) (e : ε) : t.evict need ≠ .err e := by
  induction t using DynTable.evict.induct (need := need) with
  | case1 t h hl => rw [DynTable.evict, if_pos h]; split <;> simp_all
  | case2 t h last hl ih =>
    rw [DynTable.evict, if_pos h]
    split
    · simp
    · rename_i last' hl'
      rw [hl] at hl'
      cases hl'
      exact ih
  | case3 t h => rw [DynTable.evict, if_neg h]; simp

theorem insert_ne_err {ε : Type} (t : DynTable) (h : Header) (e : ε) : t.insert h ≠ .err e := by
  simp only [DynTable.insert]
  split
  · simp
  · have := evict_ne_err t (entrySize h) e
    revert this
    cases (t.evict (entrySize h) : Outcome ε DynTable) with
    | ok v => intro _; exact nofun
    | err e' => intro h hc; exact h hc
    | ub u => intro _; exact nofun

theorem sizeUpdateLines_explains (t : DynTable) (T : Table) (b : UInt8) (r : Bytes) (hb : b.toNat / 2 ^ 5 = 1) :
    Explains (FieldFault T (b :: r)) (decodeSizeUpdate t (b :: r)) (sizeUpdateLines (b :: r)) := by
  simp only [decodeSizeUpdate, sizeUpdateLines]
  cases hd : decodeInt (b :: r) 5 with
  | error e => exact .err (.sizeInt b r hb (noInt_of_error (p := 5) (by decide) (by decide) hd))
  | ok v =>
    obtain ⟨newSz, r'⟩ := v
    obtain ⟨b', w, hr, hint⟩ := (decodeInt_lenient _ 5 (by decide) (by decide) _ _).mp hd
    obtain ⟨rfl, -⟩ : b = b' ∧ r = w ++ r' := by simpa using hr
    rw [show ((5 : UInt8).toNat) = 5 from rfl, hb] at hint
    rw [hr]
    simp only
    split
    · rename_i hbig
      have : b!" > 65536)" = b!" > " ++ decimal hardTableSizeLimit ++ b!")" := by decide +kernel
      have h := FieldFault.size (T := T) newSz.toNat _ r' _ hint hbig (Sim.decimal_spec _)
      rw [this] at h
      exact .err (by simpa only [List.append_assoc] using h)
    · have hne := evict_ne_err (ε := FrameError) { t with maxTableSize := newSz.toNat } 0
      simp only [DynTable.setMaxTableSize]
      revert hne
      cases (DynTable.evict { t with maxTableSize := newSz.toNat } 0 : Dec DynTable) with
      | ok v => exact fun _ => rfl
      | err e => exact fun h => absurd rfl (h e)
      | ub u => exact fun _ => trivial

theorem fieldLines_explains (t : DynTable) (b : UInt8) (r : Bytes) :
    Explains (FieldFault t.abs (b :: r)) (decodeField t (b :: r) b) (fieldLines t (b :: r) b) := by
  have hlt := b.toNat_lt
  simp only [fieldLines]
  refine .quiet (by decide) ?_
  simp only [decodeField, fieldType_eq]
  by_cases h128 : 128 ≤ b.toNat
  · simp only [h128, if_true]
    have h := indexedFieldLines_explains t b r h128
    revert h
    cases decodeIndexedField t (b :: r) <;> exact fun h => h
  simp only [h128, if_false]
  by_cases h64 : 64 ≤ b.toNat
  · simp only [h64, if_true]
    have h := literalFieldLines_explains t .incremental 6 b r rfl (by simp only [litPrefix, litFlag]; omega)
    revert h
    generalize literalFieldLines t 6 (b :: r) = lines
    cases decodeLiteralField t 6 (b :: r) with
    | ok v =>
      intro h
      refine h.ok_append (Q := FieldFault t.abs (b :: r)) ?_
      have hi := insertLines_quiet t v.1
      show Explains _ (do let t ← t.insert v.1; .ok ([v.1], t, v.2)) (t.insertLines v.1)
      have hne := insert_ne_err (ε := FrameError) t v.1
      revert hne
      cases (t.insert v.1 : Dec DynTable) with
      | ok t' => exact fun _ => hi
      | err e => exact fun h => absurd rfl (h e)
      | ub u => exact fun _ => trivial
    | err e => exact fun h => h.err_append fun _ hx => hx
    | ub u => exact fun _ => trivial
  simp only [h64, if_false]
  by_cases h32 : 32 ≤ b.toNat
  · simp only [h32, if_true]
    have h := sizeUpdateLines_explains t t.abs b r (by omega)
    revert h
    cases decodeSizeUpdate t (b :: r) <;> exact fun h => h
  simp only [h32, if_false]
  by_cases h16 : 16 ≤ b.toNat
  · simp only [h16, if_true]
    have h := literalFieldLines_explains t .never 4 b r rfl (by simp only [litPrefix, litFlag]; omega)
    revert h
    cases decodeLiteralField t 4 (b :: r) <;> exact fun h => h
  · simp only [h16, if_false]
    have h := literalFieldLines_explains t .without 4 b r rfl (by simp only [litPrefix, litFlag]; omega)
    revert h
    cases decodeLiteralField t 4 (b :: r) <;> exact fun h => h

/-- A header block: no line above level debug if it is decoded, one that gives the reason if it is refused. -/
theorem blockLines_explains (t : DynTable) (hwf : t.WF) (data : Bytes) :
    (∀ hs t', decodeBlock t data = .ok hs t' → written 2 (blockLines t data) = []) ∧
    (∀ e t', decodeBlock t data = .err e t' →
      ∃ text, written 2 (blockLines t data) = [(.err, text)] ∧ BlockFault t.abs data text) := by
  have key : ∀ (fuel : Nat) (t : DynTable) (r : ByteReader) (hdrs : List Header), t.WF → List.length r ≤ fuel →
      (∀ hs t', decodeLoop fuel t r hdrs = .ok hs t' → written 2 (blockLoopLines fuel t r) = []) ∧
      (∀ e t', decodeLoop fuel t r hdrs = .err e t' →
        ∃ text, written 2 (blockLoopLines fuel t r) = [(.err, text)] ∧ BlockFault t.abs r text) := by
    intro fuel
    induction fuel with
    | zero =>
      intro t r hdrs hwf hl
      cases r with
      | nil => simp [decodeLoop, blockLoopLines, written_nil]
      | cons b r => simp at hl
    | succ fuel ih =>
      intro t r hdrs hwf hl
      cases r with
      | nil => simp [decodeLoop, blockLoopLines, written_nil]
      | cons b r =>
        have h := fieldLines_explains t b r
        simp only [decodeLoop, blockLoopLines]
        cases hd : decodeField t (b :: r) b with
        | ok v =>
          obtain ⟨hs, t', r'⟩ := v
          rw [hd] at h
          have h : written 2 (fieldLines t (b :: r) b) = [] := h
          simp only [written_append, h, List.nil_append]
          obtain ⟨hwf', rep, w, hr, hw, he⟩ := decodeField_sound hwf hd
          have := repWire_length hw
          have := congrArg List.length hr
          simp only [List.length_cons, List.length_append] at this hl
          obtain ⟨h1, h2⟩ := ih t' r' (hdrs ++ hs) hwf' (by omega)
          refine ⟨h1, fun e t'' hx => ?_⟩
          obtain ⟨text, h3, reps, ws, rest, out, T', h4, h5, h6, h7⟩ := h2 e t'' hx
          refine ⟨text, h3, rep :: reps, w ++ ws, rest, hs ++ out, T', by rw [hr, h4, List.append_assoc],
            .cons _ _ _ _ hw h5, ?_, h7⟩
          simp only [execReps, he, h6, Option.map_some]
        | err e =>
          rw [hd] at h
          obtain ⟨text, h, hr⟩ := h
          exact ⟨nofun, fun _ _ _ => ⟨text, by rw [List.append_nil, h], [], [], _, [], _, rfl, .nil, rfl, hr⟩⟩
        | ub u => exact ⟨nofun, nofun⟩
  exact key _ t data [] hwf (Nat.le_refl _)

/-! ### Responses -/

theorem encodeLines_quiet (c : Bool) : ∀ (hs : List Header) (t : DynTable), written 2 (encodeLines c t hs) = []
  | [], _ => rfl
  | h :: hs, t => by
    have h1 : written 2 (encodeHeaderLines c t h) = [] := by
      simp only [encodeHeaderLines]
      split
      · rfl
      · split
        · rfl
        · split
          · exact insertLines_quiet t h
          · rfl
    rw [encodeLines, written_append, h1, List.nil_append]
    split
    · exact encodeLines_quiet c hs _
    · rfl

namespace Sim

theorem dataLines_quiet (body : Bytes) : written 2 (dataLines body) = [] := by
  induction body using dataLines.induct with
  | case1 body h => rw [dataLines, dif_pos h]; rfl
  | case2 body h n ih =>
    rw [dataLines, dif_neg h]
    exact (written_quiet (by decide) _).trans ih

theorem stateLines_quiet (s : Sim W) (st : CState) : written 2 (s.stateLines st) = [] := by
  simp only [stateLines]
  split
  · exact (written_quiet (by decide) _).trans rfl
  · rfl

theorem headerLines_quiet : ∀ hs : List Header,
    written 2 (hs.map (fun h => (Level.debug, b!" - request header: " ++ h.name ++ b!": " ++ h.value))) = []
  | [] => rfl
  | _ :: hs => (written_quiet (by decide) _).trans (headerLines_quiet hs)

/-- The lines about a response. -/
def sentLines (status size : Nat) : List Line :=
  (.info, decimal status ++ b!" status code sent w/headers") ::
    if size = 0 then [] else [(.info, b!"sending response body (length: " ++ decimal size ++ b!")")]

theorem sentLines_spec (status size : Nat) : Sent status size (sentLines status size) :=
  ⟨_, _, decimal_spec status, decimal_spec size, rfl⟩

theorem getHeader_none {hs : List Header} {n : Bytes} (h : getHeader hs n = none) : ∀ x ∈ hs, x.name ≠ n := by
  intro x hx hn
  simp only [getHeader, Option.map_eq_none_iff, List.find?_eq_none] at h
  exact h x hx (by simp [hn])

theorem answerLines_loud {cfg : Cfg W} (app : AppLog W) {s : Sim W} {hs : List Header} {resp : HttpResponse}
    {w' : W} {evs : List Ev} {block : Bytes} {enc' : DynTable} (hr : Responds cfg s.world hs resp w' evs)
    (he : (encodeBlock cfg.charSigned s.enc resp.headers : Outcome Stop _) = .ok (block, enc')) :
    written 2 (s.answerLines cfg app hs) = written 2 (requestLines cfg app s.world hs) ++
      sentLines resp.status.toNat resp.body.length := by
  simp only [answerLines, hr.processRequest s rfl, written_append, headerLines_quiet, List.nil_append, he,
    encodeLines_quiet, tablesLines_quiet]
  congr 1
  rw [written_loud (by decide), sentLines]
  congr 1
  split
  · rename_i h; rw [h]; rfl
  · rename_i h
    rw [if_neg (by simpa using h), written_loud (by decide), dataLines_quiet]

/-! ### Frames -/

theorem handled_chunks (l : List Bytes) : handled (l.map Ev.enqueue) = [] := by
  induction l with
  | nil => rfl
  | cons a l ih => exact ih

theorem logs_chunks (l : List Bytes) : logs (l.map Ev.enqueue) = [] := by
  induction l with
  | nil => rfl
  | cons a l ih => exact ih

/-- What one frame leaves in the log. -/
theorem frameLines_loud {cfg : Cfg W} (app : AppLog W) {s s' : Sim W} {f : FrameReader} (hst : s.st = .awaitingFrame)
    (hwf : s.dec.WF) (h : s.processFrame cfg f = .ok s') :
    ∃ new, s'.trace = s.trace ++ new ∧
      ((s'.st = .protocolError ∧ new = [] ∧
          ∃ text, written 2 (s.frameLines cfg app f) = [(.err, text)] ∧ Fault s.dec.abs (asFrame f) text) ∨
       (s'.st ≠ .protocolError ∧ Loud app s.world (handled new) (logs new) (written 2 (s.frameLines cfg app f)))) := by
  cases processFrame_ok h with
  | settingsAck ht hf =>
    refine ⟨[], by simp, .inr ⟨by simp [hst], ?_⟩⟩
    rw [frameLines, if_pos ht, if_pos (by simpa [FrameReader.hasFlag] using hf), written_quiet (by decide),
      written_quiet (by decide)]
    exact .none
  | settings l ht hf hl =>
    refine ⟨_, rfl, .inr ⟨by simp [hst, enq], ?_⟩⟩
    rw [handled_chunks, logs_chunks, frameLines, if_pos ht, if_neg (by simpa [FrameReader.hasFlag] using hf), hl,
      written_quiet (by decide), written_quiet (by decide)]
    exact .none
  | badSettings e ht hf hl =>
    refine ⟨[], by simp, .inl ⟨rfl, rfl, _, ?_, .inl ⟨⟨⟨ht, hf⟩, readSettings_err hl⟩, rfl⟩⟩⟩
    rw [frameLines, if_pos ht, if_neg (by simpa [FrameReader.hasFlag] using hf), hl, written_quiet (by decide),
      written_loud (by decide), stateLines_quiet]
  | badHeaders block e dec' ht hb hd =>
    obtain ⟨text, h1, h2⟩ := (blockLines_explains s.dec hwf block).2 e dec' hd
    refine ⟨[], by simp, .inl ⟨rfl, rfl, text, ?_, .inr ⟨ht, block, FieldBlock.of_headersBlock hb, h2⟩⟩⟩
    rw [frameLines, if_neg (by rw [ht]; decide), if_pos ht, List.cons_append, written_quiet (by decide), List.cons_append,
      written_quiet (by decide), written_append, tablesLines_quiet, hb]
    simp only [written_append, hd, h1, stateLines_quiet]
    rfl
  | request data hs dec' resp evs w' block enc' ht hb hd hr he =>
    have h1 := (blockLines_explains s.dec hwf data).1 hs dec' hd
    have h2 := answerLines_loud (cfg := cfg) app (s := { s with dec := dec' }) hr he
    have h3 : written 2 (s.frameLines cfg app f) = written 2 (requestLines cfg app s.world hs) ++
        sentLines resp.status.toNat resp.body.length := by
      rw [frameLines, if_neg (by rw [ht]; decide), if_pos ht, List.cons_append, written_quiet (by decide),
        List.cons_append, written_quiet (by decide), written_append, tablesLines_quiet, hb]
      simp only [written_append, hd, h1, h2]
      rfl
    refine ⟨_, rfl, .inr ⟨by simp [hst], ?_⟩⟩
    rw [h3]
    have e1 : handled (answerEvs evs f.header.streamId hs resp block) = handled evs := by
      simp [answerEvs, handled_append, handled]
    have hl : logs evs = [] := by cases hr <;> rfl
    have e2 : logs (answerEvs evs f.header.streamId hs resp block) = [(hs, resp.status, resp.body.length)] := by
      simp [answerEvs, logs_append, logs, hl]
    rw [e1, e2]
    have hs' := sentLines_spec resp.status.toNat resp.body.length
    generalize sentLines resp.status.toNat resp.body.length = sent at hs'
    cases hr with
    | missing hm =>
      have : requestLines cfg app s.world hs = [(.err, b!"invalid request: missing path or method")] := by
        simp only [requestLines]
        rcases hm with hm | hm
        · rw [hm]
        · rw [hm]; split <;> simp_all
      rw [this]
      exact .missing hs 400 0 sent (hm.imp getHeader_none getHeader_none) hs'
    | handler path method r w' hp hm hh =>
      have : requestLines cfg app s.world hs = app.lines ⟨method, path, hs⟩ s.world := by
        simp only [requestLines, hp, hm, hh, List.append_nil]
      rw [this]
      exact .answered ⟨method, path, hs⟩ r _ _ sent hs'
    | threw path method w' hp hm hh =>
      have : requestLines cfg app s.world hs = app.lines ⟨method, path, hs⟩ s.world ++
          [(.err, b!"error processing request: " ++ app.what ⟨method, path, hs⟩ s.world)] := by
        simp only [requestLines, hp, hm, hh]
      rw [this, written_append, written_loud (by decide), List.append_assoc]
      exact .threw ⟨method, path, hs⟩ _ _ sent hs'
  | windowUpdate w ht hw =>
    refine ⟨[], by simp, .inr ⟨by simp [hst], ?_⟩⟩
    rw [frameLines, if_neg (by rw [ht]; decide), if_neg (by rw [ht]; decide), if_pos ht, hw, written_quiet (by decide),
      written_quiet (by decide)]
    exact .none
  | goaway ht =>
    refine ⟨[], by simp, .inr ⟨by simp, ?_⟩⟩
    rw [frameLines, if_neg (by rw [ht]; decide), if_neg (by rw [ht]; decide), if_neg (by rw [ht]; decide), if_pos ht,
      written_quiet (by decide), stateLines_quiet]
    exact .none
  | other h1 h4 h7 h8 =>
    refine ⟨[], by simp, .inr ⟨by simp [hst], ?_⟩⟩
    rw [frameLines, if_neg h4, if_neg h1, if_neg h8, if_neg h7, written_quiet (by decide)]
    exact .none

/-! ### Header fields in the log (C160) -/

/-- An application that logs nothing. -/
def silent : AppLog W := ⟨fun _ _ => [], fun _ _ => []⟩

/-- A connection that waits for frames. -/
def exWaiting : Sim Nat := { last := 0, world := 0, st := .awaitingFrame }

/-- HEADERS for `GET /` with `authorization`, never to be indexed. -/
def exSecret (value : Bytes) : FrameReader :=
  ⟨⟨UInt32.ofNat (5 + value.length), 1, 5, 1⟩, [0x82, 0x84, 0x1f, 8, UInt8.ofNat value.length] ++ value⟩

set_option maxRecDepth 100000 in
/-- C160, refuted: at level debug the log tells two requests apart that differ in the value of `authorization` alone,
although that field was sent as one that must never be indexed. -/
theorem C160_refuted : ¬ LogIgnoresValues exCfg (silent : AppLog Nat) := by
  intro h
  have k : (match processFrame exCfg exWaiting (exSecret b!"key1"), processFrame exCfg exWaiting (exSecret b!"key2") with
      | .ok s1, .ok s2 =>
        logs s1.trace == [([⟨b!":method", b!"GET"⟩, ⟨b!":path", b!"/"⟩, ⟨b!"authorization", b!"key1"⟩], 200, 2)] &&
        logs s2.trace == [([⟨b!":method", b!"GET"⟩, ⟨b!":path", b!"/"⟩, ⟨b!"authorization", b!"key2"⟩], 200, 2)]
      | _, _ => false) = true := by decide +kernel
  split at k
  · rename_i s1 s2 h1 h2
    simp only [Bool.and_eq_true, beq_iff_eq] at k
    have := h 1 exWaiting s1 s2 _ _ _ _ _ _ _ _ s1.trace s2.trace rfl h1 h2 rfl rfl k.1 k.2 (by decide +kernel)
      (by decide +kernel)
    revert this
    decide +kernel
  · cases k

/-- C160: every header field of a request that is decoded is written to the log at level debug. -/
theorem C160_shown {cfg : Cfg W} (app : AppLog W) {s s' : Sim W} {f : FrameReader} {new : List Ev} {hs : List Header}
    {status : UInt16} {size : Nat} (h : s.processFrame cfg f = .ok s') (hn : s'.trace = s.trace ++ new)
    (hl : logs new = [(hs, status, size)]) (x : Header) (hx : x ∈ hs) :
    (.debug, b!" - request header: " ++ x.name ++ b!": " ++ x.value) ∈ s.frameLines cfg app f := by
  cases processFrame_ok h with
  | request data hs' dec' resp evs w' block enc' ht hb hd hr he =>
    have hl2 : logs evs = [] := by cases hr <;> rfl
    have e2 : logs (answerEvs evs f.header.streamId hs' resp block) = [(hs', resp.status, resp.body.length)] := by
      simp [answerEvs, logs_append, logs, hl2]
    rw [← List.append_cancel_left hn, e2] at hl
    obtain ⟨rfl, -, -⟩ : hs' = hs ∧ resp.status = status ∧ resp.body.length = size := by simpa using hl
    rw [frameLines, if_neg (by rw [ht]; decide), if_pos ht, hb]
    simp only [hd, answerLines]
    refine List.mem_append_right _ (List.mem_append_right _ (List.mem_append_left _ (List.mem_append_left _ ?_)))
    exact List.mem_map.mpr ⟨x, hx, rfl⟩
  | settings l ht hf hl' => rw [← List.append_cancel_left (as := s.trace) hn, logs_chunks] at hl; cases hl
  | _ => rw [List.self_eq_append_right.mp hn] at hl; cases hl

theorem entryLines_mem (x : Header) : ∀ (hs : List Header) (pos : Nat), x ∈ hs →
    ∃ n, (Level.debug, b!" - (" ++ decimal n ++ b!") " ++ x.name ++ b!": " ++ x.value) ∈ entryLines pos hs
  | h :: hs, pos, hx => by
    rcases List.mem_cons.mp hx with rfl | hx
    · exact ⟨pos, List.mem_cons_self ..⟩
    · obtain ⟨n, hn⟩ := entryLines_mem x hs (pos + 1) hx
      exact ⟨n, List.mem_cons_of_mem _ hn⟩

/-- C160: and every field that the decoder remembers is written again for every later HEADERS frame. -/
theorem C160_kept (cfg : Cfg W) (app : AppLog W) (s : Sim W) (f : FrameReader) (ht : f.header.type = 1) (x : Header)
    (hx : x ∈ s.dec.table) :
    ∃ n, (Level.debug, b!" - (" ++ decimal n ++ b!") " ++ x.name ++ b!": " ++ x.value) ∈ s.frameLines cfg app f := by
  obtain ⟨n, hn⟩ := entryLines_mem x s.dec.table 0 hx
  refine ⟨n, ?_⟩
  rw [frameLines, if_neg (by rw [ht]; decide), if_pos ht]
  refine List.mem_append_left _ (List.mem_cons_of_mem _ (List.mem_cons_of_mem _ ?_))
  rw [tablesLines]
  exact List.mem_append_left _ (List.mem_cons_of_mem _ (List.mem_cons_of_mem _ hn))

/-- C160, what holds: at level info, which is the default, and above, a frame leaves a reason why it is refused, or the
status and the length of the response, what is missing from the request, and what the application says. -/
theorem C160_loud_partial {cfg : Cfg W} (app : AppLog W) {s s' : Sim W} {f : FrameReader} (hst : s.st = .awaitingFrame)
    (hwf : s.dec.WF) (h : s.processFrame cfg f = .ok s') :
    ∃ new, s'.trace = s.trace ++ new ∧
      ((s'.st = .protocolError ∧ new = [] ∧
          ∃ text, written 2 (s.frameLines cfg app f) = [(.err, text)] ∧ Fault s.dec.abs (asFrame f) text) ∨
       (s'.st ≠ .protocolError ∧ Loud app s.world (handled new) (logs new) (written 2 (s.frameLines cfg app f)))) :=
  frameLines_loud app hst hwf h

/-- C160, so: two requests, on whatever connections, that were answered with the same status and length leave the same
lines at level info and above if the application logs nothing. -/
theorem C160_same_partial {cfg1 cfg2 : Cfg W} (app : AppLog W) (hq : ∀ req w, written 2 (app.lines req w) = [])
    {s1 s1' s2 s2' : Sim W} {f1 f2 : FrameReader} (hst1 : s1.st = .awaitingFrame) (hst2 : s2.st = .awaitingFrame)
    (hwf1 : s1.dec.WF) (hwf2 : s2.dec.WF) (h1 : s1.processFrame cfg1 f1 = .ok s1') (h2 : s2.processFrame cfg2 f2 = .ok s2')
    {new1 new2 : List Ev} (hn1 : s1'.trace = s1.trace ++ new1) (hn2 : s2'.trace = s2.trace ++ new2)
    {req1 req2 : HttpRequest} {r1 r2 : HttpResponse} (hh1 : handled new1 = [(req1, .resp r1)])
    (hh2 : handled new2 = [(req2, .resp r2)]) {hs1 hs2 : List Header} {status : UInt16} {size : Nat}
    (hl1 : logs new1 = [(hs1, status, size)]) (hl2 : logs new2 = [(hs2, status, size)]) :
    written 2 (s1.frameLines cfg1 app f1) = written 2 (s2.frameLines cfg2 app f2) := by
  have key : ∀ {cfg : Cfg W} {s s' : Sim W} {f : FrameReader}, s.st = .awaitingFrame → s.dec.WF →
      s.processFrame cfg f = .ok s' → ∀ {new : List Ev} {req : HttpRequest} {r : HttpResponse} {hs : List Header},
      s'.trace = s.trace ++ new → handled new = [(req, .resp r)] → logs new = [(hs, status, size)] →
      written 2 (s.frameLines cfg app f) = sentLines status.toNat size := by
    intro cfg s s' f hst hwf h new req r hs hn hh hl
    obtain ⟨new', hn', h'⟩ := frameLines_loud app hst hwf h
    cases List.append_cancel_left (hn'.symm.trans hn)
    rcases h' with ⟨-, rfl, -⟩ | ⟨-, h'⟩
    · cases hh
    · rw [hh, hl] at h'
      generalize written 2 (s.frameLines cfg app f) = lines at h'
      cases h' with
      | answered req r status size sent hsent =>
        rw [hq]
        obtain ⟨a, b, ha, hb, rfl⟩ := hsent
        rw [decimal_unique _ ha (decimal_spec _), decimal_unique _ hb (decimal_spec _)]
        rfl
  rw [key hst1 hwf1 h1 hn1 hh1 hl1, key hst2 hwf2 h2 hn2 hh2 hl2]

/-- The level the server runs with unless told otherwise. -/
example : ({} : Args).logLevelEnum = some Level.info.rank := by decide +kernel

set_option maxRecDepth 100000 in
/-- What these requests leave at that level, and what they leave at level debug besides. -/
example : exWaiting.dec.WF := ⟨by decide, by decide⟩

set_option maxRecDepth 100000 in
example : written 2 (frameLines exCfg silent exWaiting (exSecret b!"key1")) =
      [(.info, b!"200 status code sent w/headers"), (.info, b!"sending response body (length: 2)")] ∧
    (.debug, b!" - request header: authorization: key1") ∈ frameLines exCfg silent exWaiting (exSecret b!"key1") := by
  decide +kernel

/-! ### Refusals in the log (C161) -/

theorem filled_head {parts : List Bytes} {text : Bytes} (h : Filled parts text) : ∃ p rest, parts = p :: rest ∧ p <+: text := by
  cases h with
  | last => exact ⟨_, _, rfl, List.prefix_refl _⟩
  | gap p parts n digits text hd hf => exact ⟨_, _, rfl, by rw [List.append_assoc]; exact List.prefix_append _ _⟩

theorem not_reason {c : UInt8} {a b : Bytes} (hc : reasons.all (fun parts => match parts with
    | p :: _ => !(p.take (c :: a).length == c :: a)
    | [] => true) = true) (hl : reasons.all (fun parts => match parts with
    | p :: _ => decide ((c :: a).length ≤ p.length)
    | [] => true) = true) : ¬ Reason (c :: a ++ b) := by
  rintro ⟨parts, hm, hf⟩
  obtain ⟨p, rest, rfl, x, hp⟩ := filled_head hf
  have h1 : (!(p.take (c :: a).length == c :: a)) = true := List.all_eq_true.mp hc _ hm
  have h2 := of_decide_eq_true (List.all_eq_true.mp hl _ hm)
  have h3 : p.take (c :: a).length = c :: a := by
    have := congrArg (List.take (c :: a).length) hp
    rw [List.take_append_of_le_length h2] at this
    exact this.trans List.take_left
  rw [h3] at h1
  simp at h1

theorem written_written {n m : Nat} (h : n ≤ m) (ls : List Line) : written m (written n ls) = written m ls := by
  induction ls with
  | nil => rfl
  | cons l ls ih =>
    obtain ⟨v, text⟩ := l
    by_cases hv : n ≤ v.rank
    · rw [written_loud hv]
      by_cases hv' : m ≤ v.rank
      · rw [written_loud hv', written_loud hv', ih]
      · rw [written_quiet (by omega), written_quiet (by omega), ih]
    · rw [written_quiet (by omega), ih, written_quiet (by omega)]

theorem written_sent {status size : Nat} {sent : List Line} (h : Sent status size sent) : written 3 sent = [] := by
  obtain ⟨a, b, -, -, rfl⟩ := h
  rw [written_quiet (by decide)]
  split
  · rfl
  · exact (written_quiet (by decide) _).trans rfl

theorem tryReadLines_loud {cfg : Cfg W} (app : AppLog W) {s s' : Sim W} {again : Bool} (hst : s.st = .awaitingFrame)
    (hwf : s.dec.WF) (h : s.tryReadFrame cfg = .ok (again, s')) :
    (s'.st = .protocolError ∧ ∃ level text, written 2 (s.tryReadLines cfg app) = [(level, text)] ∧
        3 ≤ level.rank ∧ (TooBig s.rbuf text ∨
          ∃ f, s'.trace = s.trace ++ [.frame f] ∧ Fault s.dec.abs (asFrame f) text)) ∨
    (s'.st ≠ .protocolError ∧ ∃ new, s'.trace = s.trace ++ new ∧
      Loud app s.world (handled new) (logs new) (written 2 (s.tryReadLines cfg app))) := by
  simp only [tryReadFrame] at h
  simp only [tryReadLines]
  split at h
  · rename_i hl
    cases h
    rw [if_pos hl, written_quiet (by decide)]
    exact .inr ⟨by simp [hst], [], by simp, .none⟩
  · rename_i hl
    rw [if_neg hl]
    obtain ⟨header, hp, h⟩ := Outcome.bind_eq_ok.mp h
    rw [hp]
    simp only
    rw [written_quiet (by decide)]
    split at h
    · rename_i hb
      cases h
      rw [if_pos hb, written_loud (by decide), stateLines_quiet]
      refine .inl ⟨rfl, .warn, _, rfl, by decide, ?_⟩
      have h16 : b!", max: 16384)" = b!", max: " ++ decimal maxFrameSize ++ b!")" := by decide +kernel
      obtain ⟨x, y, z, t, fl, s0, s1, s2, s3, rest, hrb, rfl⟩ := (show HasHeader s.rbuf header from ⟨by omega, hp⟩).split
      refine .inl ⟨[x, y, z], _, decimal (loadU24 x y z).toNat, hrb, rfl, ?_, ?_, ?_⟩
      · rw [be_three, ← loadU24_toNat]; exact hb
      · rw [be_three, ← loadU24_toNat]; exact decimal_spec _
      · rw [h16]
        simp only [List.append_assoc]
    · rename_i hb
      rw [if_neg hb]
      split at h
      · rename_i ht
        cases h
        rw [if_pos ht, written_quiet (by decide)]
        exact .inr ⟨by simp [hst], [], by simp, .none⟩
      · rename_i ht
        obtain ⟨s1, h1, h⟩ := Outcome.bind_eq_ok.mp h
        cases h
        rw [if_neg ht]
        obtain ⟨new, hn, h2⟩ := frameLines_loud app (s := s.emit _) hst hwf h1
        rcases h2 with ⟨h2, rfl, text, h3, h4⟩ | ⟨h2, h3⟩
        · exact .inl ⟨h2, .err, text, h3, by decide, .inr ⟨_, hn.trans (List.append_nil _), h4⟩⟩
        · exact .inr ⟨h2, .frame _ :: new, hn.trans (List.append_cons _ _ _).symm, h3⟩

/-- C161: a frame that ends the connection leaves exactly one line at level info or above: a warning or an error, and
what it says is what is wrong with that frame. -/
theorem C161_refused {cfg : Cfg W} (app : AppLog W) {s s' : Sim W} {again : Bool} (hst : s.st = .awaitingFrame)
    (hwf : s.dec.WF) (h : s.tryReadFrame cfg = .ok (again, s')) (hp : s'.st = .protocolError) :
    ∃ level text, written 2 (s.tryReadLines cfg app) = [(level, text)] ∧ 3 ≤ level.rank ∧
      (TooBig s.rbuf text ∨ ∃ f, s'.trace = s.trace ++ [.frame f] ∧ Fault s.dec.abs (asFrame f) text) := by
  rcases tryReadLines_loud app hst hwf h with ⟨-, h⟩ | ⟨h, -⟩
  · exact h
  · exact absurd hp h

/-- C161: and only such a frame does. -/
theorem C161_only {cfg : Cfg W} (app : AppLog W) (hq : ∀ req w, ∀ l ∈ app.lines req w, 3 ≤ l.1.rank → ¬ Reason l.2)
    {s s' : Sim W} {again : Bool} (hst : s.st = .awaitingFrame) (hwf : s.dec.WF)
    (h : s.tryReadFrame cfg = .ok (again, s')) :
    s'.st = .protocolError ↔ ∃ l ∈ written 3 (s.tryReadLines cfg app), Reason l.2 := by
  rw [← written_written (n := 2) (by decide)]
  have happ : ∀ req w, ∀ l ∈ written 3 (written 2 (app.lines req w)), ¬ Reason l.2 := by
    intro req w l hl
    rw [written_written (by decide)] at hl
    obtain ⟨h1, h2⟩ := List.mem_filter.mp hl
    exact hq req w l h1 (of_decide_eq_true h2)
  rcases tryReadLines_loud app hst hwf h with ⟨h1, level, text, h2, h3, h4⟩ | ⟨h1, new, -, h2⟩
  · have hr : Reason text := by
      rcases h4 with ⟨len, more, d, -, -, -, hd, rfl⟩ | ⟨f, -, hf⟩
      · exact reason_one (by decide) hd
      · exact fault_reason hf
    refine ⟨fun _ => ⟨(level, text), ?_, hr⟩, fun _ => h1⟩
    rw [h2, written_loud h3]
    exact List.mem_cons_self ..
  · refine ⟨fun hc => absurd hc h1, ?_⟩
    rintro ⟨l, hl, hr⟩
    exfalso
    generalize handled new = hd, logs new = lg, written 2 (s.tryReadLines cfg app) = lines at h2 hl
    cases h2 with
    | none => cases hl
    | missing hs status size sent hm hsent =>
      rw [written_loud (by decide), written_sent hsent, List.mem_singleton] at hl
      subst hl
      exact not_reason (c := 105) (a := b!"nvalid request:") (b := b!" missing path or method")
        (by decide +kernel) (by decide +kernel) hr
    | answered req r status size sent hsent =>
      rw [written_append, written_sent hsent, List.append_nil] at hl
      exact happ _ _ _ hl hr
    | threw req status size sent hsent =>
      rw [written_append, written_loud (by decide), written_sent hsent] at hl
      rcases List.mem_append.mp hl with hl | hl
      · exact happ _ _ _ hl hr
      · rw [List.mem_singleton] at hl
        subst hl
        exact not_reason (c := 101) (a := []) (b := b!"rror processing request: " ++ app.what req s.world) (by decide +kernel)
          (by decide +kernel) hr

/-- C161: what is not the preface is refused with one error that says so. -/
theorem C161_preface (s : Sim W) :
    (s.readPreface.1 = .protocolError ↔ ∃ l ∈ written 3 s.prefaceLines, Reason l.2) ∧
    (s.readPreface.1 = .protocolError → written 2 s.prefaceLines = [(.err, b!"invalid HTTP/2 preface received")]) := by
  have hr : Reason b!"invalid HTTP/2 preface received" := reason_fixed (by decide)
  simp only [readPreface, prefaceLines]
  split
  · rw [written_quiet (by decide)]
    exact ⟨⟨nofun, nofun⟩, nofun⟩
  · split
    · rw [written_loud (by decide), written_loud (by decide)]
      exact ⟨⟨fun _ => ⟨_, List.mem_cons_self .., hr⟩, fun _ => rfl⟩, fun _ => rfl⟩
    · rw [written_quiet (by decide), written_quiet (by decide), ← written_written (n := 2) (by decide), stateLines_quiet]
      exact ⟨⟨nofun, nofun⟩, nofun⟩

set_option maxRecDepth 100000 in
/-- HEADERS frames that name an entry that does not exist, that end within a string, that ask for a table that is too
large, SETTINGS that are cut off, a frame that is too long, and something else than the preface. -/
example :
    (match tryReadFrame exCfg { exWaiting with rbuf := [0, 0, 1, 1, 5, 0, 0, 0, 1, 0xbe] } with
      | .ok (_, s) => s.st == .protocolError
      | _ => false) = true ∧
    written 2 (tryReadLines exCfg silent { exWaiting with rbuf := [0, 0, 1, 1, 5, 0, 0, 0, 1, 0xbe] }) =
      [(.err, b!"invalid dynamic table index lookup for header (idx: 62, sz: 0)")] ∧
    written 2 (tryReadLines exCfg silent { exWaiting with rbuf := [0, 0, 4, 1, 5, 0, 0, 0, 1, 0x82, 0x0f, 47, 0x00] }) =
      [(.err, b!"invalid dynamic table index lookup for header name (idx: 62, sz: 0)")] ∧
    written 2 (tryReadLines exCfg silent { exWaiting with rbuf := [0, 0, 3, 1, 5, 0, 0, 0, 1, 0x00, 0x02, 97] }) =
      [(.err, b!"Insufficient data for string")] ∧
    written 2 (tryReadLines exCfg silent { exWaiting with rbuf := [0, 0, 4, 1, 5, 0, 0, 0, 1, 0x3f, 0xe2, 0xff, 0x03] }) =
      [(.err, b!"dynamic table size update exceeds hard limit (65537 > 65536)")] ∧
    written 2 (tryReadLines exCfg silent { exWaiting with rbuf := [0, 0, 1, 4, 0, 0, 0, 0, 0, 0] }) =
      [(.err, b!"invalid SETTINGS frame: data size not a multiple of 6")] ∧
    written 2 (tryReadLines exCfg silent { exWaiting with rbuf := exBig }) =
      [(.warn, b!"frame too big (sz: 16385, max: 16384)")] ∧
    written 2 (prefaceLines { exWaiting with rbuf := b!"GET / HTTP/1.1\r\nHost: x\r\n\r\n" }) =
      [(.err, b!"invalid HTTP/2 preface received")] := by
  decide +kernel

end Sim

end Ion
