import Verif.Props.FrameLog

/-!
# What the log says about a header block (C171)

At level trace the decoder tells of each representation what it is and what came of it. C171 asks whether this account is
complete and true. It also asks whether the position in the message about wrong Huffman code is that of a bit that is wrong.
-/

namespace Ion

namespace Spec

/-- Two hexadecimal digits for an octet. -/
def hexUpper (b : UInt8) : Bytes :=
  [(b!"0123456789ABCDEF").getD (b.toNat / 16) 0, (b!"0123456789ABCDEF").getD (b.toNat % 16) 0]

/-- The names of the kinds of representations. -/
def repName : Rep → Bytes
  | .indexed _ => b!"Indexed"
  | .literal .incremental _ _ => b!"LiteralIncremental"
  | .literal .without _ _ => b!"LiteralNoIndex"
  | .literal .never _ _ => b!"LiteralNeverIndex"
  | .sizeUpdate _ => b!"SizeUpdate"

/-- The name of the kind of a representation, from its first octet (RFC 7541 section 6). -/
def octetName (b : UInt8) : Bytes :=
  if 128 ≤ b.toNat then b!"Indexed" else if 64 ≤ b.toNat then b!"LiteralIncremental"
  else if 32 ≤ b.toNat then b!"SizeUpdate" else if 16 ≤ b.toNat then b!"LiteralNeverIndex" else b!"LiteralNoIndex"

/-- The line about the kind of a representation with its first octet. -/
def kindLine (b : UInt8) (rep : Rep) : Line := (.trace, b!"header type: " ++ repName rep ++ b!", byte: 0x" ++ hexUpper b)

/-- The table in which an index is found, and the place in it, counted from zero. -/
inductive Place : Nat → Bytes → Bytes → Prop where
  | static (i : Nat) (pos : Bytes) : 1 ≤ i → i ≤ 61 → IsDecimal (i - 1) pos → Place i b!"static" pos
  | dynamic (i : Nat) (pos : Bytes) : 62 ≤ i → IsDecimal (i - 62) pos → Place i b!"dynamic" pos

/-- What is said about the insertion of a field. -/
inductive Insertion (t : Table) (h : Header) : Line → Prop where
  | fits (sz max : Bytes) : h.name.length + h.value.length + 32 ≤ t.max → IsDecimal (h.name.length + h.value.length + 32) sz →
    IsDecimal t.max max → Insertion t h (.debug, b!"dynamic table: current sz: " ++ sz ++ b!", max: " ++ max)
  | tooBig (sz max : Bytes) : t.max < h.name.length + h.value.length + 32 → IsDecimal (h.name.length + h.value.length + 32) sz →
    IsDecimal t.max max →
    Insertion t h (.debug, b!"dynamic table: entry too big (sz: " ++ sz ++ b!", max: " ++ max ++ b!"), table wiped")

/-- The lines after a literal: one about the insertion, if it is inserted. -/
def Inserts (t : Table) (mode : Indexing) (h : Header) (ls : List Line) : Prop :=
  if mode = .incremental then ∃ l, ls = [l] ∧ Insertion t h l else ls = []

/-- All that is said about a representation that is accepted. -/
inductive Tells (t : Table) (b : UInt8) : Rep → List Line → Prop where
  | indexed (i : Nat) (h : Header) (tab pos : Bytes) : t.lookup i = some h → Place i tab pos →
    Tells t b (.indexed i) [kindLine b (.indexed i),
      (.trace, b!"read indexed header from " ++ tab ++ b!" table (idx: " ++ pos ++ b!", name: " ++ h.name ++ b!", val: " ++
        h.value ++ b!")")]
  | indexedName (mode : Indexing) (i : Nat) (value : Bytes) (h : Header) (idx tab pos : Bytes) (ls : List Line) :
    t.lookup i = some h → IsDecimal i idx → Place i tab pos → Inserts t mode ⟨h.name, value⟩ ls →
    Tells t b (.literal mode (.index i) value) (kindLine b (.literal mode (.index i) value) ::
      (.trace, b!"decoding literal field with index: " ++ idx ++ b!", new name: false") ::
      (.trace, b!"read indexed header name from " ++ tab ++ b!" table (idx: " ++ pos ++ b!", name: " ++ h.name ++ b!")") ::
      (.trace, b!"decoded header: name: " ++ h.name ++ b!", value: " ++ value) :: ls)
  | newName (mode : Indexing) (name value : Bytes) (ls : List Line) : Inserts t mode ⟨name, value⟩ ls →
    Tells t b (.literal mode (.new name) value) (kindLine b (.literal mode (.new name) value) ::
      (.trace, b!"decoding literal field with index: 0, new name: true") ::
      (.trace, b!"decoded header: name: " ++ name ++ b!", value: " ++ value) :: ls)
  | sizeUpdate (n : Nat) (num : Bytes) : IsDecimal n num →
    Tells t b (.sizeUpdate n) [kindLine b (.sizeUpdate n), (.trace, b!"dynamic table size updated to: " ++ num)]

/-- All that is said about a sequence of representations, with their octets. The table changes from one to the next. -/
inductive Story : Table → List Rep → Bytes → List Line → Table → Prop where
  | nil (t : Table) : Story t [] [] [] t
  | cons (t : Table) (rep : Rep) (reps : List Rep) (b : UInt8) (w ws : Bytes) (hs : List Header) (t1 t2 : Table)
    (ls ls' : List Line) : RepWire Dialect.lenient rep (b :: w) → execRep 65536 t rep = some (hs, t1) → Tells t b rep ls →
    Story t1 reps ws ls' t2 → Story t (rep :: reps) (b :: w ++ ws) (ls ++ ls') t2

/-- Octets that do not begin with a representation that is accepted. -/
def Stuck (t : Table) (r : Bytes) : Prop :=
  ∀ rep w rest, r = w ++ rest → RepWire Dialect.lenient rep w → execRep 65536 t rep = none

/-- Bit `n` of some octets, the first bit being the highest of the first octet. -/
def bitAt (data : Bytes) (n : Nat) : Bool := decide ((data.getD (n / 8) 0).toNat / 2 ^ (7 - n % 8) % 2 = 1)

end Spec

open Spec

/-! ## Strings -/

theorem errs_nil {ls : List Line} (h : ∀ l ∈ ls, l.1 = Level.err) (hw : written 2 ls = []) : ls = [] := by
  cases ls with
  | nil => rfl
  | cons l ls =>
    have h1 : l.1 = .err := h l (List.mem_cons_self ..)
    rw [written, List.filter_cons_of_pos (by rw [h1]; decide)] at hw
    cases hw

theorem restLines_errs (br : BitReader) (bits : Nat) : ∀ l ∈ HuffTree.restLines br bits, l.1 = Level.err := by
  fun_induction HuffTree.restLines br bits with
  | case1 => simp
  | case2 _ _ _ _ ih => exact ih
  | case3 => simp

theorem loopLines_errs (root : HuffTree) (br : BitReader) (current : HuffTree) (bits : Nat) :
    ∀ l ∈ HuffTree.loopLines root br current bits, l.1 = Level.err := by
  fun_induction HuffTree.loopLines root br current bits with
  | case1 => simp
  | case2 => rename_i hx; exact fun l hl => restLines_errs _ _ l hl
  | case3 => assumption
  | case4 => assumption
  | case5 => simp

theorem limitLines_errs (size : Nat) : ∀ l ∈ limitLines size, l.1 = Level.err := by
  rw [limitLines]
  split <;> simp

theorem lengthAndStringLines_errs (r : ByteReader) : ∀ l ∈ lengthAndStringLines r, l.1 = Level.err := by
  rw [lengthAndStringLines]
  split
  · simp
  · split
    · simp
    · split
      · simp
      · rw [stringLines]
        split
        · rw [huffmanStringLines]
          split
          · simp
          · intro l hl
            rcases List.mem_append.mp hl with hl | hl
            · exact loopLines_errs _ _ _ _ l hl
            · split at hl
              · exact limitLines_errs _ l hl
              · cases hl
        · exact limitLines_errs _

/-- Nothing is said about a string that is read. -/
theorem lengthAndStringLines_ok {r r' : ByteReader} {s : Bytes} (h : readLengthAndString r = .ok (s, r')) :
    lengthAndStringLines r = [] := by
  refine errs_nil (lengthAndStringLines_errs r) ?_
  have := lengthAndStringLines_explains r
  rw [h] at this
  exact this

theorem valueLines_ok {r r' : ByteReader} {s : Bytes} (name : Bytes) (h : readLengthAndString r = .ok (s, r')) :
    valueLines name r = [(.trace, b!"decoded header: name: " ++ name ++ b!", value: " ++ s)] := by
  rw [valueLines, lengthAndStringLines_ok h, h]
  rfl

/-! ## Indices -/

theorem staticTable_at {t : DynTable} {i : Nat} {h : Header} (hl : t.abs.lookup i = some h) :
    1 ≤ i ∧ (i ≤ 61 ∧ staticTable[i - 1]? = some h ∨
      62 ≤ i ∧ staticTable[i - 1]? = none ∧ i - 62 < t.count ∧ t.table[i - 62]? = some h) := by
  have hpos : 1 ≤ i := by
    rcases Nat.eq_zero_or_pos i with h0 | h0
    · subst h0; simp [Table.lookup, staticEntry] at hl
    · exact h0
  refine ⟨hpos, ?_⟩
  by_cases hs : i ≤ 61
  · have := staticEntry_eq ⟨i, by omega⟩ hpos
    simp only at this
    simp only [Table.lookup, hs, if_true] at hl
    exact .inl ⟨hs, by rw [← this, hl]⟩
  · simp only [Table.lookup, hs, if_false, DynTable.abs] at hl
    refine .inr ⟨by omega, List.getElem?_eq_none (by rw [staticTable_length]; omega), ?_, hl⟩
    exact (List.getElem?_eq_some_iff.mp hl).1

theorem headerAtLines_place {t : DynTable} {i : Nat} {h : Header} (hl : t.abs.lookup i = some h) :
    ∃ tab pos, Place i tab pos ∧ headerAtLines t i (i - 1) =
      [(.trace, b!"read indexed header from " ++ tab ++ b!" table (idx: " ++ pos ++ b!", name: " ++ h.name ++ b!", val: " ++
        h.value ++ b!")")] := by
  obtain ⟨h1, ⟨h2, h3⟩ | ⟨h2, h3, h4, h5⟩⟩ := staticTable_at hl
  · exact ⟨_, _, .static i _ h1 h2 (Sim.decimal_spec _), by rw [headerAtLines, h3]; rfl⟩
  · refine ⟨_, _, .dynamic i _ h2 (Sim.decimal_spec _), ?_⟩
    rw [headerAtLines, h3]
    simp only [staticTable_length]
    rw [show i - 1 - 61 = i - 62 by omega, if_neg (by omega), h5]
    rfl

theorem headerNameAtLines_place {t : DynTable} {i : Nat} {h : Header} (hl : t.abs.lookup i = some h) :
    ∃ tab pos, Place i tab pos ∧ headerNameAtLines t i (i - 1) =
      [(.trace, b!"read indexed header name from " ++ tab ++ b!" table (idx: " ++ pos ++ b!", name: " ++ h.name ++ b!")")] := by
  obtain ⟨h1, ⟨h2, h3⟩ | ⟨h2, h3, h4, h5⟩⟩ := staticTable_at hl
  · exact ⟨_, _, .static i _ h1 h2 (Sim.decimal_spec _), by rw [headerNameAtLines, h3]; rfl⟩
  · refine ⟨_, _, .dynamic i _ h2 (Sim.decimal_spec _), ?_⟩
    rw [headerNameAtLines, h3]
    simp only [staticTable_length]
    rw [show i - 1 - 61 = i - 62 by omega, if_neg (by omega), h5]
    rfl

/-! ## Fields -/

theorem hex2_upper (b : UInt8) : hex2 0x41 b = hexUpper b := by revert b; decide +kernel

theorem insertLines_tells (t : DynTable) (h : Header) : ∃ l, t.insertLines h = [l] ∧ Insertion t.abs h l := by
  rw [DynTable.insertLines]
  split
  · rename_i hb
    exact ⟨_, rfl, .tooBig _ _ hb (Sim.decimal_spec _) (Sim.decimal_spec _)⟩
  · rename_i hb
    exact ⟨_, rfl, .fits _ _ (Nat.le_of_not_lt hb) (Sim.decimal_spec _) (Sim.decimal_spec _)⟩

/-- A literal with the name of an entry. -/
theorem literalLines_index {t : DynTable} {p : UInt8} (h1 : 1 ≤ p.toNat) (h8 : p.toNat ≤ 8) {flag i : Nat}
    {wi wv value : Bytes} {h : Header} (rest : Bytes) (h0 : i ≠ 0) (hint : Dialect.lenient.int p.toNat flag i wi)
    (hv : StrWire Dialect.lenient value wv) (hl : t.abs.lookup i = some h) :
    ∃ idx tab pos, IsDecimal i idx ∧ Place i tab pos ∧ literalFieldLines t p (wi ++ wv ++ rest) =
      [(.trace, b!"decoding literal field with index: " ++ idx ++ b!", new name: false"),
       (.trace, b!"read indexed header name from " ++ tab ++ b!" table (idx: " ++ pos ++ b!", name: " ++ h.name ++ b!")"),
       (.trace, b!"decoded header: name: " ++ h.name ++ b!", value: " ++ value)] := by
  rw [List.append_assoc]
  obtain ⟨hd, hvv⟩ := decodeInt_of_int (p := p) h1 h8 hint (wv ++ rest)
  have hs : readLengthAndString (wv ++ rest) = .ok (value, rest) := (readLengthAndString_iff _ _ _).mpr ⟨wv, rfl, hv⟩
  have hne : UInt32.ofNat i ≠ 0 := by
    intro e
    have := congrArg UInt32.toNat e
    rw [hvv] at this; simp at this; exact h0 this
  obtain ⟨tab, pos, hp, hlines⟩ := headerNameAtLines_place hl
  refine ⟨_, tab, pos, Sim.decimal_spec i, hp, ?_⟩
  have hlt := hint.2.2
  rw [literalFieldLines, hd]
  simp only
  rw [if_neg hne, hvv, indexedNameLines, tableIndexOf_eq i (by omega) (by omega), hlines,
    readIndexedHeaderName_eq t i (by omega) (by omega), hl]
  simp only [hne, decide_false]
  rw [valueLines_ok _ hs]
  simp only [boolText, List.append_assoc, List.cons_append, List.nil_append, if_false, Bool.false_eq_true]

/-- A literal with a name of its own. -/
theorem literalLines_new {t : DynTable} {p : UInt8} (h1 : 1 ≤ p.toNat) (h8 : p.toNat ≤ 8) {flag : Nat}
    {wi wn wv value name : Bytes} (rest : Bytes) (hint : Dialect.lenient.int p.toNat flag 0 wi)
    (hn : StrWire Dialect.lenient name wn) (hv : StrWire Dialect.lenient value wv) :
    literalFieldLines t p (wi ++ (wn ++ wv) ++ rest) =
      [(.trace, b!"decoding literal field with index: 0, new name: true"),
       (.trace, b!"decoded header: name: " ++ name ++ b!", value: " ++ value)] := by
  rw [List.append_assoc, List.append_assoc]
  obtain ⟨hd, hvv⟩ := decodeInt_of_int (p := p) h1 h8 hint (wn ++ (wv ++ rest))
  have hs : readLengthAndString (wv ++ rest) = .ok (value, rest) := (readLengthAndString_iff _ _ _).mpr ⟨wv, rfl, hv⟩
  have hs2 : readLengthAndString (wn ++ (wv ++ rest)) = .ok (name, wv ++ rest) :=
    (readLengthAndString_iff _ _ _).mpr ⟨wn, rfl, hn⟩
  rw [literalFieldLines, hd]
  simp only
  rw [if_pos (by rfl), lengthAndStringLines_ok hs2, hs2]
  simp only
  rw [valueLines_ok _ hs, hvv, show decimal 0 = b!"0" by decide +kernel]
  rfl

/-- The name of the kind of a field. -/
theorem kind_of {b : UInt8} {ty : FieldType} {rep : Rep} (h : fieldType b = ty) (hn : ty.text = repName rep) :
    ((Level.trace, b!"header type: " ++ (fieldType b).text ++ b!", byte: 0x" ++ hex2 0x41 b) : Line) = kindLine b rep := by
  rw [h, hn, hex2_upper, kindLine]

/-- What is said about a representation that is accepted. -/
theorem fieldLines_tells {t : DynTable} {rep : Rep} {w : Bytes} {hs : List Header} {T : Table}
    (hw : RepWire Dialect.lenient rep w) (he : execRep 65536 t.abs rep = some (hs, T)) (rest : Bytes) :
    ∃ b w', w = b :: w' ∧ Tells t.abs b rep (fieldLines t (w ++ rest) b) := by
  cases hw with
  | indexed i _ hint =>
    obtain ⟨b, w', rfl⟩ := int_ne_nil hint.1
    have hf := intRep_first hint.1
    simp only [execRep, Option.map_eq_some_iff, Prod.mk.injEq] at he
    obtain ⟨h, hl, -, -⟩ := he
    refine ⟨b, w', rfl, ?_⟩
    have h128 : 128 ≤ b.toNat := by omega
    have hty : fieldType b = .indexed := by rw [fieldType_eq, if_pos h128]
    obtain ⟨hd, hvv⟩ := decodeInt_of_int (p := 7) (by decide) (by decide) hint rest
    obtain ⟨tab, pos, hp, hlines⟩ := headerAtLines_place hl
    have h1 := (staticTable_at hl).1
    have hlt := hint.2.2
    rw [fieldLines, kind_of (rep := .indexed i) hty rfl, hty]
    simp only
    rw [indexedFieldLines, hd]
    simp only
    rw [if_neg (by rw [UInt32.lt_iff_toNat_lt, hvv]; exact Nat.not_lt.mpr h1), hvv, indexedHeaderLines,
      tableIndexOf_eq i (by omega) (by omega), hlines]
    exact .indexed i h tab pos hl hp
  | literalIndexed mode i value wi wv h0 hint hv =>
    obtain ⟨b, w', rfl⟩ := int_ne_nil hint.1
    have hf := intRep_first hint.1
    simp only [execRep] at he
    cases hl : t.abs.lookup i with
    | none => simp [hl] at he
    | some h =>
      have hln : (t.abs.lookup i).map Header.name = some h.name := by rw [hl]; rfl
      refine ⟨b, w' ++ wv, rfl, ?_⟩
      cases mode with
      | incremental =>
        simp only [litPrefix, litFlag] at hf hint
        have hty : fieldType b = .literalIncremental := by rw [fieldType_eq, if_neg (by omega), if_pos (by omega)]
        obtain ⟨idx, tab, pos, hi, hp, hlines⟩ :=
          literalLines_index (p := 6) (by decide) (by decide) rest h0 hint hv hl
        rw [fieldLines, kind_of (rep := .literal .incremental (.index i) value) hty rfl, hty]
        simp only
        rw [hlines, decodeLiteralField_complete_index (p := 6) (by decide) (by decide) rest h0 hint hv hln]
        exact .indexedName .incremental i value h idx tab pos _ hl hi hp (insertLines_tells t ⟨h.name, value⟩)
      | without =>
        simp only [litPrefix, litFlag] at hf hint
        have hty : fieldType b = .literalNoIndex := by
          rw [fieldType_eq, if_neg (by omega), if_neg (by omega), if_neg (by omega), if_neg (by omega)]
        obtain ⟨idx, tab, pos, hi, hp, hlines⟩ :=
          literalLines_index (p := 4) (by decide) (by decide) rest h0 hint hv hl
        rw [fieldLines, kind_of (rep := .literal .without (.index i) value) hty rfl, hty]
        simp only
        rw [hlines]
        exact .indexedName .without i value h idx tab pos [] hl hi hp rfl
      | never =>
        simp only [litPrefix, litFlag] at hf hint
        have hty : fieldType b = .literalNeverIndex := by
          rw [fieldType_eq, if_neg (by omega), if_neg (by omega), if_neg (by omega), if_pos (by omega)]
        obtain ⟨idx, tab, pos, hi, hp, hlines⟩ :=
          literalLines_index (p := 4) (by decide) (by decide) rest h0 hint hv hl
        rw [fieldLines, kind_of (rep := .literal .never (.index i) value) hty rfl, hty]
        simp only
        rw [hlines]
        exact .indexedName .never i value h idx tab pos [] hl hi hp rfl
  | literalNew mode n value wi wn wv hint hn hv =>
    obtain ⟨b, w', rfl⟩ := int_ne_nil hint.1
    have hf := intRep_first hint.1
    refine ⟨b, w' ++ (wn ++ wv), rfl, ?_⟩
    cases mode with
    | incremental =>
      simp only [litPrefix, litFlag] at hf hint
      have hty : fieldType b = .literalIncremental := by rw [fieldType_eq, if_neg (by omega), if_pos (by omega)]
      rw [fieldLines, kind_of (rep := .literal .incremental (.new n) value) hty rfl, hty]
      simp only
      rw [literalLines_new (p := 6) (by decide) (by decide) rest hint hn hv,
        decodeLiteralField_complete_new (p := 6) (by decide) (by decide) rest hint hn hv]
      exact .newName .incremental n value _ (insertLines_tells t ⟨n, value⟩)
    | without =>
      simp only [litPrefix, litFlag] at hf hint
      have hty : fieldType b = .literalNoIndex := by
        rw [fieldType_eq, if_neg (by omega), if_neg (by omega), if_neg (by omega), if_neg (by omega)]
      rw [fieldLines, kind_of (rep := .literal .without (.new n) value) hty rfl, hty]
      simp only
      rw [literalLines_new (p := 4) (by decide) (by decide) rest hint hn hv]
      exact .newName .without n value [] rfl
    | never =>
      simp only [litPrefix, litFlag] at hf hint
      have hty : fieldType b = .literalNeverIndex := by
        rw [fieldType_eq, if_neg (by omega), if_neg (by omega), if_neg (by omega), if_pos (by omega)]
      rw [fieldLines, kind_of (rep := .literal .never (.new n) value) hty rfl, hty]
      simp only
      rw [literalLines_new (p := 4) (by decide) (by decide) rest hint hn hv]
      exact .newName .never n value [] rfl
  | sizeUpdate n _ hint =>
    obtain ⟨b, w', rfl⟩ := int_ne_nil hint.1
    have hf := intRep_first hint.1
    refine ⟨b, w', rfl, ?_⟩
    have hty : fieldType b = .sizeUpdate := by
      rw [fieldType_eq, if_neg (by omega), if_neg (by omega), if_pos (by omega)]
    obtain ⟨hd, hvv⟩ := decodeInt_of_int (p := 5) (by decide) (by decide) hint rest
    simp only [execRep] at he
    have hle : n ≤ 65536 := by
      by_cases hle : n ≤ 65536
      · exact hle
      · rw [if_neg hle] at he; cases he
    rw [fieldLines, kind_of (rep := .sizeUpdate n) hty rfl, hty]
    simp only
    rw [sizeUpdateLines, hd]
    simp only
    rw [hvv, if_neg (Nat.not_lt.mpr (by exact hle))]
    exact .sizeUpdate n _ (Sim.decimal_spec _)

/-! ## Blocks -/

theorem octetLine (t : DynTable) (r : ByteReader) (b : UInt8) :
    ∃ more, fieldLines t r b = (.trace, b!"header type: " ++ octetName b ++ b!", byte: 0x" ++ hexUpper b) :: more := by
  have h : (fieldType b).text = octetName b := by
    rw [fieldType_eq, octetName]
    repeat' split
    all_goals rfl
  rw [fieldLines, hex2_upper, h]
  exact ⟨_, rfl⟩

theorem blockLoopLines_story (fuel : Nat) : ∀ (t : DynTable) (r : Bytes) (acc : List Header), t.WF → r.length ≤ fuel →
    (∀ hs t', decodeLoop fuel t r acc = .ok hs t' → ∃ reps out, Story t.abs reps r (blockLoopLines fuel t r) t'.abs ∧
      hs = acc ++ out ∧ execReps 65536 t.abs reps = some (out, t'.abs)) ∧
    (∀ e t', decodeLoop fuel t r acc = .err e t' → ∃ reps w b r' ls more, r = w ++ b :: r' ∧ Story t.abs reps w ls t'.abs ∧
      Stuck t'.abs (b :: r') ∧ blockLoopLines fuel t r =
        ls ++ (.trace, b!"header type: " ++ octetName b ++ b!", byte: 0x" ++ hexUpper b) :: more) := by
  induction fuel with
  | zero =>
    intro t r acc hwf hlen
    cases r with
    | nil =>
      simp only [decodeLoop, BlockRes.ok.injEq, reduceCtorEq, false_implies, implies_true, and_true]
      rintro hs t' ⟨rfl, rfl⟩
      exact ⟨[], [], .nil _, by simp, rfl⟩
    | cons b r => simp at hlen
  | succ fuel ih =>
    intro t r acc hwf hlen
    cases r with
    | nil =>
      simp only [decodeLoop, BlockRes.ok.injEq, reduceCtorEq, false_implies, implies_true, and_true]
      rintro hs t' ⟨rfl, rfl⟩
      exact ⟨[], [], .nil _, by simp, rfl⟩
    | cons b r =>
      simp only [decodeLoop, blockLoopLines]
      cases hf : decodeField t (b :: r) b with
      | ok x =>
        obtain ⟨hs1, t1, r1⟩ := x
        simp only
        obtain ⟨hwf1, rep, w, hr, hw, he⟩ := decodeField_sound hwf hf
        obtain ⟨b1, w1, rfl, hT⟩ := fieldLines_tells hw he r1
        rw [← hr] at hT
        have hb : b1 = b := by injection hr with h1 _; exact h1.symm
        subst hb
        have hl : r1.length ≤ fuel := by
          have := congrArg List.length hr
          simp only [List.length_cons, List.length_append] at this hlen
          omega
        obtain ⟨i1, i2⟩ := ih t1 r1 (acc ++ hs1) hwf1 hl
        refine ⟨fun hs t' h => ?_, fun e t' h => ?_⟩
        · obtain ⟨reps, out, hS, ho, hex⟩ := i1 hs t' h
          refine ⟨rep :: reps, hs1 ++ out, ?_, by simp [ho], ?_⟩
          · conv => arg 3; rw [hr]
            exact .cons _ _ _ _ _ _ _ _ _ _ _ hw he hT hS
          · have he' : execRep 65536 t.abs rep = some (hs1, t1.abs) := he
            simp [execReps, he', hex]
        · obtain ⟨reps, w, b', r', ls, more, h1, hS, h2, h3⟩ := i2 e t' h
          refine ⟨rep :: reps, b1 :: w1 ++ w, b', r', fieldLines t (b1 :: r) b1 ++ ls, more, ?_, .cons _ _ _ _ _ _ _ _ _ _ _ hw he hT hS, h2, ?_⟩
          · rw [hr, h1, List.append_assoc]
          · rw [h3]; exact (List.append_assoc ..).symm
      | err e =>
        simp only [reduceCtorEq, false_implies, implies_true, true_and, BlockRes.err.injEq]
        rintro e' t' ⟨rfl, rfl⟩
        obtain ⟨more, hm⟩ := octetLine t (b :: r) b
        refine ⟨[], [], b, r, [], more, rfl, .nil _, ?_, by rw [hm]; simp⟩
        intro rep w rest hr hw
        cases hx : execRep 65536 t.abs rep with
        | none => rfl
        | some x =>
          obtain ⟨b', w', t1, rfl, hd, -, -⟩ := decodeField_complete hwf hw (hs := x.1) (T := x.2) hx rest
          have hb : b' = b := by injection hr with h1 _; exact h1.symm
          subst hb
          rw [← hr, hf] at hd
          cases hd
      | ub u => simp

/-- **C171**, blocks that are accepted: the log tells of each representation, in order, what it is and what came of it, and
nothing more. -/
theorem C171_accepted (t : DynTable) (hwf : t.WF) (data : Bytes) (hs : List Header) (t' : DynTable)
    (h : decodeBlock t data = .ok hs t') :
    ∃ reps, Story t.abs reps data (blockLines t data) t'.abs ∧ execReps 65536 t.abs reps = some (hs, t'.abs) := by
  obtain ⟨reps, out, hS, ho, hex⟩ := (blockLoopLines_story data.length t data [] hwf (Nat.le_refl _)).1 hs t' h
  rw [List.nil_append] at ho
  exact ⟨reps, hS, ho ▸ hex⟩

/-- **C171**, blocks that are refused: the log tells of each representation before the one refused, and then names the octet
at which the wrong one begins. -/
theorem C171_refused (t : DynTable) (hwf : t.WF) (data : Bytes) (e : FrameError) (t' : DynTable)
    (h : decodeBlock t data = .err e t') :
    ∃ reps w b r ls more, data = w ++ b :: r ∧ Story t.abs reps w ls t'.abs ∧ Stuck t'.abs (b :: r) ∧
      blockLines t data = ls ++ (.trace, b!"header type: " ++ octetName b ++ b!", byte: 0x" ++ hexUpper b) :: more :=
  (blockLoopLines_story data.length t data [] hwf (Nat.le_refl _)).2 e t' h

/-! ## Position of the wrong bit -/

theorem readBit_bitAt (br : BitReader) (h : br.hasMore = true) : br.readBit.1 = bitAt br.data br.bitPos := by
  simp only [BitReader.hasMore, decide_eq_true_eq] at h
  have hr : br.bitPos / 8 < br.data.length := by omega
  rw [BitReader.readBit, dif_neg (by omega), bitAt, List.getD_eq_getElem?_getD, List.getElem?_eq_getElem hr]
  simp only [Nat.shiftRight_eq_div_pow]
  rfl

theorem restLines_position (br : BitReader) (bits : Nat) (hb : br.bitPos = bits) : ∀ l ∈ HuffTree.restLines br bits,
    ∃ n num, l = (.err, b!"remaining unmatched Huffman code is not padding: (bit pos = " ++ num ++ b!")") ∧ IsDecimal n num ∧
      bits ≤ n ∧ n < br.data.length * 8 ∧ bitAt br.data n = false ∧ ∀ k, bits ≤ k → k < n → bitAt br.data k = true := by
  fun_induction HuffTree.restLines br bits with
  | case1 br bits h hz =>
    intro l hl
    rw [List.mem_singleton] at hl
    have hm := h
    simp only [BitReader.hasMore, decide_eq_true_eq] at hm
    refine ⟨bits, _, hl, Sim.decimal_spec _, Nat.le_refl _, by omega, ?_, fun k _ _ => by omega⟩
    rw [readBit_bitAt br h, hb] at hz
    simpa using hz
  | case2 br bits h hz ih =>
    intro l hl
    obtain ⟨hd, hp⟩ := br.bitPos_readBit h
    obtain ⟨n, num, h1, h2, h3, h4, h5, h6⟩ := ih (by rw [hp, hb]) l hl
    rw [hd] at h4 h5 h6
    refine ⟨n, num, h1, h2, by omega, h4, h5, fun k hk hk' => ?_⟩
    rcases Nat.lt_or_ge bits k with hlt | hge
    · exact h6 k hlt hk'
    · rw [show k = bits by omega]
      rw [readBit_bitAt br h, hb] at hz
      simpa using hz
  | case3 => simp

theorem loopLines_position (root : HuffTree) (br : BitReader) (current : HuffTree) (bits : Nat) (hb : br.bitPos = bits) :
    ∀ l ∈ HuffTree.loopLines root br current bits,
    ∃ n num, l = (.err, b!"remaining unmatched Huffman code is not padding: (bit pos = " ++ num ++ b!")") ∧ IsDecimal n num ∧
      n < br.data.length * 8 ∧ bitAt br.data n = false := by
  fun_induction HuffTree.loopLines root br current bits with
  | case1 => simp
  | case2 br bits h =>
    intro l hl
    obtain ⟨hd, hp⟩ := br.bitPos_readBit h
    obtain ⟨n, num, h1, h2, h3, h4, h5, h6⟩ := restLines_position _ _ (by rw [hp, hb]) l hl
    rw [hd] at h4 h5
    exact ⟨n, num, h1, h2, h4, h5⟩
  | case3 br bits h _ _ _ _ _ _ _ ih =>
    obtain ⟨hd, hp⟩ := br.bitPos_readBit h
    have := ih (by rw [hp, hb])
    rwa [hd] at this
  | case4 br bits h _ _ _ _ _ _ ih =>
    obtain ⟨hd, hp⟩ := br.bitPos_readBit h
    have := ih (by rw [hp, hb])
    rwa [hd] at this
  | case5 => simp

/-- **C171**, the position in the message about wrong Huffman code is that of a zero where only ones may stand. -/
theorem C171_position (data : Bytes) : ∀ l ∈ huffmanTree.decodeLines data,
    ∃ n num, l = (.err, b!"remaining unmatched Huffman code is not padding: (bit pos = " ++ num ++ b!")") ∧ IsDecimal n num ∧
      n < data.length * 8 ∧ bitAt data n = false :=
  loopLines_position huffmanTree { data := data } huffmanTree 0 rfl

/-! ## Examples -/

/-- A block with an indexed field, a literal that is inserted, the field inserted, a literal with an indexed name, and a new
size of the table. -/
def exToldBlock : Bytes := [0x82, 0x40, 1, 97, 1, 98, 0xBE, 0x0F, 0x2F, 1, 99, 0x3E]

/-- Hypotheses of `C171_accepted` for this block: it is accepted, with four fields, and fourteen lines are written. -/
example : ({} : DynTable).WF ∧
    decodeBlock {} exToldBlock =
      .ok [⟨b!":method", b!"GET"⟩, ⟨b!"a", b!"b"⟩, ⟨b!"a", b!"b"⟩, ⟨b!"a", b!"c"⟩] { maxTableSize := 30 } ∧
    blockLines {} exToldBlock =
      [(.trace, b!"header type: Indexed, byte: 0x82"),
       (.trace, b!"read indexed header from static table (idx: 1, name: :method, val: GET)"),
       (.trace, b!"header type: LiteralIncremental, byte: 0x40"),
       (.trace, b!"decoding literal field with index: 0, new name: true"),
       (.trace, b!"decoded header: name: a, value: b"),
       (.debug, b!"dynamic table: current sz: 34, max: 65536"),
       (.trace, b!"header type: Indexed, byte: 0xBE"),
       (.trace, b!"read indexed header from dynamic table (idx: 0, name: a, val: b)"),
       (.trace, b!"header type: LiteralNoIndex, byte: 0x0F"),
       (.trace, b!"decoding literal field with index: 62, new name: false"),
       (.trace, b!"read indexed header name from dynamic table (idx: 0, name: a)"),
       (.trace, b!"decoded header: name: a, value: c"),
       (.trace, b!"header type: SizeUpdate, byte: 0x3E"),
       (.trace, b!"dynamic table size updated to: 30")] := by
  refine ⟨⟨rfl, Nat.zero_le _⟩, ?_, ?_⟩ <;> decide +kernel

/-- Hypotheses of `C171_refused`: the second field has index zero. -/
example : decodeBlock {} [0x82, 0x80] = .err .protocolError {} ∧
    blockLines {} [0x82, 0x80] =
      [(.trace, b!"header type: Indexed, byte: 0x82"),
       (.trace, b!"read indexed header from static table (idx: 1, name: :method, val: GET)"),
       (.trace, b!"header type: Indexed, byte: 0x80"), (.err, b!"invalid header index (<1)")] := by
  refine ⟨?_, ?_⟩ <;> decide +kernel

/-- Forty bits, all ones but the last: the position is 39. -/
example : huffmanTree.decodeLines [0xFF, 0xFF, 0xFF, 0xFF, 0xFE] =
    [(.err, b!"remaining unmatched Huffman code is not padding: (bit pos = 39)")] := by decide +kernel

end Ion
