import Verif.Props.HeaderDecoder
import Verif.Props.DynamicTable

/-! # Header block encoder: what is on the wire -/

namespace Ion
open Spec

/-- The part of `Dialect.rfc` that the encoder uses: integers of at most six octets. -/
def encDialect : Dialect := { int := Dialect.limited.int, huff := HuffEncodes, str := fun _ => True }

theorem strWire_enc_rfc {s w : Bytes} (h : StrWire encDialect s w) : StrWire Dialect.rfc s w := by
  cases h with
  | plain len h hs => exact .plain len h.1 trivial
  | huffman len data h hd hs => exact .huffman len data h.1 hd trivial

theorem repWire_enc_rfc {r : Rep} {w : Bytes} (h : RepWire encDialect r w) :
    RepWire Dialect.rfc r w := by
  cases h with
  | indexed i _ h => exact .indexed i _ h.1
  | literalIndexed mode i v wi wv h0 h hv =>
    exact .literalIndexed mode i v wi wv h0 h.1 (strWire_enc_rfc hv)
  | literalNew mode n v wi wn wv h hn hv =>
    exact .literalNew mode n v wi wn wv h.1 (strWire_enc_rfc hn) (strWire_enc_rfc hv)
  | sizeUpdate n _ h => exact .sizeUpdate n _ h.1

/-- The static table as the specification has it. -/
def Spec.InStatic (h : Header) : Prop := ∃ i, i ≤ 61 ∧ staticEntry i = some h

/-- A name of the static table. -/
def Spec.NameInStatic (n : Bytes) : Prop := ∃ i h, i ≤ 61 ∧ staticEntry i = some h ∧ h.name = n

theorem indexByte_indexed : ∀ n : Fin 127, 1 ≤ n.val → (indexByte n.val 0x80).toNat = 1 * 2 ^ 7 + n.val := by
  decide +kernel

theorem indexByte_literal : ∀ n : Fin 63, 1 ≤ n.val → (indexByte n.val 0x40).toNat = 1 * 2 ^ 6 + n.val := by
  decide +kernel

theorem int_indexed {n : Nat} (h1 : 1 ≤ n) (h2 : n < 127) :
    encDialect.int 7 1 n [indexByte n 0x80] :=
  ⟨.short _ (indexByte_indexed ⟨n, h2⟩ h1) (by omega), by simp, by omega⟩

theorem int_literal {n : Nat} (h1 : 1 ≤ n) (h2 : n < 63) :
    encDialect.int 6 1 n [indexByte n 0x40] :=
  ⟨.short _ (indexByte_literal ⟨n, h2⟩ h1) (by omega), by simp, by omega⟩

theorem header_eq_iff (x h : Header) : (x.name == h.name && x.value == h.value) = true ↔ x = h := by
  obtain ⟨hn, hv⟩ := h
  obtain ⟨xn, xv⟩ := x
  simp

theorem static_getElem {i : Nat} {h : Header} (hi : staticTable[i]? = some h) :
    i < 61 ∧ staticEntry (i + 1) = some h := by
  obtain ⟨hlt, -⟩ := List.getElem?_eq_some_iff.mp hi
  rw [staticTable_length] at hlt
  refine ⟨hlt, ?_⟩
  rw [staticEntry_eq ⟨i + 1, by omega⟩ (by simp)]
  simpa using hi

theorem findStatic_some {h : Header} {i : Nat}
    (hf : staticTable.findIdx? (fun x => x.name == h.name && x.value == h.value) = some i) :
    i < 61 ∧ staticEntry (i + 1) = some h := by
  obtain ⟨hlt, h1, -⟩ := List.findIdx?_eq_some_iff_getElem.mp hf
  apply static_getElem
  rw [List.getElem?_eq_getElem hlt, (header_eq_iff _ _).mp h1]

theorem findStatic_none {h : Header}
    (hf : staticTable.findIdx? (fun x => x.name == h.name && x.value == h.value) = none) :
    ¬ InStatic h := by
  rintro ⟨i, hi, hs⟩
  have h0 : i ≠ 0 := by rintro rfl; simp [staticEntry] at hs
  rw [staticEntry_eq ⟨i, by omega⟩ (by simp; omega)] at hs
  have := List.findIdx?_eq_none_iff.mp hf h (List.mem_of_getElem? hs)
  rw [(header_eq_iff h h).mpr rfl] at this; cases this

theorem findStaticName_some {n : Bytes} {i : Nat}
    (hf : staticTable.findIdx? (fun x => x.name == n) = some i) :
    i < 61 ∧ (staticEntry (i + 1)).map Header.name = some n := by
  obtain ⟨hlt, h1, -⟩ := List.findIdx?_eq_some_iff_getElem.mp hf
  have := static_getElem (List.getElem?_eq_getElem hlt)
  refine ⟨this.1, ?_⟩
  rw [this.2]; simpa using h1

theorem findStaticName_none {n : Bytes}
    (hf : staticTable.findIdx? (fun x => x.name == n) = none) : ¬ NameInStatic n := by
  rintro ⟨i, h, hi, hs, hn⟩
  have h0 : i ≠ 0 := by rintro rfl; simp [staticEntry] at hs
  rw [staticEntry_eq ⟨i, by omega⟩ (by simp; omega)] at hs
  have := List.findIdx?_eq_none_iff.mp hf h (List.mem_of_getElem? hs)
  simp [hn] at this

theorem dynGet_ok {t : DynTable} {i : Nat} {h : Header} :
    (t.get i : Outcome FrameError Header) = .ok h ↔ t.table[i]? = some h := by
  simp only [DynTable.get]
  split <;> simp_all

/-- When the index the encoder wants to write fits in the one octet it writes: the header is static;
or it is among the 65 newest entries; or it has to be written out and its name is static, or not in
the table, or the newest entry's. -/
def Spec.IndexFits (T : Table) (h : Header) : Prop :=
  InStatic h ∨ h ∈ T.entries.take 65 ∨
    (h ∉ T.entries ∧ (NameInStatic h.name ∨ (∀ x ∈ T.entries, x.name ≠ h.name) ∨
      ∃ x, T.entries.head? = some x ∧ x.name = h.name))

/-- Encodable strings: lengths fit the length field; with a signed `char`, only octets below 0x80
in strings of more than three bytes. -/
def Spec.Encodable (sgn : Bool) (s : Bytes) : Prop :=
  s.length < 2 ^ 29 ∧ (sgn = false ∨ s.length ≤ 3 ∨ ∀ c ∈ s, c.toNat < 128)

theorem writeString_enc {ε : Type} {sgn : Bool} {s : Bytes} (h : Encodable sgn s) :
    ∃ w, (writeLengthAndString sgn s : Outcome ε Bytes) = .ok w ∧ StrWire encDialect s w :=
  writeLengthAndString_spec sgn s h.1 h.2

/-- The encoder writes one representation of the header. Any table with the same entries (whatever
its maximum) executes it as the header; the encoder's table is unchanged, or has the header added,
and that is also the effect on the reader's table. -/
theorem encodeHeader_spec {ε : Type} (sgn : Bool) (t : DynTable) (hwf : t.WF) (h : Header)
    (hn : Encodable sgn h.name) (hv : Encodable sgn h.value) (hfit : IndexFits t.abs h) :
    ∃ w t' rep, (encodeHeader sgn t h : Outcome ε (Bytes × DynTable)) = .ok (w, t') ∧
      t'.WF ∧ RepWire encDialect rep w ∧
      ((t' = t ∧ (InStatic h ∨ h ∈ t.table) ∧
          ∀ limit T, T.entries = t.table → execRep limit T rep = some ([h], T)) ∨
        (t'.abs = t.abs.add h ∧ ¬ InStatic h ∧ h ∉ t.table ∧
          ∀ limit T, T.entries = t.table → execRep limit T rep = some ([h], T.add h))) := by
  unfold encodeHeader
  split
  · rename_i i hf
    obtain ⟨h1, h2⟩ := findStatic_some hf
    refine ⟨_, t, .indexed (i + 1), rfl, hwf, .indexed _ _ (int_indexed (by omega) (by omega)),
      .inl ⟨rfl, .inl ⟨i + 1, by omega, h2⟩, ?_⟩⟩
    intro limit T hT
    simp [execRep, Table.lookup, show i + 1 ≤ 61 by omega, h2]
  · rename_i hns
    have hns := findStatic_none hns
    split
    · rename_i i hf
      obtain ⟨h1, h2⟩ := (C12_find t h).1 i |>.mp hf
      rw [dynGet_ok] at h1
      have hi : i < 65 := by
        rcases hfit with hc | hc | hc
        · exact absurd hc hns
        · obtain ⟨j, hj⟩ := List.mem_iff_getElem?.mp hc
          rw [List.getElem?_take] at hj
          split at hj
          · rename_i hj65
            rcases Nat.lt_or_ge j i with hji | hji
            · exact absurd (dynGet_ok.mpr hj) (h2 j hji)
            · omega
          · simp at hj
        · exact absurd (List.mem_of_getElem? h1) hc.1
      rw [staticTable_length]
      refine ⟨_, t, .indexed (61 + i + 1), rfl, hwf,
        .indexed _ _ (int_indexed (by omega) (by omega)),
        .inl ⟨rfl, .inr (List.mem_of_getElem? h1), ?_⟩⟩
      intro limit T hT
      simp [execRep, Table.lookup, show ¬ 61 + i + 1 ≤ 61 by omega,
        show 61 + i + 1 - 62 = i by omega, hT, h1]
    · rename_i hnf
      have hnf := (C12_find t h).2.mp hnf
      obtain ⟨t', hins, hwf', habs⟩ := DynTable.insert_spec (ε := ε) t h hwf
      obtain ⟨wv, hwv, hwv'⟩ := writeString_enc (ε := ε) hv
      split
      · rename_i i hf
        obtain ⟨h1, h2⟩ := findStaticName_some hf
        refine ⟨[indexByte (i + 1) 0x40] ++ wv, t', .literal .incremental (.index (i + 1)) h.value,
          by simp [hwv, hins], hwf',
          .literalIndexed _ _ _ _ _ (by omega) (int_literal (by omega) (by omega)) hwv',
          .inr ⟨habs, hns, hnf, ?_⟩⟩
        intro limit T hT
        simp only [execRep, Table.lookup, show i + 1 ≤ 61 by omega, if_true, h2, Option.map_some]
      · rename_i hnn
        have hnn := findStaticName_none hnn
        split
        · rename_i i hf
          obtain ⟨⟨v, h1⟩, h2⟩ := (C12_find_name t h.name).1 i |>.mp hf
          rw [dynGet_ok] at h1
          have hi : i = 0 := by
            rcases hfit with hc | hc | hc
            · exact absurd hc hns
            · exact absurd (List.mem_of_mem_take hc) hnf
            · rcases hc.2 with hc | hc | ⟨x, hx, hxn⟩
              · exact absurd hc hnn
              · exact absurd rfl (hc ⟨h.name, v⟩ (List.mem_of_getElem? h1))
              · rcases Nat.eq_zero_or_pos i with h0 | h0
                · exact h0
                · refine absurd (dynGet_ok.mpr ?_) (h2 0 h0 x.value)
                  rw [← List.head?_eq_getElem?]
                  rw [show t.table.head? = some x from hx, ← hxn]
          subst hi
          rw [staticTable_length]
          refine ⟨[indexByte (61 + 0 + 1) 0x40] ++ wv, t',
            .literal .incremental (.index 62) h.value, by simp [hwv, hins], hwf',
            .literalIndexed _ _ _ _ _ (by omega) (int_literal (by omega) (by omega)) hwv',
            .inr ⟨habs, hns, hnf, ?_⟩⟩
          intro limit T hT
          simp [execRep, Table.lookup, hT, h1]
        · obtain ⟨wn, hwn, hwn'⟩ := writeString_enc (ε := ε) hn
          refine ⟨[0x40] ++ (wn ++ wv), t', .literal .incremental (.new h.name) h.value,
            by simp [hwn, hwv, hins], hwf',
            .literalNew _ _ _ _ _ _ ⟨.short _ (by decide) (by decide), by simp, by decide⟩ hwn' hwv',
            .inr ⟨habs, hns, hnf, ?_⟩⟩
          intro limit T hT
          simp [execRep]

/-! ### The RFC's wire format is unambiguous -/

theorem contOctets_unique {a b ra rb : Bytes} (ha : ContOctets a) (hb : ContOctets b)
    (h : a ++ ra = b ++ rb) : a = b ∧ ra = rb := by
  induction ha generalizing b with
  | last x hx =>
    cases hb with
    | last y hy => simpa using h
    | more y ys hy hys =>
      obtain ⟨rfl, -⟩ : x = y ∧ _ := by simpa using h
      omega
  | more x xs hx hxs ih =>
    cases hb with
    | last y hy =>
      obtain ⟨rfl, -⟩ : x = y ∧ _ := by simpa using h
      omega
    | more y ys hy hys =>
      obtain ⟨rfl, h'⟩ : x = y ∧ xs ++ ra = ys ++ rb := by simpa using h
      obtain ⟨rfl, rfl⟩ := ih hys h'
      exact ⟨rfl, rfl⟩

theorem intRep_unique {n f1 f2 v1 v2 : Nat} {a b ra rb : Bytes} (ha : IntRep n f1 v1 a)
    (hb : IntRep n f2 v2 b) (h : a ++ ra = b ++ rb) :
    f1 = f2 ∧ v1 = v2 ∧ a = b ∧ ra = rb := by
  have hpos : 0 < 2 ^ n := Nat.pow_pos (by decide)
  have hdm : ∀ f v, v < 2 ^ n → (f * 2 ^ n + v) / 2 ^ n = f ∧ (f * 2 ^ n + v) % 2 ^ n = v := by
    intro f v hv
    rw [Nat.mul_comm]
    exact ⟨by rw [Nat.mul_add_div hpos, Nat.div_eq_of_lt hv]; rfl,
      by rw [Nat.mul_add_mod, Nat.mod_eq_of_lt hv]⟩
  cases ha with
  | short x hx hv =>
    have h1 := hdm f1 v1 (by omega)
    cases hb with
    | short y hy hw =>
      have h2 := hdm f2 v2 (by omega)
      obtain ⟨rfl, rfl⟩ : x = y ∧ ra = rb := by simpa using h
      rw [← hx, hy] at h1
      exact ⟨by rw [← h1.1, h2.1], by rw [← h1.2, h2.2], rfl, rfl⟩
    | long y cs hy hc hw =>
      have h2 := hdm f2 (2 ^ n - 1) (by omega)
      obtain ⟨rfl, -⟩ : x = y ∧ ra = cs ++ rb := by simpa using h
      rw [← hx, hy] at h1
      omega
  | long x cs hx hc hv =>
    have h1 := hdm f1 (2 ^ n - 1) (by omega)
    cases hb with
    | short y hy hw =>
      have h2 := hdm f2 v2 (by omega)
      obtain ⟨rfl, -⟩ : x = y ∧ cs ++ ra = rb := by simpa using h
      rw [← hx, hy] at h1
      omega
    | long y ds hy hd hw =>
      have h2 := hdm f2 (2 ^ n - 1) (by omega)
      obtain ⟨rfl, h'⟩ : x = y ∧ cs ++ ra = ds ++ rb := by simpa using h
      obtain ⟨rfl, rfl⟩ := contOctets_unique hc hd h'
      rw [← hx, hy] at h1
      exact ⟨by rw [← h1.1, h2.1], by omega, rfl, rfl⟩

theorem huffEncodes_unique {data s s' : Bytes} (h : HuffEncodes data s) (h' : HuffEncodes data s') :
    s = s' := by
  have d : ∀ s, HuffEncodes data s → huffmanTree.decode data = .ok s := fun s h =>
    (huffDecode_lenient data s).mpr (huffEncodes_lenient h)
  have := (d s h).symm.trans (d s' h')
  simpa using this

theorem strWire_unique {s s' w w' r r' : Bytes} (h : StrWire Dialect.rfc s w)
    (h' : StrWire Dialect.rfc s' w') (e : w ++ r = w' ++ r') : s = s' ∧ w = w' ∧ r = r' := by
  cases h with
  | plain len hl _ =>
    cases h' with
    | plain len' hl' _ =>
      rw [List.append_assoc, List.append_assoc] at e
      obtain ⟨-, hv, rfl, hr⟩ := intRep_unique hl hl' e
      obtain ⟨rfl, rfl⟩ := List.append_inj hr hv
      exact ⟨rfl, rfl, rfl⟩
    | huffman len' data' hl' hd' _ =>
      rw [List.append_assoc, List.append_assoc] at e
      obtain ⟨hf, -⟩ := intRep_unique hl hl' e
      omega
  | huffman len data hl hd _ =>
    cases h' with
    | plain len' hl' _ =>
      rw [List.append_assoc, List.append_assoc] at e
      obtain ⟨hf, -⟩ := intRep_unique hl hl' e
      omega
    | huffman len' data' hl' hd' _ =>
      rw [List.append_assoc, List.append_assoc] at e
      obtain ⟨-, hv, rfl, hr⟩ := intRep_unique hl hl' e
      obtain ⟨rfl, rfl⟩ := List.append_inj hr hv
      exact ⟨huffEncodes_unique hd hd', rfl, rfl⟩

/-- The class of a representation, by its first octet. -/
def repClass : Rep → Nat
  | .indexed _ => 0
  | .literal .incremental _ _ => 1
  | .sizeUpdate _ => 2
  | .literal .never _ _ => 3
  | .literal .without _ _ => 4

theorem repWire_class {r : Rep} {w : Bytes} (h : RepWire Dialect.rfc r w) :
    ∃ b w', w = b :: w' ∧ repClass r = (if 128 ≤ b.toNat then 0 else if 64 ≤ b.toNat then 1
      else if 32 ≤ b.toNat then 2 else if 16 ≤ b.toNat then 3 else 4) := by
  cases h with
  | indexed i _ h =>
    obtain ⟨b, w', rfl⟩ := int_ne_nil h
    have := intRep_first h
    have := b.toNat_lt
    exact ⟨b, w', rfl, by rw [if_pos (by omega)]; rfl⟩
  | literalIndexed mode i v wi wv h0 h hv =>
    obtain ⟨b, w', rfl⟩ := int_ne_nil h
    have := intRep_first h
    have := b.toNat_lt
    refine ⟨b, w' ++ wv, rfl, ?_⟩
    cases mode <;> simp only [litPrefix, litFlag] at this <;>
      (repeat first | rw [if_pos (by omega)] | rw [if_neg (by omega)]) <;> rfl
  | literalNew mode n v wi wn wv h hn hv =>
    obtain ⟨b, w', rfl⟩ := int_ne_nil h
    have := intRep_first h
    have := b.toNat_lt
    refine ⟨b, w' ++ (wn ++ wv), rfl, ?_⟩
    cases mode <;> simp only [litPrefix, litFlag] at this <;>
      (repeat first | rw [if_pos (by omega)] | rw [if_neg (by omega)]) <;> rfl
  | sizeUpdate n _ h =>
    obtain ⟨b, w', rfl⟩ := int_ne_nil h
    have := intRep_first h
    have := b.toNat_lt
    exact ⟨b, w', rfl, by
      rw [if_neg (by omega), if_neg (by omega), if_pos (by omega)]; rfl⟩

theorem repWire_unique {r r' : Rep} {w w' x x' : Bytes} (h : RepWire Dialect.rfc r w)
    (h' : RepWire Dialect.rfc r' w') (e : w ++ x = w' ++ x') : r = r' ∧ w = w' ∧ x = x' := by
  obtain ⟨b, u, hw, hc⟩ := repWire_class h
  obtain ⟨b', u', hw', hc'⟩ := repWire_class h'
  have hb : b = b' := by
    rw [hw, hw'] at e; simp only [List.cons_append, List.cons.injEq] at e; exact e.1
  subst hb
  rw [← hc'] at hc
  clear hc' hw hw'
  cases h with
  | indexed i _ h =>
    cases h' with
    | indexed i' _ h' => obtain ⟨-, rfl, rfl, rfl⟩ := intRep_unique h h' e; exact ⟨rfl, rfl, rfl⟩
    | literalIndexed mode' => cases mode' <;> simp [repClass] at hc
    | literalNew mode' => cases mode' <;> simp [repClass] at hc
    | sizeUpdate => simp [repClass] at hc
  | literalIndexed mode i v wi wv h0 h hv =>
    cases h' with
    | indexed => cases mode <;> simp [repClass] at hc
    | literalIndexed mode' i' v' wi' wv' h0' h' hv' =>
      obtain rfl : mode = mode' := by cases mode <;> cases mode' <;> simp_all [repClass]
      simp only [List.append_assoc] at e
      obtain ⟨-, rfl, rfl, e2⟩ := intRep_unique h h' e
      obtain ⟨rfl, rfl, rfl⟩ := strWire_unique hv hv' e2
      exact ⟨rfl, rfl, rfl⟩
    | literalNew mode' n' v' wi' wn' wv' h' hn' hv' =>
      obtain rfl : mode = mode' := by cases mode <;> cases mode' <;> simp_all [repClass]
      simp only [List.append_assoc] at e
      obtain ⟨-, rfl, -⟩ := intRep_unique h h' e
      exact absurd rfl h0
    | sizeUpdate => cases mode <;> simp [repClass] at hc
  | literalNew mode n v wi wn wv h hn hv =>
    cases h' with
    | indexed => cases mode <;> simp [repClass] at hc
    | literalIndexed mode' i' v' wi' wv' h0' h' hv' =>
      obtain rfl : mode = mode' := by cases mode <;> cases mode' <;> simp_all [repClass]
      simp only [List.append_assoc] at e
      obtain ⟨-, rfl, -⟩ := intRep_unique h h' e
      exact absurd rfl h0'
    | literalNew mode' n' v' wi' wn' wv' h' hn' hv' =>
      obtain rfl : mode = mode' := by cases mode <;> cases mode' <;> simp_all [repClass]
      simp only [List.append_assoc] at e
      obtain ⟨-, -, rfl, e2⟩ := intRep_unique h h' e
      obtain ⟨rfl, rfl, e3⟩ := strWire_unique hn hn' e2
      obtain ⟨rfl, rfl, rfl⟩ := strWire_unique hv hv' e3
      exact ⟨rfl, rfl, rfl⟩
    | sizeUpdate => cases mode <;> simp [repClass] at hc
  | sizeUpdate n _ h =>
    cases h' with
    | indexed => simp [repClass] at hc
    | literalIndexed mode' => cases mode' <;> simp [repClass] at hc
    | literalNew mode' => cases mode' <;> simp [repClass] at hc
    | sizeUpdate n' _ h' => obtain ⟨-, rfl, rfl, rfl⟩ := intRep_unique h h' e; exact ⟨rfl, rfl, rfl⟩

/-- A block has at most one reading: there is only one RFC decoder. -/
theorem blockWire_unique {rs : List Rep} {w : Bytes} (h : BlockWire Dialect.rfc rs w) :
    ∀ {rs' : List Rep}, BlockWire Dialect.rfc rs' w → rs = rs' := by
  induction h with
  | nil =>
    intro rs' h'
    generalize hw : ([] : Bytes) = w at h'
    cases h' with
    | nil => rfl
    | cons r' rs' w' ws' hr' hs' =>
      obtain ⟨b, u, rfl, -⟩ := repWire_class hr'
      simp at hw
  | cons r rs w ws hr hs ih =>
    intro rs' h'
    generalize hw : w ++ ws = x at h'
    cases h' with
    | nil =>
      obtain ⟨b, u, rfl, -⟩ := repWire_class hr
      simp at hw
    | cons r' rs' w' ws' hr' hs' =>
      obtain ⟨rfl, rfl, rfl⟩ := repWire_unique hr hr' hw
      rw [ih hs']

end Ion
