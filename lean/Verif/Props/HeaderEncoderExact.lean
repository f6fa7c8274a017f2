import Verif.Props.HeaderEncoder

/-! # C21, exactly: which header lists the encoder cannot write -/

namespace Ion
open Spec

/-- A string the encoder writes with the Huffman code and that has an octet of 0x80 or more. -/
def Spec.HighString (s : Bytes) : Prop := 3 < s.length ∧ ∃ c ∈ s, 128 ≤ c.toNat

/-- Somewhere in the list is a header of which a string with an octet above 0x7f must be written out.
A header in one of the tables is written as an index; the name of one of the tables' headers is written
as an index and the value is written out; otherwise both are. What is not found in a table is added to
the dynamic table, by the RFC's rules. -/
def Spec.WritesHigh : Table → List Header → Prop
  | _, [] => False
  | T, h :: hs =>
    ((InStatic h ∨ h ∈ T.entries) ∧ WritesHigh T hs) ∨
    (¬ InStatic h ∧ h ∉ T.entries ∧
      (HighString h.value ∨
        (HighString h.name ∧ ¬ NameInStatic h.name ∧ ∀ x ∈ T.entries, x.name ≠ h.name) ∨
        WritesHigh (T.add h) hs))

theorem huffmanWrite_high {ε : Type} (s : Bytes) (h : ∃ c ∈ s, 128 ≤ c.toNat) :
    ∀ bw, (huffmanWrite true s bw : Outcome ε BitWriter) = .ub .index := by
  induction s with
  | nil => simp at h
  | cons c cs ih =>
    intro bw
    by_cases hc : 128 ≤ c.toNat
    · have : c ≥ 0x80 := by rw [ge_iff_le, UInt8.le_iff_toNat_le]; exact hc
      simp only [huffmanWrite, huffmanCodeOfChar, Bool.true_and, decide_eq_true_eq, if_pos this]
      rfl
    · obtain ⟨d, hd, hd'⟩ := h
      have hd : d ∈ cs := by
        rcases List.mem_cons.mp hd with rfl | hd
        · exact absurd hd' hc
        · exact hd
      have : ¬ c ≥ 0x80 := by
        rw [ge_iff_le, UInt8.le_iff_toNat_le]; exact hc
      obtain ⟨code, hcode⟩ : ∃ code, (huffmanCodeOfChar true c : Outcome ε HuffmanCode) = .ok code := by
        have hsz : c.toNat < huffmanCodes.length := by
          have := c.toNat_lt
          have h2 : huffmanCodes.length = 256 := by decide +kernel
          omega
        refine ⟨huffmanCodes[c.toNat], ?_⟩
        simp only [huffmanCodeOfChar, Bool.true_and, decide_eq_true_eq, if_neg this]
        rw [List.getElem?_eq_getElem hsz]
      simp only [huffmanWrite, hcode, Outcome.bind_ok]
      exact ih ⟨d, hd, hd'⟩ _

theorem writeLengthAndString_high {ε : Type} (s : Bytes) (h : HighString s) :
    (writeLengthAndString true s : Outcome ε Bytes) = .ub .index := by
  unfold writeLengthAndString
  rw [if_pos (show s.length > maxPlainTextStringLength from h.1)]
  simp only [huffmanWrite_high s h.2]
  rfl

theorem writeLengthAndString_low {ε : Type} (sgn : Bool) (s : Bytes)
    (h : sgn = false ∨ ¬ HighString s) : ∃ w, (writeLengthAndString sgn s : Outcome ε Bytes) = .ok w := by
  refine writeLengthAndString_no_ub sgn s ?_
  rcases h with h | h
  · exact .inl h
  · by_cases hl : s.length ≤ 3
    · exact .inr (.inl hl)
    · refine .inr (.inr fun c hc => ?_)
      have : ¬ 128 ≤ c.toNat := fun h' => h ⟨by omega, c, hc, h'⟩
      omega

/-- One header: written without a fault, unless a string with an octet above 0x7f is to be written. -/
theorem encodeHeader_exact {ε : Type} (sgn : Bool) (t : DynTable) (hwf : t.WF) (h : Header) :
    (InStatic h ∨ h ∈ t.table → ∃ w, (encodeHeader sgn t h : Outcome ε _) = .ok (w, t)) ∧
    (¬ InStatic h → h ∉ t.table →
      (sgn = true ∧ (HighString h.value ∨
          (HighString h.name ∧ ¬ NameInStatic h.name ∧ ∀ x ∈ t.table, x.name ≠ h.name)) →
        (encodeHeader sgn t h : Outcome ε (Bytes × DynTable)) = .ub .index) ∧
      (¬ (sgn = true ∧ (HighString h.value ∨
          (HighString h.name ∧ ¬ NameInStatic h.name ∧ ∀ x ∈ t.table, x.name ≠ h.name))) →
        ∃ w t', (encodeHeader sgn t h : Outcome ε _) = .ok (w, t') ∧ t'.WF ∧
          t'.abs = t.abs.add h)) := by
  obtain ⟨t', hins, hwf', habs⟩ := DynTable.insert_spec (ε := ε) t h hwf
  have nmem : ∀ {i}, t.findName h.name = some i → ¬ ∀ x ∈ t.table, x.name ≠ h.name := by
    intro i hi
    rw [← (C12_find_name t h.name).2, hi]; simp
  have hval : ¬ (sgn = true ∧ HighString h.value) →
      ∃ w, (writeLengthAndString sgn h.value : Outcome ε Bytes) = .ok w := by
    intro hh
    refine writeLengthAndString_low _ _ ?_
    cases sgn
    · exact .inl rfl
    · exact .inr fun h' => hh ⟨rfl, h'⟩
  unfold encodeHeader
  split
  · rename_i i hf
    obtain ⟨h1, h2⟩ := findStatic_some hf
    exact ⟨fun _ => ⟨_, rfl⟩, fun hn => absurd ⟨i + 1, by omega, h2⟩ hn⟩
  · rename_i hns
    have hns := findStatic_none hns
    split
    · rename_i i hf
      have hm : h ∈ t.table := by
        refine Classical.byContradiction fun hn => ?_
        rw [(C12_find t h).2.mpr hn] at hf
        simp at hf
      exact ⟨fun _ => ⟨_, rfl⟩, fun _ hn => absurd hm hn⟩
    · rename_i hnf
      have hnf := (C12_find t h).2.mp hnf
      refine ⟨fun hc => absurd hc (by simp [hns, hnf]), fun _ _ => ?_⟩
      split
      · rename_i i hf
        have hnm : NameInStatic h.name := by
          obtain ⟨h1, h2⟩ := findStaticName_some hf
          obtain ⟨x, hx, hxn⟩ := Option.map_eq_some_iff.mp h2
          exact ⟨i + 1, x, by omega, hx, hxn⟩
        constructor
        · rintro ⟨rfl, hv | hn⟩
          · simp only [writeLengthAndString_high _ hv]; rfl
          · exact absurd hnm hn.2.1
        · intro hh
          obtain ⟨w, hw⟩ := hval fun h' => hh ⟨h'.1, .inl h'.2⟩
          exact ⟨_, t', by simp only [hw, hins, Outcome.bind_ok]; rfl, hwf', habs⟩
      · rename_i hnn
        have hnn := findStaticName_none hnn
        split
        · rename_i i hf
          constructor
          · rintro ⟨rfl, hv | hn⟩
            · simp only [writeLengthAndString_high _ hv]; rfl
            · exact absurd hn.2.2 (nmem hf)
          · intro hh
            obtain ⟨w, hw⟩ := hval fun h' => hh ⟨h'.1, .inl h'.2⟩
            exact ⟨_, t', by simp only [hw, hins, Outcome.bind_ok]; rfl, hwf', habs⟩
        · rename_i hdn
          have hdn := (C12_find_name t h.name).2.mp hdn
          constructor
          · rintro ⟨rfl, hv | hn⟩
            · by_cases hb : HighString h.name
              · simp only [writeLengthAndString_high _ hb]; rfl
              · obtain ⟨wn, hwn⟩ := writeLengthAndString_low (ε := ε) true h.name (.inr hb)
                simp only [hwn, writeLengthAndString_high _ hv, Outcome.bind_ok]; rfl
            · simp only [writeLengthAndString_high _ hn.1]; rfl
          · intro hh
            obtain ⟨w, hw⟩ := hval fun h' => hh ⟨h'.1, .inl h'.2⟩
            obtain ⟨wn, hwn⟩ := writeLengthAndString_low (ε := ε) sgn h.name (by
              cases sgn
              · exact .inl rfl
              · exact .inr fun h' => hh ⟨rfl, .inr ⟨h', hnn, hdn⟩⟩)
            exact ⟨_, t', by simp only [hwn, hw, hins, Outcome.bind_ok]; rfl, hwf', habs⟩

/-- C21, exactly: encoding a header list, from any table, has undefined behaviour if and only if plain
`char` is signed and some string of more than three octets that has to be written out has an octet of
0x80 or more. Otherwise it succeeds. -/
theorem C21_exact {ε : Type} (sgn : Bool) (hs : List Header) : ∀ t : DynTable, t.WF →
    (sgn = true ∧ WritesHigh t.abs hs →
      (encodeBlock sgn t hs : Outcome ε (Bytes × DynTable)) = .ub .index) ∧
    (¬ (sgn = true ∧ WritesHigh t.abs hs) →
      ∃ w t', (encodeBlock sgn t hs : Outcome ε (Bytes × DynTable)) = .ok (w, t')) := by
  induction hs with
  | nil =>
    intro t _
    exact ⟨fun h => absurd h.2 (by simp [WritesHigh]), fun _ => ⟨_, _, rfl⟩⟩
  | cons h hs ih =>
    intro t hwf
    obtain ⟨h1, h2⟩ := encodeHeader_exact (ε := ε) sgn t hwf h
    by_cases hin : InStatic h ∨ h ∈ t.table
    · obtain ⟨w, hw⟩ := h1 hin
      obtain ⟨g1, g2⟩ := ih t hwf
      have hiff : WritesHigh t.abs (h :: hs) ↔ WritesHigh t.abs hs := by
        constructor
        · rintro (⟨-, h'⟩ | ⟨hn, hm, -⟩)
          · exact h'
          · exact absurd hin (by
              rintro (h' | h')
              · exact hn h'
              · exact hm h')
        · exact fun h' => .inl ⟨hin, h'⟩
      rw [hiff]
      constructor
      · intro hh
        simp only [encodeBlock, hw, Outcome.bind_ok, g1 hh]; rfl
      · intro hh
        obtain ⟨ws, t', hws⟩ := g2 hh
        exact ⟨w ++ ws, t', by simp [encodeBlock, hw, hws]⟩
    · have hns : ¬ InStatic h := fun h' => hin (.inl h')
      have hnm : h ∉ t.table := fun h' => hin (.inr h')
      obtain ⟨k1, k2⟩ := h2 hns hnm
      by_cases hb : sgn = true ∧ (HighString h.value ∨
          (HighString h.name ∧ ¬ NameInStatic h.name ∧ ∀ x ∈ t.table, x.name ≠ h.name))
      · refine ⟨fun _ => by simp only [encodeBlock, k1 hb]; rfl, fun hh => absurd ⟨hb.1, ?_⟩ hh⟩
        rcases hb.2 with hv | hn
        · exact .inr ⟨hns, hnm, .inl hv⟩
        · exact .inr ⟨hns, hnm, .inr (.inl hn)⟩
      · obtain ⟨w, t1, hw, hwf1, habs⟩ := k2 hb
        obtain ⟨g1, g2⟩ := ih t1 hwf1
        rw [habs] at g1 g2
        have hiff : sgn = true ∧ WritesHigh t.abs (h :: hs) ↔ sgn = true ∧ WritesHigh (t.abs.add h) hs := by
          constructor
          · rintro ⟨hsg, ⟨hc, -⟩ | ⟨-, -, hv | hn | hr⟩⟩
            · exact absurd hc hin
            · exact absurd ⟨hsg, .inl hv⟩ hb
            · exact absurd ⟨hsg, .inr hn⟩ hb
            · exact ⟨hsg, hr⟩
          · exact fun h' => ⟨h'.1, .inr ⟨hns, hnm, .inr (.inr h'.2)⟩⟩
        rw [hiff]
        constructor
        · intro hh
          simp only [encodeBlock, hw, Outcome.bind_ok, g1 hh]; rfl
        · intro hh
          obtain ⟨ws, t', hws⟩ := g2 hh
          exact ⟨w ++ ws, t', by simp [encodeBlock, hw, hws]⟩

/-- A long value with an octet above 0x7f that is in the table already is not written out: fine. -/
example : ¬ WritesHigh { entries := [⟨b!"x-a", [0xc3, 0xa9, 0x6e, 0x65]⟩], max := 4096 }
    [⟨b!"x-a", [0xc3, 0xa9, 0x6e, 0x65]⟩] := by
  rintro (⟨-, h⟩ | ⟨-, h, -⟩)
  · exact h
  · exact h (by simp)

/-- And `server: étée` from an empty table has to be. -/
example : WritesHigh { entries := [], max := 4096 } [⟨b!"server", [0xc3, 0xa9, 0x74, 0xc3]⟩] := by
  refine .inr ⟨?_, by simp, .inl ⟨by decide, 0xc3, by simp, by decide⟩⟩
  rintro ⟨i, hi, hs⟩
  have key : ∀ i : Fin 62, staticEntry i.val ≠ some ⟨b!"server", [0xc3, 0xa9, 0x74, 0xc3]⟩ := by
    decide +kernel
  exact key ⟨i, by omega⟩ hs

end Ion
