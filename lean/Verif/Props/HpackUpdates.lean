import Verif.Props.HeaderDecoder

/-! # Dynamic table size updates (C112) -/

namespace Ion
open Spec

namespace Spec

/-- RFC 7541 sections 4.2 and 6.3: size updates come before everything else in a block, and none is above the
limit set by the protocol (for HTTP/2 the SETTINGS_HEADER_TABLE_SIZE the decoder announced, 4096 if it announced
none). -/
def UpdatesAllowed (limit : Nat) (reps : List Rep) : Prop :=
  (∀ n, Rep.sizeUpdate n ∈ reps → n ≤ limit) ∧
    ∀ pre n post, reps = pre ++ .sizeUpdate n :: post → ∀ r ∈ pre, ∃ m, r = .sizeUpdate m

end Spec

namespace Props

/-- C112 is false: a new decoder accepts a block that is valid except that an update follows a header field, and
one whose update is to 65536, sixteen times what the server allows its clients. -/
theorem C112_refuted :
    (∃ reps w hs t', BlockWire Dialect.rfc reps w ∧ decodeBlock {} w = .ok hs t' ∧
      (∃ pre n post r, reps = pre ++ .sizeUpdate n :: post ∧ n ≤ 4096 ∧ r ∈ pre ∧ ∀ m, r ≠ .sizeUpdate m) ∧
      ¬ UpdatesAllowed 4096 reps) ∧
    (∃ n w t', 4096 < n ∧ BlockWire Dialect.rfc [.sizeUpdate n] w ∧ decodeBlock {} w = .ok [] t' ∧
      t'.abs.max = n ∧ ¬ UpdatesAllowed 4096 [.sizeUpdate n]) := by
  constructor
  · refine ⟨[.indexed 2, .sizeUpdate 0], [0x82, 0x20], [⟨b!":method", b!"GET"⟩], { maxTableSize := 0 },
      ?_, by decide +kernel, ⟨[.indexed 2], 0, [], .indexed 2, rfl, by decide, by simp, by intro m h; cases h⟩, ?_⟩
    · exact .cons _ _ [0x82] [0x20] (.indexed 2 _ (.short _ (by decide) (by decide)))
        (.cons _ _ [0x20] [] (.sizeUpdate 0 _ (.short _ (by decide) (by decide))) .nil)
    · intro h
      obtain ⟨m, hm⟩ := h.2 [.indexed 2] 0 [] rfl (.indexed 2) (by simp)
      cases hm
  · refine ⟨65536, [0x3f, 0xe1, 0xff, 0x03], {}, by decide, ?_, by decide +kernel, rfl, ?_⟩
    · exact .cons _ _ [0x3f, 0xe1, 0xff, 0x03] [] (.sizeUpdate _ _ (.long _ _ (by decide)
        (.more _ _ (by decide) (.more _ _ (by decide) (.last _ (by decide)))) (by decide))) .nil
    · intro h
      have := h.1 65536 (by simp)
      omega

theorem execReps_updates {limit : Nat} : ∀ {reps : List Rep} {T T' : Table} {hs : List Header},
    execReps limit T reps = some (hs, T') → ∀ n, Rep.sizeUpdate n ∈ reps → n ≤ limit
  | [], _, _, _, _, _, h => by simp at h
  | r :: rs, T, T', hs, he, n, h => by
    rw [execReps] at he
    rcases h1 : execRep limit T r with _ | ⟨hs1, T1⟩
    · simp [h1] at he
    · simp only [h1] at he
      rcases h2 : execReps limit T1 rs with _ | ⟨hs2, T2⟩
      · simp [h2] at he
      · rcases List.mem_cons.mp h with rfl | h
        · rw [execRep] at h1
          by_cases hn : n ≤ limit
          · exact hn
          · rw [if_neg hn] at h1; cases h1
        · exact execReps_updates h2 n h

/-- C112, what holds: no update above 65536 is in an accepted block, wherever it stands; one that follows any
accepted beginning is a protocol error, and leaves the table as that beginning left it. -/
theorem C112_limit_partial (t : DynTable) (hwf : t.WF) :
    (∀ data hs t', decodeBlock t data = .ok hs t' → ∃ reps, BlockWire Dialect.lenient reps data ∧
      execReps 65536 t.abs reps = some (hs, t'.abs) ∧ ∀ n, Rep.sizeUpdate n ∈ reps → n ≤ 65536) ∧
    (∀ reps w hs T, BlockWire Dialect.lenient reps w → execReps 65536 t.abs reps = some (hs, T) →
      ∀ n wn rest, Dialect.lenient.int 5 1 n wn → 65536 < n →
        ∃ t', decodeBlock t (w ++ (wn ++ rest)) = .err .protocolError t' ∧ t'.abs = T) := by
  constructor
  · intro data hs t' h
    obtain ⟨reps, h1, h2, -⟩ := C13_decode_sound t t' hwf data hs h
    exact ⟨reps, h1, h2, execReps_updates h2⟩
  · intro reps w hs T hw he n wn rest hi hn
    obtain ⟨fuel, t', h1, h2, h3, h4⟩ := decodeLoop_prefix reps _ t w (wn ++ rest) [] hs T hwf
      (Nat.le_refl _) hw he
    refine ⟨t', ?_, h4⟩
    unfold decodeBlock
    rw [h1]
    obtain ⟨b, w', rfl⟩ := int_ne_nil hi.1
    have hf := intRep_first hi.1
    obtain ⟨hd, hv⟩ := decodeInt_of_int (p := 5) (by decide) (by decide) hi rest
    cases fuel with
    | zero => simp at h2
    | succ fuel =>
      have hfield : decodeField t' (b :: (w' ++ rest)) b = .err .protocolError := by
        simp only [List.cons_append] at hd
        simp only [decodeField, fieldType_eq]
        rw [if_neg (by omega), if_neg (by omega), if_pos (by omega)]
        simp only [decodeSizeUpdate, hd]
        rw [if_pos (by rw [hv]; exact hn)]
        rfl
      simp only [List.cons_append, decodeLoop, hfield]

/-- After `:method: GET`, an update to 65537. -/
example : BlockWire Dialect.lenient [.indexed 2] [0x82] ∧
    execReps 65536 (DynTable.abs {}) [.indexed 2] = some ([⟨b!":method", b!"GET"⟩], DynTable.abs {}) ∧
    Dialect.lenient.int 5 1 65537 [0x3f, 0xe2, 0xff, 0x03] := by
  refine ⟨.cons _ _ [0x82] [] (.indexed 2 _ ⟨.short _ (by decide) (by decide), by decide, by decide⟩) .nil,
    by decide +kernel, .long _ _ (by decide)
      (.more _ _ (by decide) (.more _ _ (by decide) (.last _ (by decide)))) (by decide), by decide, by decide⟩

end Props
end Ion
