import Verif.Props.FrameLog
import Verif.Props.LogReading
import Verif.Props.ConnServe
import Verif.Props.DynamicTable
import Verif.Props.ConnTotal

/-!
# What the log says about the dynamic tables (C167)

At level debug every insertion leaves a line, and every HEADERS frame leaves the contents of both tables. C167 asks
whether the sizes given there are the sizes of the tables.
-/

namespace Ion

namespace Spec

/-- After an insertion into a table the log gives the size of the table and its limit. -/
def ToldSize : Prop :=
  ∀ (t t' : DynTable) (h : Header), t.WF → (t.insert h : Outcome Stop DynTable) = .ok t' → t'.table ≠ [] →
    ∃ d m, IsDecimal (sizes t'.table) d ∧ IsDecimal t'.maxTableSize m ∧
      t.insertLines h = [(.debug, b!"dynamic table: current sz: " ++ d ++ b!", max: " ++ m)]

/-- The contents of a table as they are logged: its size and limit, then one line for each entry, the newest first, with
its place, counted from zero. -/
def Listing (max : Nat) (entries : List Header) (lines : List Line) : Prop :=
  ∃ d m rest, IsDecimal (sizes entries) d ∧ IsDecimal max m ∧
    lines = (.debug, b!"dynamic table (size: " ++ d ++ b!", max: " ++ m ++ b!"):") :: rest ∧
    rest.length = entries.length ∧
    ∀ i h, entries[i]? = some h → ∃ n, IsDecimal i n ∧
      rest[i]? = some (.debug, b!" - (" ++ n ++ b!") " ++ h.name ++ b!": " ++ h.value)

/-- The contents of both tables, that of the decoder first. -/
def Listings (dec enc : DynTable) (lines : List Line) : Prop :=
  ∃ a b, Listing dec.maxTableSize dec.table a ∧ Listing enc.maxTableSize enc.table b ∧
    lines = (.debug, b!"decoder dynamic table:") :: a ++ (.debug, b!"encoder dynamic table:") :: b

end Spec

open Spec

/-! ## Insertions -/

/-- What is logged for an insertion: whether the entry was too large for the table, which is then empty; else the size
of the entry, which now comes first. -/
theorem C167_entry_partial {t t' : DynTable} {h : Header} (hwf : t.WF) (hi : (t.insert h : Outcome Stop DynTable) = .ok t') :
    ∃ d m, IsDecimal (h.name.length + h.value.length + 32) d ∧ IsDecimal t'.maxTableSize m ∧
      ((t'.maxTableSize < h.name.length + h.value.length + 32 ∧ t'.table = [] ∧
        t.insertLines h = [(.debug, b!"dynamic table: entry too big (sz: " ++ d ++ b!", max: " ++ m ++ b!"), table wiped")]) ∨
       (t'.table.head? = some h ∧ t.insertLines h = [(.debug, b!"dynamic table: current sz: " ++ d ++ b!", max: " ++ m)])) := by
  obtain ⟨t1, h1, h2, h3⟩ := DynTable.insert_spec (ε := Stop) t h hwf
  obtain rfl : t1 = t' := by rw [hi] at h1; simpa using h1.symm
  have hm : t1.maxTableSize = t.maxTableSize := congrArg Table.max h3
  have ht : t1.table = fit t.maxTableSize (h :: t.table) := congrArg Table.entries h3
  refine ⟨decimal (entrySize h), decimal t1.maxTableSize, Sim.decimal_spec _, Sim.decimal_spec _, ?_⟩
  rw [DynTable.insertLines, hm]
  by_cases hb : entrySize h > t.maxTableSize
  · refine .inl ⟨hb, ?_, ?_⟩
    · rw [ht, fit_cons_neg (by simpa [DynTable.entrySize_eq] using hb)]
    · rw [if_pos hb]
  · refine .inr ⟨?_, ?_⟩
    · rw [ht, fit_cons_pos (by simpa [DynTable.entrySize_eq] using hb)]
      rfl
    · rw [if_neg hb]

/-- C167, where it holds: the size given is that of the table exactly if the table holds nothing but the new entry. -/
theorem C167_alone_partial {t t' : DynTable} {h : Header} (hwf : t.WF) (hi : (t.insert h : Outcome Stop DynTable) = .ok t')
    {d m : Bytes} (hl : t.insertLines h = [(.debug, b!"dynamic table: current sz: " ++ d ++ b!", max: " ++ m)])
    (hd : IsDecimal (h.name.length + h.value.length + 32) d) : IsDecimal (sizes t'.table) d ↔ t'.table = [h] := by
  have hne : t'.table.head? = some h := by
    obtain ⟨d', m', -, -, ⟨-, -, hc⟩ | ⟨hh, -⟩⟩ := C167_entry_partial hwf hi
    · rw [hl] at hc
      simp only [List.cons.injEq, Prod.mk.injEq, and_true, true_and] at hc
      have := congrArg (List.drop 15) hc
      simp at this
    · exact hh
  cases ht : t'.table with
  | nil => rw [ht] at hne; cases hne
  | cons x xs =>
    rw [ht] at hne
    obtain rfl : x = h := by simpa using hne
    constructor
    · intro hs
      have e := Props.isDecimal_value hs hd
      cases xs with
      | nil => rfl
      | cons y ys =>
        simp only [sizes, List.map_cons, List.sum_cons, size] at e
        omega
    · intro hs
      rw [hs]
      exact hd

/-- C167, refuted: the size given after an insertion is that of the entry, not that of the table. -/
theorem C167_refuted : ¬ ToldSize := by
  intro h
  obtain ⟨d, m, hd, -, hl⟩ := h { table := [⟨b!"a", b!"b"⟩], tableSize := 34 }
    { table := [⟨b!"c", b!"d"⟩, ⟨b!"a", b!"b"⟩], tableSize := 68 } ⟨b!"c", b!"d"⟩ ⟨by decide, by decide⟩ (by decide +kernel)
    (by decide)
  have hwf : ({ table := [⟨b!"a", b!"b"⟩], tableSize := 34 } : DynTable).WF := ⟨by decide, by decide⟩
  obtain ⟨d', m', hd', -, ⟨-, hc, -⟩ | ⟨-, hl'⟩⟩ := C167_entry_partial (t := { table := [⟨b!"a", b!"b"⟩], tableSize := 34 })
    (t' := { table := [⟨b!"c", b!"d"⟩, ⟨b!"a", b!"b"⟩], tableSize := 68 }) (h := ⟨b!"c", b!"d"⟩) hwf (by decide +kernel)
  · revert hc; decide
  · rw [show d' = b!"34" from Sim.decimal_unique _ hd' (by unfold IsDecimal; decide +kernel)] at hl'
    rw [show d = b!"68" from Sim.decimal_unique _ hd (by unfold IsDecimal; decide +kernel), hl'] at hl
    simp at hl

/-- An entry that is alone in the table, and one that is too large for it. -/
example : (({ maxTableSize := 60 } : DynTable).insert ⟨b!"a", b!"b"⟩ : Outcome Stop DynTable) =
      .ok { table := [⟨b!"a", b!"b"⟩], tableSize := 34, maxTableSize := 60 } ∧
    ({ maxTableSize := 60 } : DynTable).insertLines ⟨b!"a", b!"b"⟩ = [(.debug, b!"dynamic table: current sz: 34, max: 60")] ∧
    ({ maxTableSize := 33 } : DynTable).insertLines ⟨b!"a", b!"b"⟩ =
      [(.debug, b!"dynamic table: entry too big (sz: 34, max: 33), table wiped")] := by
  decide +kernel

/-! ## Contents -/

theorem entryLines_at : ∀ (hs : List Header) (pos : Nat), (entryLines pos hs).length = hs.length ∧
    ∀ i h, hs[i]? = some h → (entryLines pos hs)[i]? = some (.debug, b!" - (" ++ decimal (pos + i) ++ b!") " ++ h.name ++
      b!": " ++ h.value)
  | [], _ => ⟨rfl, fun _ _ hc => by simp at hc⟩
  | x :: hs, pos => by
    obtain ⟨h1, h2⟩ := entryLines_at hs (pos + 1)
    refine ⟨by simp [entryLines, h1], ?_⟩
    intro i h hh
    cases i with
    | zero =>
      obtain rfl : x = h := by simpa using hh
      rfl
    | succ i =>
      have := h2 i h (by simpa using hh)
      rw [show pos + 1 + i = pos + (i + 1) by omega] at this
      simpa [entryLines] using this

/-- C167: where the contents of a table are logged, the size is that of the table, and the entries are all there. -/
theorem C167_listing {t : DynTable} (hwf : t.WF) : Listing t.maxTableSize t.table t.contentLines := by
  obtain ⟨h1, h2⟩ := entryLines_at t.table 0
  refine ⟨decimal t.tableSize, decimal t.maxTableSize, entryLines 0 t.table, ?_, Sim.decimal_spec _, rfl, h1, ?_⟩
  · rw [← hwf.1]; exact Sim.decimal_spec _
  · intro i h hh
    refine ⟨decimal i, Sim.decimal_spec i, ?_⟩
    have := h2 i h hh
    rwa [Nat.zero_add] at this

theorem tablesLines_listings {dec enc : DynTable} (hd : dec.WF) (he : enc.WF) : Listings dec enc (tablesLines dec enc) :=
  ⟨_, _, C167_listing hd, C167_listing he, rfl⟩

namespace Sim
variable {W : Type}

theorem suffix_in {x y z : List Line} (h : x <:+ y) : x <:+ z ++ y := h.trans (List.suffix_append _ _)

/-- C167: a HEADERS frame on a connection in use leaves the contents of both tables as they were before it. -/
theorem C167_before {cfg : Cfg W} (app : AppLog W) {c : Bool} {w : W} {now : Nat} {s : Sim W}
    (h : Steps cfg c (init w now) s) (hst : s.st = .awaitingFrame) (f : FrameReader) (ht : f.header.type = 1) :
    ∃ x y lines rest, s.frameLines cfg app f = x :: y :: (lines ++ rest) ∧ Listings s.dec s.enc lines := by
  obtain ⟨hd, he⟩ := h.tables.resolve_left (by rw [hst]; rintro (h | h | h) <;> cases h)
  rw [frameLines, if_neg (by rw [ht]; decide), if_pos ht]
  exact ⟨_, _, _, _, rfl, tablesLines_listings hd he⟩

/-- C167: one that is answered leaves them also as they are after it, just before the line about the response. -/
theorem C167_after {cfg : Cfg W} (app : AppLog W) {c : Bool} {w : W} {now : Nat} {s s' : Sim W}
    (h : Steps cfg c (init w now) s) (hst : s.st = .awaitingFrame) {f : FrameReader}
    (hp : s.processFrame cfg f = .ok s') {new : List Ev} (hn : s'.trace = s.trace ++ new) {hs : List Header}
    {status : UInt16} {size : Nat} (hl : logs new = [(hs, status, size)]) :
    ∃ pre lines d post, s.frameLines cfg app f = pre ++ (lines ++ (.info, d ++ b!" status code sent w/headers") :: post) ∧
      Listings s'.dec s'.enc lines ∧ IsDecimal status.toNat d := by
  obtain ⟨hd, he⟩ := h.tables.resolve_left (by rw [hst]; rintro (h | h | h) <;> cases h)
  cases processFrame_ok hp with
  | request data hs' dec' resp evs w' block enc' ht hb hdd hr he' =>
    have hl2 : logs evs = [] := by cases hr <;> rfl
    have e2 : logs (answerEvs evs f.header.streamId hs' resp block) = [(hs', resp.status, resp.body.length)] := by
      simp [answerEvs, logs_append, logs, hl2]
    rw [← List.append_cancel_left hn, e2] at hl
    obtain ⟨rfl, rfl, rfl⟩ : hs' = hs ∧ resp.status = status ∧ resp.body.length = size := by simpa using hl
    obtain ⟨-, -, -, hwf⟩ := C13_decode_sound _ _ hd _ _ hdd
    have hwe : enc'.WF := encodeBlock_wf he he'
    have hr' := hr.processRequest { s with dec := dec' } rfl
    rw [frameLines, if_neg (by rw [ht]; decide), if_pos ht, hb]
    simp only [hdd, answerLines, hr', he']
    obtain ⟨pre, hpre⟩ := suffix_in (suffix_in (suffix_in (suffix_in (List.suffix_refl _))))
    exact ⟨pre, tablesLines dec' enc', decimal resp.status.toNat, _, hpre.symm, tablesLines_listings hwf hwe, decimal_spec _⟩
  | settings l ht hf hl' => rw [← List.append_cancel_left (as := s.trace) hn, logs_chunks] at hl; cases hl
  | _ => rw [List.self_eq_append_right.mp hn] at hl; cases hl

/-- HEADERS for `GET /` with two fields that are to be remembered. -/
def exTwo : FrameReader :=
  ⟨⟨12, 1, 5, 1⟩, [0x82, 0x84, 0x40, 1, 97, 1, 98, 0x40, 1, 99, 1, 100]⟩

set_option maxRecDepth 100000 in
/-- What the log says about the decoder's table: twice a "current" size of 34, then, truly, a size of 68. -/
example :
    ((exWaiting.frameLines exCfg silent exTwo).filter fun l => b!"dynamic table".isPrefixOf l.2).map Prod.snd =
      [b!"dynamic table (size: 0, max: 65536):", b!"dynamic table (size: 0, max: 65536):",
       b!"dynamic table: current sz: 34, max: 65536", b!"dynamic table: current sz: 34, max: 65536",
       b!"dynamic table: current sz: 47, max: 65536", b!"dynamic table: current sz: 41, max: 65536",
       b!"dynamic table: current sz: 47, max: 65536",
       b!"dynamic table (size: 68, max: 65536):", b!"dynamic table (size: 135, max: 65536):"] ∧
    ((exWaiting.frameLines exCfg silent exTwo).filter fun l => b!" - (".isPrefixOf l.2).map Prod.snd =
      [b!" - (0) c: d", b!" - (1) a: b", b!" - (0) x-powered-by: ion", b!" - (1) server: ion", b!" - (2) content-length: 2"] := by
  decide +kernel

end Sim
end Ion
