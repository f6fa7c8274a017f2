import Verif.Lemmas.Frames

/-! # C22-C24: frame codecs -/

namespace Ion
open Spec

/-- C22: serialise then parse. -/
theorem C22_header_roundtrip (h : FrameHeader) (hl : h.length.toNat < 2 ^ 24)
    (hs : h.streamId.toNat < 2 ^ 31) (rest : Bytes) :
    (FrameHeader.parse (h.serialize ++ rest) : Outcome FrameError _) = .ok h := by
  obtain ⟨a, b, c, h1, ha, hb, hc⟩ := storeU24_eq h.length
  obtain ⟨d, e, f, g, h2, hd, he, hf, hg⟩ := storeU32_eq (h.streamId &&& 0x7FFFFFFF)
  simp only [FrameHeader.serialize, h1, h2, List.cons_append, List.nil_append, FrameHeader.parse]
  have e1 : loadU24 a b c = h.length := u32_ext (by rw [loadU24_toNat]; omega)
  have e2 : loadU32 d e f g &&& 0x7FFFFFFF = h.streamId := by
    rw [load_storeU32 _ h2]
    exact u32_ext (by rw [and_31, and_31]; omega)
  rw [e1, e2]

/-- C22: parse then serialise gives the nine octets back with the reserved bit cleared. -/
theorem C22_header_reserialize (a b c t f s0 s1 s2 s3 : UInt8) (rest : Bytes) :
    ∃ h, (FrameHeader.parse (a :: b :: c :: t :: f :: s0 :: s1 :: s2 :: s3 :: rest) :
        Outcome FrameError _) = .ok h ∧
      h.serialize = [a, b, c, t, f, s0 &&& 0x7F, s1, s2, s3] := by
  refine ⟨_, rfl, ?_⟩
  obtain ⟨x, y, z, h1, hx, hy, hz⟩ := storeU24_eq (loadU24 a b c)
  rw [loadU24_toNat] at hx hy hz
  have := a.toNat_lt
  have := b.toNat_lt
  have := c.toNat_lt
  simp only [FrameHeader.serialize]
  rw [h1, show ∀ v : UInt32, v &&& 0x7FFFFFFF &&& 0x7FFFFFFF = v &&& 0x7FFFFFFF from
    fun v => u32_ext (by rw [and_31, and_31]; omega), storeU32_load_31,
    u8_ext (a := x) (b := a) (by omega), u8_ext (a := y) (b := b) (by omega),
    u8_ext (a := z) (b := c) (by omega)]
  rfl

/-- C22: what is parsed is the RFC 9113 section 4.1 layout: for any octets that are a frame followed
by anything, the parsed header has the frame's length, type, flags and stream. -/
theorem C22_header_layout (f : Frame) (w rest : Bytes) (hw : FrameWire f w) :
    ∃ h, (FrameHeader.parse (w ++ rest) : Outcome FrameError _) = .ok h ∧
      h.length.toNat = f.payload.length ∧ h.type = f.type ∧ h.flags = f.flags ∧
      h.streamId.toNat = f.stream := by
  obtain ⟨len, sid, h1, h2, rfl, h3, h4⟩ := hw
  match len, h1, sid, h2 with
  | [a, b, c], _, [s0, s1, s2, s3], _ =>
    refine ⟨_, rfl, ?_, rfl, rfl, ?_⟩
    · rw [← h3, be_three]; exact loadU24_toNat a b c
    · rw [← h4, be_four, ← loadU32_toNat]; exact and_31 _

example : (FrameHeader.parse [0x00, 0x40, 0x01, 0x01, 0x25, 0x80, 0x00, 0x00, 0x03] :
    Outcome FrameError _) = .ok ⟨16385, 1, 0x25, 3⟩ ∧
    FrameWire ⟨1, 0x25, 3, [7, 8]⟩ [0x00, 0x00, 0x02, 0x01, 0x25, 0x80, 0x00, 0x00, 0x03, 7, 8] := by
  refine ⟨by decide +kernel, [0, 0, 2], [0x80, 0, 0, 3], rfl, rfl, rfl, by decide, by decide⟩

/-! ### C23 -/

/-- C23: settings. -/
theorem C23_setting_roundtrip (s : Setting) (rest : Bytes) :
    (Setting.parse (s.serialize ++ rest) : Outcome FrameError _) = .ok s ∧
    be (s.serialize.take 2) = s.identifier.toNat ∧ be (s.serialize.drop 2) = s.value.toNat := by
  obtain ⟨a, b, h1, ha, hb⟩ := storeU16_eq s.identifier
  obtain ⟨c, d, e, f, h2, -⟩ := storeU32_eq s.value
  have := s.identifier.toNat_lt
  refine ⟨?_, ?_, ?_⟩
  · simp only [Setting.serialize, h1, h2, List.cons_append, List.nil_append, Setting.parse]
    rw [load_storeU32 _ h2, u16_ext (a := loadU16 a b) (b := s.identifier)
      (by rw [loadU16_toNat]; omega)]
  · rw [← be_storeU16]; rfl
  · rw [← be_storeU32]; rfl

/-- C23: GOAWAY payloads; the reserved bit is dropped. -/
theorem C23_goaway_roundtrip (g : GoAway) (rest : Bytes) :
    (GoAway.parse (g.serialize ++ rest) : Outcome FrameError _) =
      .ok { g with lastStreamId := g.lastStreamId &&& 0x7FFFFFFF } ∧
    be (g.serialize.take 4) = g.lastStreamId.toNat % 2 ^ 31 ∧
    be (g.serialize.drop 4) = g.errorCode.toNat := by
  obtain ⟨a, b, c, d, h1, -⟩ := storeU32_eq (g.lastStreamId &&& 0x7FFFFFFF)
  obtain ⟨e, f, g', h, h2, -⟩ := storeU32_eq g.errorCode
  refine ⟨?_, ?_, ?_⟩
  · simp only [GoAway.serialize, h1, h2, List.cons_append, List.nil_append, GoAway.parse]
    rw [load_storeU32 _ h1, load_storeU32 _ h2, show g.lastStreamId &&& 0x7FFFFFFF &&& 0x7FFFFFFF =
      g.lastStreamId &&& 0x7FFFFFFF from u32_ext (by rw [and_31, and_31]; omega)]
  · rw [← and_31, ← be_storeU32]; rfl
  · rw [← be_storeU32]; rfl

/-- C23: window updates; the reserved bit is dropped. -/
theorem C23_window_update_roundtrip (w : WindowUpdate) (rest : Bytes) :
    (WindowUpdate.parse (w.serialize ++ rest) : Outcome FrameError _) =
      .ok ⟨w.increment &&& 0x7FFFFFFF⟩ ∧
    be w.serialize = w.increment.toNat % 2 ^ 31 := by
  obtain ⟨a, b, c, d, h1, -⟩ := storeU32_eq (w.increment &&& 0x7FFFFFFF)
  refine ⟨?_, ?_⟩
  · simp only [WindowUpdate.serialize, h1, List.cons_append, List.nil_append, WindowUpdate.parse]
    rw [load_storeU32 _ h1, show w.increment &&& 0x7FFFFFFF &&& 0x7FFFFFFF =
      w.increment &&& 0x7FFFFFFF from u32_ext (by rw [and_31, and_31]; omega)]
  · rw [← and_31, ← be_storeU32]; rfl

/-- C23: parsing arbitrary octets, whether or not they were written by ion: the fields are read
big-endian where RFC 9113 places them, and the reserved bit is dropped whatever its value. -/
theorem C23_parse_layout (p q rest : Bytes) (hp : p.length = 4) (hq : q.length = 4) :
    (∃ w, (WindowUpdate.parse (p ++ rest) : Outcome FrameError _) = .ok w ∧
      w.increment.toNat = be p % 2 ^ 31) ∧
    (∃ g, (GoAway.parse (p ++ (q ++ rest)) : Outcome FrameError _) = .ok g ∧
      g.lastStreamId.toNat = be p % 2 ^ 31 ∧ g.errorCode.toNat = be q) := by
  match p, hp, q, hq with
  | [a, b, c, d], _, [e, f, g, h], _ =>
    refine ⟨⟨_, rfl, ?_⟩, ⟨_, rfl, ?_, ?_⟩⟩
    · show (loadU32 a b c d &&& 0x7FFFFFFF).toNat = _
      rw [and_31, loadU32_toNat, be_four]
    · show (loadU32 a b c d &&& 0x7FFFFFFF).toNat = _
      rw [and_31, loadU32_toNat, be_four]
    · show (loadU32 e f g h).toNat = _
      rw [loadU32_toNat, be_four]

/-- For instance with the reserved bit set. -/
example : (WindowUpdate.parse [0x80, 0, 1, 0] : Outcome FrameError _) = .ok ⟨256⟩ ∧
    (GoAway.parse [0x80, 0, 0, 5, 0, 0, 0, 2] : Outcome FrameError _) = .ok ⟨5, 2⟩ := by
  decide +kernel

theorem readSettingsLoop_spec (n : Nat) : ∀ data : Bytes, data.length = 6 * n →
    ∃ l : List Setting, (FrameReader.readSettingsLoop n data : Outcome FrameError _) = .ok l ∧
      SettingsPayload (l.map fun s => (s.identifier.toNat, s.value.toNat)) data := by
  induction n with
  | zero =>
    intro data h
    have : data = [] := List.length_eq_zero_iff.mp (by omega)
    subst this
    exact ⟨[], rfl, .nil⟩
  | succ n ih =>
    intro data h
    match data, h with
    | a :: b :: c :: d :: e :: f :: rest, h =>
      obtain ⟨l, h1, h2⟩ := ih rest (by simp only [List.length_cons] at h; omega)
      refine ⟨⟨loadU16 a b, loadU32 c d e f⟩ :: l, ?_, ?_⟩
      · simp [FrameReader.readSettingsLoop, Setting.parse, h1]
      · exact .cons _ _ _ [a, b] [c, d, e, f] rest rfl rfl
          (by rw [be_two]; exact (loadU16_toNat a b).symm)
          (by rw [be_four]; exact (loadU32_toNat c d e f).symm) h2

/-- C23: a SETTINGS payload is accepted exactly when its length is a multiple of six, and then the
result is its entries in order; otherwise the error is `InvalidSettingsSize`. -/
theorem C23_read_settings (f : FrameReader) :
    (f.payload.length % 6 = 0 → ∃ l : List Setting, f.readSettings = .ok l ∧
      SettingsPayload (l.map fun s => (s.identifier.toNat, s.value.toNat)) f.payload) ∧
    (f.payload.length % 6 ≠ 0 → f.readSettings = .err .invalidSettingsSize) := by
  constructor
  · intro h
    obtain ⟨l, h1, h2⟩ := readSettingsLoop_spec (f.payload.length / 6) f.payload (by omega)
    exact ⟨l, by simp [FrameReader.readSettings, h, h1], h2⟩
  · intro h; simp [FrameReader.readSettings, h]

/-- A SETTINGS payload has at most one reading, so "its entries" is well defined. -/
theorem C23_settings_unique {l l' : List (Nat × Nat)} {w : Bytes} (h : SettingsPayload l w)
    (h' : SettingsPayload l' w) : l = l' := by
  induction h generalizing l' with
  | nil =>
    generalize hw : ([] : Bytes) = w at h'
    cases h' with
    | nil => rfl
    | cons i v rest wi wv ws hi hv ei ev hs =>
      have := congrArg List.length hw; simp [hi, hv] at this; omega
  | cons i v rest wi wv ws hi hv ei ev hs ih =>
    generalize hw : wi ++ (wv ++ ws) = x at h'
    cases h' with
    | nil => have := congrArg List.length hw; simp [hi, hv] at this
    | cons i' v' rest' wi' wv' ws' hi' hv' ei' ev' hs' =>
      obtain ⟨rfl, hw2⟩ := List.append_inj hw (by rw [hi, hi'])
      obtain ⟨rfl, rfl⟩ := List.append_inj hw2 (by rw [hv, hv'])
      rw [← ei, ← ev, ← ei', ← ev', ih hs']

example : (FrameReader.readSettings ⟨⟨12, 4, 0, 0⟩, [0, 3, 0, 0, 0, 100, 0, 4, 0, 0, 255, 255]⟩) =
    .ok [⟨3, 100⟩, ⟨4, 65535⟩] ∧
    (FrameReader.readSettings ⟨⟨7, 4, 0, 0⟩, [0, 3, 0, 0, 0, 100, 0]⟩) = .err .invalidSettingsSize := by
  decide +kernel

/-! ### C24 -/

/-- C24, refuted: a HEADERS frame with the PRIORITY flag and an empty payload, and a WINDOW_UPDATE
frame with a payload of three octets, are read out of bounds. -/
theorem C24_out_of_bounds :
    (FrameReader.headersBlock ⟨⟨0, 1, 0x25, 1⟩, []⟩ : Outcome FrameError Bytes) = .ub .subspan ∧
    (FrameReader.readWindowUpdate ⟨⟨3, 8, 0, 0⟩, [0, 0, 1]⟩ : Outcome FrameError _) = .ub .subspan := by
  decide +kernel

/-- C24, exactly which reads are in bounds: SETTINGS always; WINDOW_UPDATE from four octets; a header
block always without the PRIORITY flag, and from five octets with it, and then it is the payload, or
the payload without its first five octets. Missing from C24: the frames shorter than that. -/
theorem C24_in_bounds_partial (f : FrameReader) :
    (∀ u, f.readSettings ≠ .ub u) ∧
    ((∃ w, (f.readWindowUpdate : Outcome FrameError _) = .ok w) ↔ 4 ≤ f.payload.length) ∧
    ((f.readWindowUpdate : Outcome FrameError _) = .ub .subspan ↔ f.payload.length < 4) ∧
    (f.header.flags &&& 0x20 = 0 → (f.headersBlock : Outcome FrameError _) = .ok f.payload) ∧
    (f.header.flags &&& 0x20 ≠ 0 → ∀ p rest, f.payload = p ++ rest → p.length = 5 →
      (f.headersBlock : Outcome FrameError _) = .ok rest) ∧
    ((f.headersBlock : Outcome FrameError _) = .ub .subspan ↔
      f.header.flags &&& 0x20 ≠ 0 ∧ f.payload.length < 5) := by
  have hw : (∃ w, (f.readWindowUpdate : Outcome FrameError _) = .ok w) ∧ 4 ≤ f.payload.length ∨
      (f.readWindowUpdate : Outcome FrameError _) = .ub .subspan ∧ f.payload.length < 4 := by
    unfold FrameReader.readWindowUpdate WindowUpdate.parse
    split
    · left; exact ⟨⟨_, rfl⟩, by rename_i h; rw [h]; simp⟩
    · rename_i h
      right
      refine ⟨rfl, ?_⟩
      rcases Nat.lt_or_ge f.payload.length 4 with hl | hl
      · exact hl
      · match hp : f.payload, hl with
        | a :: b :: c :: d :: rest, _ => exact absurd hp (h a b c d rest)
  refine ⟨?_, ?_, ?_, ?_, ?_, ?_⟩
  · intro u hu
    rcases Decidable.em (f.payload.length % 6 = 0) with h | h
    · obtain ⟨l, h1, -⟩ := (C23_read_settings f).1 h
      rw [h1] at hu; cases hu
    · rw [(C23_read_settings f).2 h] at hu; cases hu
  · rcases hw with ⟨h1, h2⟩ | ⟨h1, h2⟩
    · exact ⟨fun _ => h2, fun _ => h1⟩
    · constructor
      · rintro ⟨w, h⟩; rw [h1] at h; cases h
      · omega
  · rcases hw with ⟨⟨w, h1⟩, h2⟩ | ⟨h1, h2⟩
    · rw [h1]; constructor
      · intro h; cases h
      · omega
    · exact ⟨fun _ => h2, fun _ => h1⟩
  · intro h; simp [FrameReader.headersBlock, FrameReader.priority, FrameReader.hasFlag, h]
  · intro h p rest hp hl
    simp [FrameReader.headersBlock, FrameReader.priority, FrameReader.hasFlag, h, hp, ← hl]
  · by_cases h : f.header.flags &&& 0x20 = 0
    · simp [FrameReader.headersBlock, FrameReader.priority, FrameReader.hasFlag, h]
    · by_cases hl : f.payload.length < 5
      · simp [FrameReader.headersBlock, FrameReader.priority, FrameReader.hasFlag, h, hl]
      · simp [FrameReader.headersBlock, FrameReader.priority, FrameReader.hasFlag, h, hl]

end Ion
