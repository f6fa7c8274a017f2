import Verif.Props.HeaderEncoderExact
import Verif.Props.AppClient
import Verif.Props.ConnCost

/-! # C156: how large header blocks become -/

namespace Ion.Spec

/-- Octets of the continuation of an integer (RFC 7541 section 5.1): seven bits each. -/
def contLen (m : Nat) : Nat := if m < 128 then 1 else 1 + contLen (m / 128)

/-- Octets of a string literal of `n` octets: its length as an integer with a prefix of seven bits, and itself
(sections 5.1 and 5.2). -/
def literalLen (n : Nat) : Nat := (if n < 127 then 1 else 1 + contLen (n - 127)) + n

/-- Octets of a field that is written without any compression: one for the kind of representation, and two string
literals as they are (section 6.2). -/
def plainSize (h : Header) : Nat := 1 + literalLen h.name.length + literalLen h.value.length

/-- Octets of a string in the Huffman code, with the padding (section 5.2). -/
def codedLen (s : Bytes) : Nat := ((huffBits s).length + 7) / 8

/-- The string has only octets with codes of at most eight bits. -/
def Light (s : Bytes) : Prop := ∀ c ∈ s, (huffCode c).length ≤ 8

end Ion.Spec

namespace Ion
open Spec

/-! ### Proof -/

theorem contLen_mono (m : Nat) : ∀ n, m ≤ n → contLen m ≤ contLen n := by
  induction m using Nat.strongRecOn with
  | ind m ih =>
    intro n h
    rw [contLen.eq_def m, contLen.eq_def n]
    by_cases h1 : m < 128
    · rw [if_pos h1]; split <;> omega
    · have := ih (m / 128) (by omega) (n / 128) (Nat.div_le_div_right h)
      rw [if_neg h1, if_neg (by omega)]
      omega

theorem literalLen_mono {m n : Nat} (h : m ≤ n) : literalLen m ≤ literalLen n := by
  unfold literalLen
  have := contLen_mono (m - 127) (n - 127) (by omega)
  split <;> split <;> omega

theorem encodeIntLoop_len (k : Nat) : ∀ x : UInt32, x.toNat < k → (encodeIntLoop x).length = contLen x.toNat := by
  induction k with
  | zero => intro x hx; omega
  | succ k ih =>
    intro x hx
    rw [encodeIntLoop, contLen]
    by_cases h : x ≥ 0x80
    · have hx' : 128 ≤ x.toNat := by simpa [UInt32.le_iff_toNat_le] using h
      have hs : (x >>> 7).toNat = x.toNat / 128 := by
        simp [UInt32.toNat_shiftRight, Nat.shiftRight_eq_div_pow]
      rw [dif_pos h, if_neg (by omega), List.length_cons, ih (x >>> 7) (by omega), hs]
      omega
    · have hx' : x.toNat < 128 := by simpa [UInt32.le_iff_toNat_le] using h
      rw [dif_neg h, if_pos hx']
      rfl

theorem encodeLength_len (n : Nat) : (encodeLength n).length + n % 2 ^ 32 = literalLen (n % 2 ^ 32) := by
  unfold encodeLength encodeInt literalLen
  have hn : (UInt32.ofNat n).toNat = n % 2 ^ 32 := by simp
  have hm : (UInt32.ofNat (2 ^ (7 : UInt8).toNat - 1)) = 127 := by decide
  rw [if_neg (by decide)]
  simp only [hm]
  by_cases h : UInt32.ofNat n < 127
  · have : n % 2 ^ 32 < 127 := by rw [← hn]; simpa [UInt32.lt_iff_toNat_lt] using h
    rw [if_pos h, if_pos this]
    rfl
  · have h' : 127 ≤ n % 2 ^ 32 := by
      rw [← hn]
      have : ¬ (UInt32.ofNat n).toNat < 127 := by simpa [UInt32.lt_iff_toNat_lt] using h
      omega
    rw [if_neg h, if_neg (by omega)]
    have hsub : (UInt32.ofNat n - 127).toNat = n % 2 ^ 32 - 127 := by
      rw [UInt32.toNat_sub_of_le _ _ (by rw [UInt32.le_iff_toNat_le, hn]; simpa using h'), hn]
      rfl
    simp only [Option.getD_some, List.length_cons]
    rw [encodeIntLoop_len _ _ (Nat.lt_succ_self _), hsub]
    omega

theorem encodeLength_le (n : Nat) : (encodeLength n).length + n ≤ literalLen n := by
  have h := encodeLength_len n
  have hle : n % 2 ^ 32 ≤ n := Nat.mod_le _ _
  have hm := literalLen_mono hle
  by_cases hlt : n < 2 ^ 32
  · rw [Nat.mod_eq_of_lt hlt] at h; omega
  · unfold literalLen at *
    have hc := contLen_mono (n % 2 ^ 32 - 127) (n - 127) (by omega)
    rw [if_neg (by omega : ¬ n < 127)]
    split at h <;> omega

theorem orFirst_length (f : UInt8) (b : Bytes) : (orFirst f b).length = b.length := by
  cases b <;> rfl

/-- A string literal as it is written: as it is up to three octets, otherwise in the Huffman code. -/
theorem writeLengthAndString_len {ε : Type} {sgn : Bool} {s w : Bytes}
    (h : (writeLengthAndString sgn s : Outcome ε Bytes) = .ok w) :
    w.length ≤ literalLen (if s.length ≤ 3 then s.length else codedLen s) ∧
    ((if s.length ≤ 3 then s.length else codedLen s) < 2 ^ 32 →
      w.length = literalLen (if s.length ≤ 3 then s.length else codedLen s)) := by
  have key : ∀ n, (encodeLength n).length + n ≤ literalLen n ∧
      (n < 2 ^ 32 → (encodeLength n).length + n = literalLen n) := by
    intro n
    refine ⟨encodeLength_le n, fun hn => ?_⟩
    have := encodeLength_len n
    rwa [Nat.mod_eq_of_lt hn] at this
  by_cases hl : s.length ≤ 3
  · unfold writeLengthAndString at h
    rw [if_neg (by simpa [maxPlainTextStringLength] using hl)] at h
    simp only [Outcome.ok.injEq] at h
    rw [if_pos hl, ← h, List.length_append]
    exact key s.length
  · have hs : sgn = false ∨ ∀ c ∈ s, c.toNat < 128 := by
      cases sgn with
      | false => exact .inl rfl
      | true =>
        refine .inr fun c hc => ?_
        by_cases h128 : c.toNat < 128
        · exact h128
        · rw [writeLengthAndString_high s ⟨by omega, c, hc, by omega⟩] at h
          cases h
    obtain ⟨bw, h1, h2, h3⟩ := huffmanWrite_spec (ε := ε) sgn s hs {} BitWriter.inv_empty
    obtain ⟨pad, hp1, -, hp3⟩ := bw.finalize_spec h2
    have hb : bw.finalize.length = codedLen s := by
      have e := congrArg List.length hp1
      rw [h3] at e
      simp only [bitsOf_length, List.length_append] at e
      have e0 : (({} : BitWriter).bits).length = 0 := by decide
      unfold codedLen
      omega
    unfold writeLengthAndString at h
    rw [if_pos (by simp [maxPlainTextStringLength]; omega), h1] at h
    simp only [Outcome.bind_ok, Outcome.ok.injEq] at h
    rw [if_neg hl, ← h, List.length_append, orFirst_length, hb]
    exact key _

theorem huffBits_length_le (k : Nat) (s : Bytes) (h : ∀ c ∈ s, (huffCode c).length ≤ k) :
    (huffBits s).length ≤ k * s.length := by
  unfold huffBits
  induction s with
  | nil => simp
  | cons c s ih =>
    have h1 := h c (by simp)
    have h2 := ih fun c hc => h c (by simp [hc])
    rw [List.flatMap_cons, List.length_append, List.length_cons, Nat.mul_succ]
    omega

theorem huffCode_length (c : UInt8) : (huffCode c).length ≤ 30 := by
  revert c; decide +kernel

/-- What a string takes: no more than as it is, if its octets have short codes; at most as much as one four times as
long in any case. -/
theorem written_le {ε : Type} {sgn : Bool} {s w : Bytes}
    (h : (writeLengthAndString sgn s : Outcome ε Bytes) = .ok w) :
    (s.length ≤ 3 ∨ Light s → w.length ≤ literalLen s.length) ∧ w.length ≤ literalLen (4 * s.length) := by
  have hw := (writeLengthAndString_len h).1
  have h30 := huffBits_length_le 30 s (fun c _ => huffCode_length c)
  constructor
  · intro hl
    refine Nat.le_trans hw (literalLen_mono ?_)
    by_cases h3 : s.length ≤ 3
    · rw [if_pos h3]; omega
    · rw [if_neg h3]
      have := huffBits_length_le 8 s (hl.resolve_left h3)
      unfold codedLen
      omega
  · refine Nat.le_trans hw (literalLen_mono ?_)
    unfold codedLen
    split <;> omega

theorem literalLen_pos (n : Nat) : 1 ≤ literalLen n := by
  unfold literalLen; split <;> omega

theorem encodeHeader_le {ε : Type} {sgn : Bool} {t t' : DynTable} {h : Header} {w : Bytes} {A B : Nat}
    (he : (encodeHeader sgn t h : Outcome ε (Bytes × DynTable)) = .ok (w, t'))
    (hA : ∀ v, (writeLengthAndString sgn h.name : Outcome ε Bytes) = .ok v → v.length ≤ A)
    (hB : ∀ v, (writeLengthAndString sgn h.value : Outcome ε Bytes) = .ok v → v.length ≤ B) :
    w.length ≤ 1 + A + B := by
  unfold encodeHeader at he
  split at he
  · simp only [Outcome.ok.injEq, Prod.mk.injEq] at he
    rw [← he.1, List.length_singleton]; omega
  · split at he
    · simp only [Outcome.ok.injEq, Prod.mk.injEq] at he
      rw [← he.1, List.length_singleton]; omega
    · split at he
      · obtain ⟨v, hv, he⟩ := Outcome.bind_eq_ok.mp he
        obtain ⟨u, -, he⟩ := Outcome.bind_eq_ok.mp he
        simp only [Outcome.ok.injEq, Prod.mk.injEq] at he
        have := hB v hv
        rw [← he.1, List.length_cons]; omega
      · split at he
        · obtain ⟨v, hv, he⟩ := Outcome.bind_eq_ok.mp he
          obtain ⟨u, -, he⟩ := Outcome.bind_eq_ok.mp he
          simp only [Outcome.ok.injEq, Prod.mk.injEq] at he
          have := hB v hv
          rw [← he.1, List.length_cons]; omega
        · obtain ⟨n, hn, he⟩ := Outcome.bind_eq_ok.mp he
          obtain ⟨v, hv, he⟩ := Outcome.bind_eq_ok.mp he
          obtain ⟨u, -, he⟩ := Outcome.bind_eq_ok.mp he
          simp only [Outcome.ok.injEq, Prod.mk.injEq] at he
          have := hA n hn
          have := hB v hv
          rw [← he.1, List.length_cons, List.length_append]; omega

theorem encodeBlock_le {ε : Type} {sgn : Bool} (F : Header → Nat) (hs : List Header) : ∀ {t t' : DynTable} {w : Bytes},
    (∀ h ∈ hs, ∀ t t' w, (encodeHeader sgn t h : Outcome ε (Bytes × DynTable)) = .ok (w, t') → w.length ≤ F h) →
    (encodeBlock sgn t hs : Outcome ε (Bytes × DynTable)) = .ok (w, t') → w.length ≤ (hs.map F).sum := by
  induction hs with
  | nil =>
    intro t t' w _ he
    simp only [encodeBlock, Outcome.ok.injEq, Prod.mk.injEq] at he
    rw [← he.1]; simp
  | cons h hs ih =>
    intro t t' w hF he
    rw [encodeBlock] at he
    obtain ⟨⟨b, t1⟩, h1, he⟩ := Outcome.bind_eq_ok.mp he
    obtain ⟨⟨bs, t2⟩, h2, he⟩ := Outcome.bind_eq_ok.mp he
    simp only [Outcome.ok.injEq, Prod.mk.injEq] at he
    have a := hF h (by simp) _ _ _ h1
    have b := ih (fun x hx => hF x (by simp [hx])) h2
    rw [← he.1, List.length_append, List.map_cons, List.sum_cons]
    omega

/-! ### C156 -/

/-- The property as stated: compression does not make a header block larger than the fields are without it. -/
def NoLarger : Prop := ∀ (sgn : Bool) (t t' : DynTable) (hs : List Header) (w : Bytes),
  (encodeBlock sgn t hs : Outcome FrameError (Bytes × DynTable)) = .ok (w, t') → w.length ≤ (hs.map plainSize).sum

/-- C156, refuted: a value of more than three octets is always written in the Huffman code, in which a brace takes
fifteen bits. Four of them take eight octets. -/
theorem C156_refuted : ¬ NoLarger := by
  intro h
  obtain ⟨w, t', he, hl⟩ : ∃ w t', (encodeBlock true {} [⟨b!"x", b!"{{{{"⟩] : Outcome FrameError (Bytes × DynTable)) =
      .ok (w, t') ∧ w.length = 12 :=
    ⟨[64, 1, 120, 136, 255, 253, 255, 251, 255, 247, 255, 239], ⟨[⟨b!"x", b!"{{{{"⟩], 37, 65536⟩, by decide +kernel, rfl⟩
  have := h true {} t' _ w he
  rw [hl] at this
  exact absurd this (by decide +kernel)

/-- C156, how long a string literal becomes: up to three octets as it is, otherwise in the Huffman code; exactly, if
that is shorter than 4 GiB. -/
theorem C156_string (sgn : Bool) (s w : Bytes) (h : (writeLengthAndString sgn s : Outcome FrameError Bytes) = .ok w)
    (hlen : s.length < 2 ^ 30) : w.length = literalLen (if s.length ≤ 3 then s.length else codedLen s) := by
  refine (writeLengthAndString_len h).2 ?_
  have h30 := huffBits_length_le 30 s (fun c _ => huffCode_length c)
  unfold codedLen
  split <;> omega

/-- C156 as far as it holds. The full statement is `NoLarger`. What is missing: strings of more than three octets in
which octets have codes of more than eight bits. The octets with codes of at most eight bits are the letters, digits,
space, and those of the second example below. -/
theorem C156_block_partial (sgn : Bool) (t t' : DynTable) (hs : List Header) (w : Bytes)
    (he : (encodeBlock sgn t hs : Outcome FrameError (Bytes × DynTable)) = .ok (w, t'))
    (hl : ∀ h ∈ hs, (h.name.length ≤ 3 ∨ Light h.name) ∧ (h.value.length ≤ 3 ∨ Light h.value)) :
    w.length ≤ (hs.map plainSize).sum :=
  encodeBlock_le plainSize hs (fun h hh _ _ _ he => encodeHeader_le he
    (fun _ hv => (written_le hv).1 (hl h hh).1) (fun _ hv => (written_le hv).1 (hl h hh).2)) he

/-- C156, whatever the strings are: no field takes more than one whose strings are four times as long would take
without compression. -/
theorem C156_bound (sgn : Bool) (t t' : DynTable) (hs : List Header) (w : Bytes)
    (he : (encodeBlock sgn t hs : Outcome FrameError (Bytes × DynTable)) = .ok (w, t')) :
    w.length ≤ (hs.map fun h => 1 + literalLen (4 * h.name.length) + literalLen (4 * h.value.length)).sum :=
  encodeBlock_le _ hs (fun _ _ _ _ _ he => encodeHeader_le he
    (fun _ hv => (written_le hv).2) (fun _ hv => (written_le hv).2)) he

/-- A block that is smaller than its fields. -/
example : ((encodeBlock true {} [⟨b!":status", b!"200"⟩, ⟨b!"server", b!"ion"⟩, ⟨b!"x-powered-by", b!"ion"⟩] :
      Outcome FrameError (Bytes × DynTable)).bind fun r => .ok r.1.length) = .ok 21 ∧
    ([⟨b!":status", b!"200"⟩, ⟨b!"server", b!"ion"⟩, ⟨b!"x-powered-by", b!"ion"⟩] : List Header).map plainSize =
      [13, 12, 18] ∧ Light b!"x-powered-by" := by
  refine ⟨by decide +kernel, by decide +kernel, ?_⟩
  unfold Light
  decide +kernel

/-- The octets with codes of at most eight bits. -/
example : ((List.range 256).map UInt8.ofNat).filter (fun c => decide ((huffCode c).length ≤ 8)) =
    b!" %&*,-./0123456789:;=ABCDEFGHIJKLMNOPQRSTUVWXYZ_abcdefghijklmnopqrstuvwxyz" := by decide +kernel

set_option maxRecDepth 100000 in
/-- A string of 300 octets takes 188 in the Huffman code and two for the length. -/
example : (writeLengthAndString true (List.replicate 300 0x61) : Outcome FrameError Bytes).bind
    (fun w => .ok w.length) = .ok 190 ∧ literalLen (codedLen (List.replicate 300 0x61)) = 190 := by decide +kernel

namespace Sim
variable {W : Type}

/-- C156, for connections: the octets of a response, header block and all, are bounded by what the application
returned. -/
theorem C156_responses (cfg : Cfg W) (w : W) (now : Nat) (r : ProcRes) (s : Sim W) (h : Called cfg w now r s) :
    ∀ x ∈ responses s.trace, wireSize x ≤
      9 + (x.2.1.headers.map fun h => 1 + literalLen (4 * h.name.length) + literalLen (4 * h.value.length)).sum +
        x.2.1.body.length + 9 * ((x.2.1.body.length + 16255) / 16256) := by
  intro x hx
  have he : Encoded cfg s := Steps.inv (P := Encoded cfg)
    (fun _ _ _ _ st i => i.step st) h.steps (by simp [Encoded, Sim.init, responses])
  obtain ⟨t, t', he⟩ := he x hx
  have := encodeBlock_le (fun h => 1 + literalLen (4 * h.name.length) + literalLen (4 * h.value.length)) _
    (fun _ _ _ _ _ he => encodeHeader_le he (fun _ hv => (written_le hv).2) (fun _ hv => (written_le hv).2)) he
  unfold wireSize
  omega

end Sim
end Ion
