import Verif.Props.StatusPage

/-!
# The instance id on the status page (C166)
-/

namespace Ion.Spec

/-- The value of a lower-case hexadecimal digit. -/
inductive HexDigit : UInt8 → Nat → Prop where
  | number (b : UInt8) : 48 ≤ b.toNat → b.toNat ≤ 57 → HexDigit b (b.toNat - 48)
  | letter (b : UInt8) : 97 ≤ b.toNat → b.toNat ≤ 102 → HexDigit b (b.toNat - 97 + 10)

/-- The octets are hexadecimal digits, the first of the highest value; with the number they stand for. -/
inductive HexNumber : Bytes → Nat → Prop where
  | none : HexNumber [] 0
  | digit (bs : Bytes) (b : UInt8) (n d : Nat) : HexNumber bs n → HexDigit b d → HexNumber (bs ++ [b]) (16 * n + d)

end Ion.Spec

namespace Ion.Props
open Ion Spec

theorem hexDigit_spec (d : UInt8) (h : d < 16) : HexDigit (if d < 10 then 0x30 + d else 0x57 + d) d.toNat := by
  have h16 : d.toNat < 16 := h
  by_cases h10 : d < 10
  · have : d.toNat < 10 := h10
    have e : (0x30 + d).toNat = 48 + d.toNat := by
      rw [UInt8.toNat_add]; show (48 + d.toNat) % 256 = _; omega
    rw [if_pos h10]
    have := HexDigit.number (0x30 + d) (by omega) (by omega)
    rwa [e, Nat.add_sub_cancel_left] at this
  · have : ¬ d.toNat < 10 := h10
    have e : (0x57 + d).toNat = 87 + d.toNat := by
      rw [UInt8.toNat_add]; show (87 + d.toNat) % 256 = _; omega
    rw [if_neg h10]
    have := HexDigit.letter (0x57 + d) (by omega) (by omega)
    rwa [e, show 87 + d.toNat - 97 + 10 = d.toNat by omega] at this

theorem instanceId_digits (n : Nat) : ∀ k, k ≤ 8 → HexNumber ((List.range k).map fun i =>
    let d := UInt8.ofNat (n / 16 ^ (7 - i) % 16)
    if d < 10 then 0x30 + d else 0x57 + d) (n / 16 ^ (8 - k) % 16 ^ k) := by
  intro k
  induction k with
  | zero => intro _; rw [Nat.pow_zero, Nat.mod_one]; exact .none
  | succ k ih =>
    intro hk
    rw [List.range_succ, List.map_append, List.map_singleton]
    have hd : (UInt8.ofNat (n / 16 ^ (7 - k) % 16)).toNat = n / 16 ^ (7 - k) % 16 := by
      rw [UInt8.toNat_ofNat']; omega
    have h1 := hexDigit_spec (UInt8.ofNat (n / 16 ^ (7 - k) % 16)) (by
      show (UInt8.ofNat _).toNat < 16
      rw [hd]; omega)
    have := HexNumber.digit _ _ _ _ (ih (by omega)) h1
    rw [hd] at this
    have e : 16 * (n / 16 ^ (8 - k) % 16 ^ k) + n / 16 ^ (7 - k) % 16 = n / 16 ^ (8 - (k + 1)) % 16 ^ (k + 1) := by
      rw [show 8 - (k + 1) = 7 - k by omega, show 8 - k = 7 - k + 1 by omega, Nat.pow_succ, ← Nat.div_div_eq_div_mul,
        Nat.pow_succ, Nat.mul_comm (16 ^ k) 16, Nat.mod_mul]
      omega
    rwa [e] at this

theorem HexDigit.unique {b : UInt8} {m n : Nat} (h1 : HexDigit b m) (h2 : HexDigit b n) : m = n := by
  cases h1 <;> cases h2 <;> omega

theorem HexNumber.unique {bs : Bytes} {m n : Nat} (h1 : HexNumber bs m) (h2 : HexNumber bs n) : m = n := by
  induction h1 generalizing n with
  | none =>
    generalize hb : ([] : Bytes) = bs at h2
    cases h2 with
    | none => rfl
    | digit => simp at hb
  | digit bs b m d _ hd ih =>
    generalize hb : bs ++ [b] = bs' at h2
    cases h2 with
    | none => simp at hb
    | digit bs2 b2 n2 d2 h3 h4 =>
      obtain ⟨rfl, hc⟩ := List.append_inj' hb rfl
      injection hc with hc
      subst hc
      rw [ih h3, HexDigit.unique hd h4]

/-- C166: the id is the drawn number in eight lower-case hexadecimal digits. -/
theorem C166_digits (n : UInt32) : (instanceId n).length = 8 ∧ HexNumber (instanceId n) n.toNat := by
  refine ⟨by simp [instanceId], ?_⟩
  have := instanceId_digits n.toNat 8 (Nat.le_refl 8)
  have hn : n.toNat < 16 ^ 8 := n.toNat_lt
  rw [Nat.sub_self, Nat.pow_zero, Nat.div_one, Nat.mod_eq_of_lt hn] at this
  exact this

/-- C166: servers that drew different numbers show different ids. -/
theorem C166_distinct (m n : UInt32) (h : instanceId m = instanceId n) : m = n := by
  have h1 := (C166_digits m).2
  rw [h] at h1
  exact UInt32.toNat.inj (HexNumber.unique h1 (C166_digits n).2)

/-- C166: the id can be read off the page, whatever else is on it: pages of servers that drew different numbers are
different. -/
theorem C166_shown (t1 t2 : PageText) (avg : Int → UInt64 → Bytes) (m n : UInt32) (u1 u2 : Bytes) (r1 r2 : UInt64)
    (d1 d2 : Int) (c1 c2 : List (UInt16 × UInt64)) (h1 : t1.instanceId = instanceId m) (h2 : t2.instanceId = instanceId n)
    (h : renderPage t1 avg u1 r1 d1 c1 = renderPage t2 avg u2 r2 d2 c2) : m = n := by
  simp only [renderPage] at h
  have k := (List.append_inj' h rfl).1
  rw [h1, h2] at k
  exact C166_distinct _ _ (List.append_inj' k (by rw [(C166_digits m).1, (C166_digits n).1])).2

/-- Such ids. -/
example : instanceId 0xbeef = b!"0000beef" ∧ instanceId 0 = b!"00000000" ∧ instanceId 0xffffffff = b!"ffffffff" ∧
    instanceId 0x1234abcd = b!"1234abcd" := by decide +kernel

end Ion.Props
