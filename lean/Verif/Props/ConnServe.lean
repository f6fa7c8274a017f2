import Verif.Lemmas.ConnServe
import Verif.Props.HeaderEncoder
import Verif.Props.ConnAnswer

/-!
# From request frames to handler calls and responses (C83, C84)
-/

namespace Ion
open Spec
namespace Sim
variable {W : Type}

/-! ### C83 -/

/-- C83: whatever is done with a connection, its handler calls (in order, with path, method and all
fields), responses (stream, fields, body) and the application's state are what the specification
prescribes for the frames acted on, header blocks being read as RFC 7541 says with one table for the
whole connection. The only exception is a last frame that has to be refused; the connection is then in
a final state. -/
theorem C83_served (cfg : Cfg W) (calls : List Call) (w : W) (now : Nat) (s : Sim W)
    (h : run cfg calls (init w now) = .ok s) :
    ∃ (good bad : List FrameReader) (T : Table), frames s.trace = good ++ bad ∧
      Serves cfg w (good.map asFrame) (handled s.trace) ((responses s.trace).map asAnswer) T s.world ∧
      (bad = [] ∨ (Ended s.st ∧ ∃ f, bad = [f] ∧ Unacceptable T (asFrame f))) := by
  obtain ⟨good, bad, T, w', h1, h2, rfl, h4⟩ := (run_steps cfg calls h).servedTo
  refine ⟨good, bad, T, h1, h2, ?_⟩
  rcases h4 with h4 | h4
  · exact .inl h4.1
  · exact .inr h4

/-! ### The specification determines the outcome -/

theorem foldl_digits (a : Nat) (bs : Bytes) (b : UInt8) :
    (bs ++ [b]).foldl (fun v b => v * 10 + (b.toNat - 48)) a =
      bs.foldl (fun v b => v * 10 + (b.toNat - 48)) a * 10 + (b.toNat - 48) := by
  simp [List.foldl_append]

theorem foldl_digits_pos (bs : Bytes) : ∀ a, 0 < a →
    0 < bs.foldl (fun v (b : UInt8) => v * 10 + (b.toNat - 48)) a := by
  induction bs with
  | nil => intro a h; exact h
  | cons b bs ih => intro a h; exact ih _ (by show 0 < a * 10 + (b.toNat - 48); omega)

/-- A decimal notation of more than one digit is that of a positive number, without its last digit. -/
theorem decimal_init_pos {n : Nat} {bs : Bytes} {b : UInt8} (h : IsDecimal n (bs ++ [b])) (hb : bs ≠ []) :
    IsDecimal (n / 10) bs ∧ 0 < n / 10 ∧ b.toNat = 48 + n % 10 := by
  obtain ⟨-, h2, h3, h4⟩ := h
  have hd := h2 b (by simp)
  rw [foldl_digits] at h3
  have e : n / 10 = bs.foldl (fun v (b : UInt8) => v * 10 + (b.toNat - 48)) 0 := by omega
  have hhead : bs.head? ≠ some 48 := by
    intro hh
    have := h4 (by cases bs with | nil => simp at hh | cons x bs => simpa using hh)
    have := congrArg List.length this
    cases bs with
    | nil => simp at hb
    | cons x bs => simp at this
  refine ⟨⟨hb, fun x hx => h2 x (by simp [hx]), e.symm, fun hh => absurd hh hhead⟩, ?_, by omega⟩
  rw [e]
  cases bs with
  | nil => simp at hb
  | cons x bs =>
    refine foldl_digits_pos bs _ ?_
    have := h2 x (by simp)
    have : x.toNat ≠ 48 := by
      intro hx
      apply hhead
      have : x = 48 := UInt8.toNat_inj.mp hx
      simp [this]
    show 0 < 0 * 10 + (x.toNat - 48)
    omega

theorem decimal_unique (n : Nat) : ∀ {a b : Bytes}, IsDecimal n a → IsDecimal n b → a = b := by
  induction n using Nat.strongRecOn with
  | _ n ih =>
    intro a b ha hb
    rcases List.eq_nil_or_concat a with rfl | ⟨a', x, rfl⟩
    · exact absurd rfl ha.1
    rcases List.eq_nil_or_concat b with rfl | ⟨b', y, rfl⟩
    · exact absurd rfl hb.1
    rw [List.concat_eq_append] at ha hb ⊢
    rw [List.concat_eq_append]
    have single : ∀ {z : UInt8}, IsDecimal n [z] → z.toNat = 48 + n ∧ n < 10 := by
      intro z hz
      have h1 := hz.2.1 z (by simp)
      have h2 := hz.2.2.1
      simp at h2
      omega
    by_cases h1 : a' = []
    · subst h1
      obtain ⟨e1, l1⟩ := single ha
      by_cases h2 : b' = []
      · subst h2
        obtain ⟨e2, -⟩ := single hb
        rw [UInt8.toNat_inj.mp (e1.trans e2.symm)]
      · have := (decimal_init_pos hb h2).2.1; omega
    · obtain ⟨i1, p1, e1⟩ := decimal_init_pos ha h1
      by_cases h2 : b' = []
      · subst h2
        obtain ⟨-, l2⟩ := single hb; omega
      · obtain ⟨i2, p2, e2⟩ := decimal_init_pos hb h2
        rw [ih (n / 10) (by omega) i1 i2, UInt8.toNat_inj.mp (e1.trans e2.symm)]

theorem ResponseFields.unique {r : HttpResponse} {a b : List Header} (ha : ResponseFields r a)
    (hb : ResponseFields r b) : a = b := by
  obtain ⟨s1, l1, h1, h2, rfl⟩ := ha
  obtain ⟨s2, l2, h3, h4, rfl⟩ := hb
  rw [decimal_unique _ h1 h3, decimal_unique _ h2 h4]

theorem FirstField.unique {fs : List Header} {n a b : Bytes} (ha : FirstField fs n a)
    (hb : FirstField fs n b) : a = b := by
  have := (getHeader_some_iff.mpr ha).symm.trans (getHeader_some_iff.mpr hb)
  cases this; rfl

theorem FirstField.not_absent {fs : List Header} {n a : Bytes} (ha : FirstField fs n a)
    (hb : ∀ x ∈ fs, x.name ≠ n) : False := by
  have := (getHeader_some_iff.mpr ha).symm.trans (getHeader_none_iff.mpr hb)
  cases this

theorem ReadsAs.unique {t : DynTable} (hwf : t.WF) {block : Bytes} {f1 f2 : List Header} {T1 T2 : Table}
    (h1 : ReadsAs t.abs block f1 T1) (h2 : ReadsAs t.abs block f2 T2) : f1 = f2 ∧ T1 = T2 := by
  obtain ⟨t1, a1, rfl, -⟩ := ReadsAs.decode hwf h1
  obtain ⟨t2, a2, rfl, -⟩ := ReadsAs.decode hwf h2
  rw [a1] at a2
  cases a2
  exact ⟨rfl, rfl⟩

theorem Serves.table {cfg : Cfg W} {w0 : W} {ins : List Frame} {calls : List (HttpRequest × HOut)}
    {answers : List (Nat × List Header × Bytes)} {T : Table} {w : W}
    (h : Serves cfg w0 ins calls answers T w) : ∃ t : DynTable, t.WF ∧ t.abs = T := by
  induction h with
  | nil => exact ⟨{}, by simp [DynTable.WF, sizes], rfl⟩
  | request ins calls answers T T' w w' f block fields path method o r out h ht hb hr hp hm hh ho hf ih =>
    obtain ⟨t, hwf, rfl⟩ := ih
    obtain ⟨t', -, h2, h3⟩ := ReadsAs.decode hwf hr
    exact ⟨t', h3, h2⟩
  | incomplete ins calls answers T T' w f block fields h ht hb hr hn ih =>
    obtain ⟨t, hwf, rfl⟩ := ih
    obtain ⟨t', -, h2, h3⟩ := ReadsAs.decode hwf hr
    exact ⟨t', h3, h2⟩
  | other ins calls answers T w f h ht hs ih => exact ih

/-- C83: the specification leaves no choice: the client's frames determine the handler calls, the
answers, the header table and the application's state. -/
theorem C83_determined (cfg : Cfg W) (w0 : W) (ins : List Frame) (c1 c2 : List (HttpRequest × HOut))
    (a1 a2 : List (Nat × List Header × Bytes)) (T1 T2 : Table) (w1 w2 : W)
    (h1 : Serves cfg w0 ins c1 a1 T1 w1) (h2 : Serves cfg w0 ins c2 a2 T2 w2) :
    c1 = c2 ∧ a1 = a2 ∧ T1 = T2 ∧ w1 = w2 := by
  induction h1 generalizing c2 a2 T2 w2 with
  | nil =>
    generalize hx : ([] : List Frame) = x at h2
    cases h2 with
    | nil => exact ⟨rfl, rfl, rfl, rfl⟩
    | request => simp at hx
    | incomplete => simp at hx
    | other => simp at hx
  | request ins calls answers T T' w w' f block fields path method o r out h ht hb hr hp hm hh ho hf ih =>
    generalize hx : ins ++ [f] = x at h2
    cases h2 with
    | nil => simp at hx
    | request ins' calls' answers' U U' v v' f' block' fields' path' method' o' r' out' h' ht' hb' hr' hp'
        hm' hh' ho' hf' =>
      obtain ⟨rfl, hf1⟩ := List.append_inj' hx rfl
      cases hf1
      obtain ⟨rfl, rfl, rfl, rfl⟩ := ih _ _ _ _ h'
      obtain ⟨t, hwf, rfl⟩ := Serves.table h
      obtain rfl := FieldBlock.unique hb hb'
      obtain ⟨rfl, rfl⟩ := ReadsAs.unique hwf hr hr'
      obtain rfl := FirstField.unique hp hp'
      obtain rfl := FirstField.unique hm hm'
      have e := hh.symm.trans hh'
      cases e
      have er : r = r' := by
        rcases ho with ho | ⟨ho, rfl⟩ <;> rcases ho' with ho' | ⟨ho', rfl⟩
        · rw [ho] at ho'; cases ho'; rfl
        · rw [ho] at ho'; cases ho'
        · rw [ho] at ho'; cases ho'
        · rfl
      subst er
      rw [ResponseFields.unique hf hf']
      exact ⟨rfl, rfl, rfl, rfl⟩
    | incomplete ins' calls' answers' U U' v f' block' fields' h' ht' hb' hr' hn' =>
      obtain ⟨rfl, hf1⟩ := List.append_inj' hx rfl
      cases hf1
      obtain ⟨rfl, rfl, rfl, rfl⟩ := ih _ _ _ _ h'
      obtain ⟨t, hwf, rfl⟩ := Serves.table h
      obtain rfl := FieldBlock.unique hb hb'
      obtain ⟨rfl, rfl⟩ := ReadsAs.unique hwf hr hr'
      rcases hn' with hn' | hn'
      · exact (FirstField.not_absent hp hn').elim
      · exact (FirstField.not_absent hm hn').elim
    | other ins' calls' answers' U v f' h' ht' hs' =>
      obtain ⟨rfl, hf1⟩ := List.append_inj' hx rfl
      cases hf1
      exact absurd ht ht'
  | incomplete ins calls answers T T' w f block fields h ht hb hr hn ih =>
    generalize hx : ins ++ [f] = x at h2
    cases h2 with
    | nil => simp at hx
    | request ins' calls' answers' U U' v v' f' block' fields' path' method' o' r' out' h' ht' hb' hr' hp'
        hm' hh' ho' hf' =>
      obtain ⟨rfl, hf1⟩ := List.append_inj' hx rfl
      cases hf1
      obtain ⟨rfl, rfl, rfl, rfl⟩ := ih _ _ _ _ h'
      obtain ⟨t, hwf, rfl⟩ := Serves.table h
      obtain rfl := FieldBlock.unique hb hb'
      obtain ⟨rfl, rfl⟩ := ReadsAs.unique hwf hr hr'
      rcases hn with hn | hn
      · exact (FirstField.not_absent hp' hn).elim
      · exact (FirstField.not_absent hm' hn).elim
    | incomplete ins' calls' answers' U U' v f' block' fields' h' ht' hb' hr' hn' =>
      obtain ⟨rfl, hf1⟩ := List.append_inj' hx rfl
      cases hf1
      obtain ⟨rfl, rfl, rfl, rfl⟩ := ih _ _ _ _ h'
      obtain ⟨t, hwf, rfl⟩ := Serves.table h
      obtain rfl := FieldBlock.unique hb hb'
      obtain ⟨rfl, rfl⟩ := ReadsAs.unique hwf hr hr'
      exact ⟨rfl, rfl, rfl, rfl⟩
    | other ins' calls' answers' U v f' h' ht' hs' =>
      obtain ⟨rfl, hf1⟩ := List.append_inj' hx rfl
      cases hf1
      exact absurd ht ht'
  | other ins calls answers T w f h ht hs ih =>
    generalize hx : ins ++ [f] = x at h2
    cases h2 with
    | nil => simp at hx
    | request ins' calls' answers' U U' v v' f' block' fields' path' method' o' r' out' h' ht' hb' hr' hp'
        hm' hh' ho' hf' =>
      obtain ⟨rfl, hf1⟩ := List.append_inj' hx rfl
      cases hf1
      exact absurd ht' ht
    | incomplete ins' calls' answers' U U' v f' block' fields' h' ht' hb' hr' hn' =>
      obtain ⟨rfl, hf1⟩ := List.append_inj' hx rfl
      cases hf1
      exact absurd ht' ht
    | other ins' calls' answers' U v f' h' ht' hs' =>
      obtain ⟨rfl, hf1⟩ := List.append_inj' hx rfl
      cases hf1
      exact ih _ _ _ _ h'

/-- C83: and it has nothing to say about frames that are to be refused. -/
theorem C83_refused (cfg : Cfg W) (w0 : W) (ins : List Frame) (f : Frame)
    (c : List (HttpRequest × HOut)) (a : List (Nat × List Header × Bytes)) (T : Table) (w : W)
    (h : Serves cfg w0 ins c a T w) (hf : Unacceptable T f) :
    ¬ ∃ c' a' T' w', Serves cfg w0 (ins ++ [f]) c' a' T' w' := by
  rintro ⟨c', a', T', w', h'⟩
  generalize hx : ins ++ [f] = x at h'
  cases h' with
  | nil => simp at hx
  | request ins' calls' answers' U U' v v' f' block' fields' path' method' o' r' out' h' ht' hb' hr' hp'
      hm' hh' ho' hf' =>
    obtain ⟨rfl, hf1⟩ := List.append_inj' hx rfl
    cases hf1
    obtain ⟨-, -, rfl, -⟩ := C83_determined _ _ _ _ _ _ _ _ _ _ _ h h'
    rcases hf with hf | ⟨-, block, h1, h2⟩
    · have := hf.1.1; simp [ht'] at this
    · obtain rfl := FieldBlock.unique h1 hb'
      exact h2 _ _ hr'
  | incomplete ins' calls' answers' U U' v f' block' fields' h' ht' hb' hr' hn' =>
    obtain ⟨rfl, hf1⟩ := List.append_inj' hx rfl
    cases hf1
    obtain ⟨-, -, rfl, -⟩ := C83_determined _ _ _ _ _ _ _ _ _ _ _ h h'
    rcases hf with hf | ⟨-, block, h1, h2⟩
    · have := hf.1.1; simp [ht'] at this
    · obtain rfl := FieldBlock.unique h1 hb'
      exact h2 _ _ hr'
  | other ins' calls' answers' U v f' h' ht' hs' =>
    obtain ⟨rfl, hf1⟩ := List.append_inj' hx rfl
    cases hf1
    rcases hf with hf | ⟨hf, -⟩
    · exact hs' hf
    · exact ht' hf

/-- Two requests on one connection, the second one referring to a field the first one stored, then a
request without `:method`. -/
example : ∃ calls s, run exCfg calls (init 0 0) = .ok s ∧
    (handled s.trace == [
      (⟨b!"GET", b!"/a", [⟨b!":method", b!"GET"⟩, ⟨b!":path", b!"/a"⟩]⟩,
        .resp { status := 200, body := [104, 105] }),
      (⟨b!"GET", b!"/a", [⟨b!":path", b!"/a"⟩, ⟨b!":method", b!"GET"⟩]⟩,
        .resp { status := 200, body := [104, 105] })] &&
      (responses s.trace).map (fun x => x.1) == [1, 3, 5] && s.world == 2) = true :=
  Shows.run (e := exEnv (clientPreface ++ [0, 0, 5, 1, 5, 0, 0, 0, 1, 0x82, 0x44, 2, 47, 97] ++
    [0, 0, 2, 1, 5, 0, 0, 0, 3, 0xbe, 0x82] ++ [0, 0, 1, 1, 5, 0, 0, 0, 5, 0xbe]) [71, 24, 9]) (es := [])
    (by decide +kernel)

end Sim
end Ion
