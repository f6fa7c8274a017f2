import Verif.Lemmas.FileSystem
import Verif.Model.StaticFiles

/-! Lemmas about `sanitize_path` and the functions of `std::filesystem` it uses. -/

namespace Ion
namespace FS

/-- The elements system calls walk through. -/
def stepsOf (p : FPath) : List Name := p.comps ++ if p.trail then [b!"."] else []

theorem stat_abs (fs : FS) {p : FPath} (h : p.abs = true) :
    fs.stat p = fs.resolve fs.maxLinks [] (cutNul (stepsOf p)) := by
  rw [stat, h]; rfl

theorem cutNul_append {a : List Name} (h : ∀ c ∈ a, (0 : UInt8) ∉ c) (b : List Name) :
    cutNul (a ++ b) = a ++ cutNul b := by
  induction a with
  | nil => rfl
  | cons c cs ih =>
    rw [List.cons_append, cutNul, if_neg (by simpa using h c (by simp)),
      ih (fun d hd => h d (by simp [hd]))]
    rfl

theorem cutNul_of_nul {a : List Name} (h : ∃ c ∈ a, (0 : UInt8) ∈ c) (b : List Name) :
    cutNul (a ++ b) = cutNul a := by
  induction a with
  | nil => obtain ⟨c, hc, _⟩ := h; simp at hc
  | cons c cs ih =>
    rw [List.cons_append, cutNul, cutNul]
    by_cases h0 : (0 : UInt8) ∈ c
    · have hc : c.contains 0 = true := by simpa using h0
      rw [if_pos hc, if_pos hc]
    · have hc : ¬ c.contains 0 = true := by simpa using h0
      rw [if_neg hc, if_neg hc]
      obtain ⟨d, hd, h1⟩ := h
      rcases List.mem_cons.mp hd with rfl | hd
      · exact absurd h1 h0
      · rw [ih ⟨d, hd, h1⟩]

theorem cutNul_id {a : List Name} (h : ∀ c ∈ a, (0 : UInt8) ∉ c) : cutNul a = a := by
  have := cutNul_append h []
  simpa [cutNul] using this

/-- What the first element becomes. -/
def cutName (c : Name) : Name :=
  if c.contains 0 then (if c.takeWhile (· ≠ 0) = [] then b!"." else c.takeWhile (· ≠ 0)) else c

theorem cutNul_cons (c : Name) (cs : List Name) :
    cutNul (c :: cs) = cutName c :: (if c.contains 0 then [] else cutNul cs) := by
  rw [cutNul, cutName]
  split <;> rfl

/-! ## `weakly_canonical` -/

theorem existingPrefix_spec (fs : FS) : ∀ (rev dne loc d : List Name),
    fs.existingPrefix rev dne = .ok (loc, d) →
    ∃ P Q, rev.reverse = P ++ Q ∧ d = Q ++ dne ∧ fs.resolve fs.maxLinks [] (cutNul P) = .ok loc ∧
      ∀ q Q', Q = q :: Q' → ∃ e, Errno.absent e = true ∧ fs.resolve fs.maxLinks [] (cutNul (P ++ [q])) = .error e := by
  intro rev
  induction rev with
  | nil =>
    intro dne loc d h
    simp only [existingPrefix, Except.ok.injEq, Prod.mk.injEq] at h
    obtain ⟨rfl, rfl⟩ := h
    exact ⟨[], [], rfl, rfl, by simp [cutNul, resolve_eq, walk_nil], by simp⟩
  | cons c rev ih =>
    intro dne loc d h
    rw [existingPrefix] at h
    have hs : fs.stat ⟨true, (c :: rev).reverse, false⟩ =
        fs.resolve fs.maxLinks [] (cutNul (rev.reverse ++ [c])) := by
      rw [stat_abs fs rfl]; simp [stepsOf]
    split at h
    · rename_i l hl
      simp only [Except.ok.injEq, Prod.mk.injEq] at h
      obtain ⟨rfl, rfl⟩ := h
      refine ⟨(c :: rev).reverse, [], by simp, by simp, ?_, by simp⟩
      rw [← hl, hs]; simp
    · rename_i e he2
      split at h
      case isFalse => cases h
      rename_i hne
      obtain ⟨P, Q, h1, h2, h3, h4⟩ := ih _ _ _ h
      by_cases hQ : Q = []
      · subst hQ
        simp at h1 h2
        refine ⟨P, [c], by simp [h1], by simp [h2], h3, ?_⟩
        intro q Q' hq
        simp at hq
        obtain ⟨rfl, _⟩ := hq
        exact ⟨e, hne, by rw [← h1, ← hs, he2]⟩
      · refine ⟨P, Q ++ [c], by simp [h1], by simp [h2], h3, ?_⟩
        intro q Q' hq
        cases Q with
        | nil => exact absurd rfl hQ
        | cons q0 Q0 =>
          simp at hq
          obtain ⟨rfl, _⟩ := hq
          exact h4 q0 Q0 rfl

/-- The two ways `weakly_canonical` succeeds. -/
theorem weaklyCanonical_spec (fs : FS) {p full : FPath}
    (h : fs.weaklyCanonical p = .ok full) :
    (∃ loc, fs.stat p = .ok loc ∧ full = ⟨true, loc, false⟩) ∨
    (∃ e P Q loc, Errno.absent e = true ∧ fs.stat p = .error e ∧ p.comps = P ++ Q ∧
      fs.resolve fs.maxLinks [] (cutNul P) = .ok loc ∧
      (∀ q Q', Q = q :: Q' → ∃ e, Errno.absent e = true ∧ fs.resolve fs.maxLinks [] (cutNul (P ++ [q])) = .error e) ∧
      full = lexicallyNormal ⟨true, loc ++ Q, p.trail⟩) := by
  rw [weaklyCanonical] at h
  split at h
  · rename_i loc hl
    left
    exact ⟨loc, hl, by simpa using h.symm⟩
  · rename_i e he2
    split at h
    case isFalse => cases h
    rename_i he1
    right
    split at h
    · cases h
    · rename_i loc dne hx
      obtain ⟨P, Q, h1, h2, h3, h4⟩ := existingPrefix_spec fs _ _ _ _ hx
      refine ⟨e, P, Q, loc, he1, he2, by simpa using h1, h3, h4, ?_⟩
      simp at h2 h
      rw [← h, h2]

/-! ## `lexically_normal` -/

theorem normalize_plain : ∀ (cs stack : List Name), b!".." ∉ cs →
    normalize stack cs = stack.reverse ++ cs.filter (fun c => c ≠ b!".") := by
  intro cs
  induction cs with
  | nil => intro stack _; simp [normalize]
  | cons c cs ih =>
    intro stack h
    simp only [List.mem_cons, not_or] at h
    by_cases h1 : c = b!"."
    · rw [normalize, if_pos h1, ih stack h.2, h1]; simp
    · rw [normalize, if_neg h1, if_neg (fun h' => h.1 h'.symm), ih (c :: stack) h.2]
      simp [h1]

theorem normalize_mem : ∀ (cs stack : List Name), ∀ c ∈ normalize stack cs,
    c ∈ stack ∨ (c ∈ cs ∧ c ≠ b!"." ∧ c ≠ b!"..") := by
  intro cs
  induction cs with
  | nil => intro stack c h; left; simpa [normalize] using h
  | cons d cs ih =>
    intro stack c h
    rw [normalize] at h
    split at h
    · rcases ih _ _ h with h | ⟨h, h'⟩
      · exact Or.inl h
      · exact Or.inr ⟨by simp [h], h'⟩
    · split at h
      · rcases ih _ _ h with h | ⟨h, h'⟩
        · exact Or.inl (List.mem_of_mem_tail h)
        · exact Or.inr ⟨by simp [h], h'⟩
      · rename_i h1 h2
        rcases ih _ _ h with h | ⟨h, h'⟩
        · rcases List.mem_cons.mp h with rfl | h
          · exact Or.inr ⟨by simp, h1, h2⟩
          · exact Or.inl h
        · exact Or.inr ⟨by simp [h], h'⟩

theorem normalize_append_valid : ∀ (loc stack Q : List Name), (∀ c ∈ loc, ValidName c) →
    normalize stack (loc ++ Q) = normalize (loc.reverse ++ stack) Q := by
  intro loc
  induction loc with
  | nil => intro stack Q _; rfl
  | cons c cs ih =>
    intro stack Q h
    have hv := h c (by simp)
    rw [List.cons_append, normalize, if_neg hv.notDot, if_neg hv.notDotDot,
      ih _ _ (fun d hd => h d (by simp [hd]))]
    simp

/-! ## Steps that can only go down -/

/-- A '..' step only as the last one. -/
def UpLast : List Name → Prop
  | [] => True
  | c :: cs => (c = b!".." → cs = []) ∧ UpLast cs

theorem upLast_cutNul : ∀ s : List Name, b!".." ∉ s → UpLast (cutNul s) := by
  intro s
  induction s with
  | nil => intro _; simp [cutNul, UpLast]
  | cons c cs ih =>
    intro h
    simp only [List.mem_cons, not_or] at h
    rw [cutNul_cons]
    by_cases h0 : c.contains 0 = true
    · rw [if_pos h0]; exact ⟨fun _ => rfl, trivial⟩
    · rw [if_neg h0, cutName, if_neg h0]
      exact ⟨fun h' => absurd h'.symm h.1, ih h.2⟩

/-- Every symbolic link below `base` leads to a place below `base`, or nowhere. -/
def LinksStay (fs : FS) (base : List Name) : Prop :=
  ∀ loc c target m l, base <+: loc → fs.look (loc ++ [c]) = some (.link target) →
    fs.resolve m (if (parsePath target).abs then [] else loc) (stepsOf (parsePath target)) = .ok l →
    base <+: l

theorem resolve_stays {fs : FS} (hwf : fs.WF) {base : List Name} (hls : fs.LinksStay base) :
    ∀ n s cur l c r, base <+: cur → UpLast s → fs.resolve n cur s = .ok l →
      fs.look l = some (.file c r) → base <+: l := by
  intro n
  induction n using Nat.strongRecOn with
  | ind n ihn =>
    intro s
    induction s with
    | nil => intro cur l c r hb _ h _; rw [resolve_eq, walk_nil] at h; cases h; exact hb
    | cons d cs ih =>
      intro cur l c r hb hu h hf
      by_cases hd : fs.Enter cur
      · by_cases h1 : d = b!"."
        · subst h1
          rw [resolve_eq, walk_dot fs _ hd, ← resolve_eq] at h
          exact ih _ _ _ _ hb hu.2 h hf
        · by_cases h2 : d = b!".."
          · have := hu.1 h2
            subst h2; subst this
            rw [resolve_eq, walk_up fs _ hd, walk_nil] at h
            cases h
            rw [look_dropLast hwf hd.1] at hf
            cases hf
          · rw [resolve_eq, walk_name fs _ hd h1 h2] at h
            have hb' : base <+: cur ++ [d] := hb.trans (List.prefix_append _ _)
            rcases hl : fs.look (cur ++ [d]) with _ | (_ | ⟨x, y⟩ | tg | _)
            · simp only [hl] at h; cases h
            · simp only [hl] at h; rw [← resolve_eq] at h; exact ih _ _ _ _ hb' hu.2 h hf
            · simp only [hl] at h; rw [← resolve_eq] at h; exact ih _ _ _ _ hb' hu.2 h hf
            · simp only [hl] at h
              cases n with
              | zero => simp [next] at h
              | succ k =>
                simp only [next] at h
                rw [← List.append_assoc] at h
                rcases hk : fs.resolve k (if (parsePath tg).abs then [] else cur) (stepsOf (parsePath tg)) with e | l'
                · rw [show (parsePath tg).comps ++ (if (parsePath tg).trail then [b!"."] else []) =
                    stepsOf (parsePath tg) from rfl, resolve_append_of_error fs k _ _ _ _ hk] at h
                  cases h
                · obtain ⟨j, hj, he⟩ := resolve_append_of_ok fs k _ _ cs _ hk
                  rw [show (parsePath tg).comps ++ (if (parsePath tg).trail then [b!"."] else []) =
                    stepsOf (parsePath tg) from rfl, he] at h
                  exact ihn j (by omega) cs l' l c r (hls cur d tg k l' hb hl hk) hu.2 h hf
            · simp only [hl] at h; rw [← resolve_eq] at h; exact ih _ _ _ _ hb' hu.2 h hf
      · rw [resolve_eq, walk_stuck fs _ hd] at h
        cases h

/-! ## Absolute paths -/

theorem stat_absolute {fs : FS} (hwf : fs.WF) (p : FPath) (ht : p.trail = true → p.comps ≠ []) :
    fs.stat (fs.absolute p) = fs.stat p := by
  rw [absolute]
  by_cases ha : p.abs = true
  · rw [if_pos ha]
  · rw [if_neg ha]
    have hcwd : fs.Real fs.cwd := Real.cwd hwf
    have hnul : ∀ c ∈ fs.cwd, (0 : UInt8) ∉ c := fun c hc => (hwf.names _ _ hwf.cwd c hc).noNul
    rw [stat_abs fs (by rfl), stat, if_neg ha]
    simp only [stepsOf, FPath.append]
    rw [List.append_assoc, cutNul_append hnul,
      resolve_down hwf _ fs.cwd _ [] (by simpa using hcwd), List.nil_append]
    by_cases hc : p.comps = []
    · have : p.trail = false := by
        cases h : p.trail with
        | false => rfl
        | true => exact absurd hc (ht h)
      simp only [hc, this, List.nil_append, if_true, Bool.false_eq_true, if_false]
      split
      · rw [show cutNul [b!"."] = [b!"."] from by decide, resolve_eq, walk_dot fs _ ⟨hwf.cwd, hwf.reach _ List.prefix_rfl⟩, walk_nil]
        simp [cutNul, walk_nil]
      · rfl
    · rw [if_neg hc]

end FS

/-! ## `sanitize_path` -/

open FS FileReader

theorem within_prefix : ∀ {a b : List Bytes}, within a b = true → a <+: b := by
  intro a
  induction a with
  | nil => intro b _; exact List.nil_prefix
  | cons x xs ih =>
    intro b h
    cases b with
    | nil => simp [within] at h
    | cons y ys =>
      simp only [within, Bool.and_eq_true, decide_eq_true_eq] at h
      obtain ⟨rfl, h⟩ := h
      exact List.cons_prefix_cons.mpr ⟨rfl, ih h⟩

theorem prefix_within : ∀ {a b : List Bytes}, a <+: b → within a b = true := by
  intro a
  induction a with
  | nil => intro b _; simp [within]
  | cons x xs ih =>
    intro b h
    obtain ⟨t, rfl⟩ := h
    simp only [List.cons_append, within, decide_true, Bool.true_and]
    exact ih (List.prefix_append _ _)

theorem prefix_of_trail {a b : List Bytes} {t : Bool} (ha : ∀ c ∈ a, c ≠ [])
    (h : a <+: b ++ if t then [[]] else []) : a <+: b := by
  cases t with
  | false => simpa using h
  | true =>
    simp only [if_true] at h
    rcases List.prefix_concat_iff.mp h with h | h
    · subst h; exact absurd rfl (ha [] (by simp))
    · exact h

/-- `combined` of `sanitize_path`. -/
def combinedPath (base : List Name) (requested : Bytes) : FPath :=
  if (parsePath requested).abs then parsePath requested
  else FPath.append ⟨true, base, false⟩ (parsePath requested)

theorem combinedPath_abs (base : List Name) (r : Bytes) : (combinedPath base r).abs = true := by
  rw [combinedPath]; split
  · assumption
  · rfl

theorem combinedPath_elems {base : List Name} (hb : ∀ c ∈ base, PathElem c) (r : Bytes) :
    ∀ c ∈ (combinedPath base r).comps, PathElem c := by
  rw [combinedPath]; split
  · exact parsePath_elems r
  · intro c hc
    simp only [FPath.append, List.mem_append] at hc
    rcases hc with hc | hc
    · exact hb c hc
    · exact parsePath_elems r c hc

theorem sanitizePath_spec {fs : FS} (hwf : fs.WF) {b r s : Bytes}
    (h : sanitizePath fs b r = some s) :
    ∃ base full, fs.stat (fs.absolute (parsePath b)) = .ok base ∧ fs.look base = some .dir ∧
      fs.weaklyCanonical (combinedPath base r) = .ok full ∧ full.abs = true ∧
      base <+: full.comps ∧ s = full.render := by
  rw [sanitizePath] at h
  simp only at h
  split at h
  · cases h
  · rename_i loc hl
    by_cases hd : fs.look loc = some .dir
    · rw [if_neg (by simp [hd])] at h
      have hw : fs.weaklyCanonical (fs.absolute (parsePath b)) = .ok ⟨true, loc, false⟩ := by
        rw [weaklyCanonical, hl]
      rw [hw] at h
      simp only at h
      split at h
      · cases h
      · rename_i full hf
        have ha : full.abs = true := by
          rcases weaklyCanonical_spec fs hf with ⟨_, _, h⟩ | ⟨_, _, _, _, _, _, _, _, _, h⟩
          · rw [h]
          · rw [h]; rfl
        split at h
        · rename_i hin
          refine ⟨loc, full, hl, hd, hf, ha, ?_, by simpa using h.symm⟩
          have := within_prefix hin
          simp only [FPath.elems, ha, if_true, List.cons_append, List.nil_append, List.cons_prefix_cons,
            true_and, Bool.false_eq_true, if_false, List.append_nil] at this
          exact prefix_of_trail (fun c hc => (hwf.names _ _ hd c hc).elem.1) this
        · cases h
    · rw [if_pos hd] at h
      cases h

/-- All elements of the path `weakly_canonical` returns are proper, and none is '.' or '..'. -/
theorem weaklyCanonical_elems {fs : FS} (hwf : fs.WF) {p full : FPath} (hp : p.abs = true)
    (he : ∀ c ∈ p.comps, PathElem c) (h : fs.weaklyCanonical p = .ok full) :
    full.abs = true ∧ (full.trail = true → full.comps ≠ []) ∧
      ∀ c ∈ full.comps, PathElem c ∧ c ≠ b!"." ∧ c ≠ b!".." := by
  rcases weaklyCanonical_spec fs h with ⟨loc, h1, rfl⟩ | ⟨e, P, Q, loc, _, _, h2, h3, _, rfl⟩
  · refine ⟨rfl, by simp, ?_⟩
    intro c hc
    rw [stat_abs fs hp] at h1
    obtain ⟨n, hn⟩ := (resolve_real hwf _ _ _ _ (Real.root fs) h1).some
    have hv := hwf.names _ _ hn c hc
    exact ⟨hv.elem, hv.notDot, hv.notDotDot⟩
  · refine ⟨rfl, ?_, ?_⟩
    · simp only [lexicallyNormal, Bool.and_eq_true, decide_eq_true_eq]
      exact fun h => h.1
    · intro c hc
      simp only [lexicallyNormal] at hc
      rcases normalize_mem _ _ c hc with hc | ⟨hc, h'⟩
      · simp at hc
      · refine ⟨?_, h'⟩
        rcases List.mem_append.mp hc with hc | hc
        · obtain ⟨n, hn⟩ := (resolve_real hwf _ _ _ _ (Real.root fs) h3).some
          exact (hwf.names _ _ hn c hc).elem
        · exact he c (by rw [h2]; simp [hc])

/-- Reading a sanitised path back. -/
theorem statString_render {fs : FS} {full : FPath} (ha : full.abs = true)
    (ht : full.trail = true → full.comps ≠ []) (he : ∀ c ∈ full.comps, PathElem c) :
    fs.statString full.render = fs.resolve fs.maxLinks [] (cutNul (stepsOf full)) := by
  obtain ⟨a, c, t⟩ := full
  simp only at ha
  subst ha
  rw [statString, if_neg (render_ne_nil c t), parsePath_render c t he ht, stat_abs fs rfl]

/-- When the request names nothing and has no '..', the sanitised path names nothing either. -/
theorem normal_fails {fs : FS} (hwf : fs.WF) {p : FPath} {P Q loc : List Name} {e : Errno}
    (hp : p.abs = true) (he : fs.stat p = .error e) (hloop : e.absent = true) (hc : p.comps = P ++ Q)
    (hP : fs.resolve fs.maxLinks [] (cutNul P) = .ok loc)
    (hQ : ∀ q Q', Q = q :: Q' → ∃ e, Errno.absent e = true ∧ fs.resolve fs.maxLinks [] (cutNul (P ++ [q])) = .error e)
    (hup : b!".." ∉ Q) :
    ∀ l, fs.resolve fs.maxLinks [] (cutNul (stepsOf (lexicallyNormal ⟨true, loc ++ Q, p.trail⟩))) ≠ .ok l := by
  intro l hl
  have hreal : fs.Real loc := resolve_real hwf _ _ _ _ (Real.root fs) hP
  obtain ⟨nd, hnd⟩ := hreal.some
  have hv := hwf.names _ _ hnd
  have hnul : ∀ c ∈ loc, (0 : UInt8) ∉ c := fun c hc => (hv c hc).noNul
  have hPn : ∀ c ∈ P, (0 : UInt8) ∉ c := by
    intro c hc0 h0
    by_cases hQe : Q = []
    · rw [stat_abs fs hp, stepsOf, hc, hQe, List.append_nil, cutNul_of_nul ⟨c, hc0, h0⟩, hP] at he
      cases he
    · obtain ⟨q, Q', rfl⟩ : ∃ q Q', Q = q :: Q' := by
        cases Q with
        | nil => exact absurd rfl hQe
        | cons q Q' => exact ⟨q, Q', rfl⟩
      obtain ⟨e', _, h'⟩ := hQ q Q' rfl
      rw [cutNul_of_nul ⟨c, hc0, h0⟩, hP] at h'
      cases h'
  rw [cutNul_id hPn] at hP
  -- the steps after `loc`
  have hlocup : b!".." ∉ loc := fun h => (hv _ h).notDotDot rfl
  have hcomps : normalize [] (loc ++ Q) = loc ++ Q.filter (fun c => c ≠ b!".") := by
    rw [normalize_plain _ _ (by simp only [List.mem_append, not_or]; exact ⟨hlocup, hup⟩), List.filter_append]
    rw [List.filter_eq_self.mpr (fun c hc => by simpa using (hv c hc).notDot)]
    rfl
  have hnotdir : ∀ c cs, fs.look loc ≠ some .dir → fs.resolve fs.maxLinks loc (c :: cs) = .error .notDir := by
    intro c cs h; rw [resolve_eq, walk_notDir fs _ h]
  have hdotdir : ∀ e, Errno.absent e = true → fs.resolve fs.maxLinks [] (P ++ [b!"."]) = .error e →
      fs.look loc ≠ some .dir := by
    intro e ha h hd
    obtain ⟨j, _, h'⟩ := resolve_append_of_ok fs _ _ _ [b!"."] _ hP
    rw [h', resolve_eq] at h
    by_cases he : fs.Enter loc
    · rw [walk_dot fs _ he, walk_nil] at h
      cases h
    · rw [walk_stuck fs _ he, stuck, if_neg (by simp [hd])] at h
      cases h; cases ha
  -- a non-empty tail whose first step fails
  have key : ∀ c cs, (∃ e, fs.resolve fs.maxLinks loc [c] = .error e) →
      cutNul (stepsOf (lexicallyNormal ⟨true, loc ++ Q, p.trail⟩)) = loc ++ c :: cs → False := by
    intro c cs ⟨e, h⟩ hst
    rw [hst, resolve_down hwf _ loc _ [] (by simpa using hreal), List.nil_append] at hl
    have := resolve_append_of_error fs _ _ _ cs _ h
    rw [show c :: cs = [c] ++ cs from rfl, this] at hl
    cases hl
  cases Q with
  | nil =>
    rw [List.append_nil] at hc
    have ht : p.trail = true := by
      cases ht : p.trail with
      | true => rfl
      | false =>
        rw [stat_abs fs hp, stepsOf, hc, ht] at he
        simp only [Bool.false_eq_true, if_false, List.append_nil] at he
        rw [cutNul_id hPn, hP] at he
        cases he
    have hnd : fs.look loc ≠ some .dir := by
      refine hdotdir e hloop ?_
      rw [stat_abs fs hp, stepsOf, hc, ht, if_pos rfl, cutNul_append hPn] at he
      exact he
    have hne : loc ≠ [] := by intro h; subst h; simp [look] at hnd
    refine key b!"." [] ⟨_, hnotdir _ _ hnd⟩ ?_
    have hcomps' : normalize [] loc = loc := by simpa using hcomps
    have : lexicallyNormal ⟨true, loc ++ [], p.trail⟩ = ⟨true, loc, true⟩ := by
      simp [lexicallyNormal, hcomps', hne, ht]
    rw [this, stepsOf, cutNul_append hnul]
    rfl
  | cons q Q' =>
    obtain ⟨e', he', hq⟩ := hQ q Q' rfl
    rw [cutNul_append hPn, cutNul_cons, show (if q.contains 0 = true then [] else cutNul []) = ([] : List Name) from by
      split <;> simp [cutNul]] at hq
    obtain ⟨j, hj, hq'⟩ := resolve_append_of_ok fs _ _ _ [cutName q] _ hP
    rw [hq'] at hq
    have hfirst : fs.resolve fs.maxLinks loc [cutName q] = .error e' := by
      rw [resolve_mono fs hj (by rw [hq]; intro h; cases h; cases he'), hq]
    by_cases hdot : q = b!"."
    · subst hdot
      have hnd : fs.look loc ≠ some .dir := by
        intro hd
        rw [show cutName b!"." = b!"." from by decide, resolve_eq] at hfirst
        by_cases he : fs.Enter loc
        · rw [walk_dot fs _ he, walk_nil] at hfirst
          cases hfirst
        · rw [walk_stuck fs _ he, stuck, if_neg (by simp [hd])] at hfirst
          cases hfirst; cases he'
      have hne : loc ≠ [] := by intro h; subst h; simp [look] at hnd
      -- there is always one more step
      cases hfl : (b!"." :: Q').filter (fun c => c ≠ b!".") with
      | nil =>
        rw [hfl] at hcomps
        have hlast : (loc ++ b!"." :: Q').getLast? = some b!"." := by
          rw [List.filter_eq_nil_iff] at hfl
          have hx : ∃ x, (b!"." :: Q').getLast? = some x := ⟨_, List.getLast?_cons⟩
          obtain ⟨x, hx⟩ := hx
          have := hfl x (List.mem_of_getLast? hx)
          simp at this
          rw [List.getLast?_append, hx, this]
          rfl
        refine key b!"." [] ⟨_, hnotdir _ _ hnd⟩ ?_
        have : lexicallyNormal ⟨true, loc ++ b!"." :: Q', p.trail⟩ = ⟨true, loc, true⟩ := by
          rw [lexicallyNormal]
          simp only [hcomps, List.append_nil]
          simp only [hlast, hne, ne_eq, not_false_eq_true, decide_true, Bool.or_true, Bool.true_or, Bool.true_and]
        rw [this, stepsOf, cutNul_append hnul]
        rfl
      | cons d ds =>
        rw [hfl] at hcomps
        have hst : ∃ cs, cutNul (stepsOf (lexicallyNormal ⟨true, loc ++ b!"." :: Q', p.trail⟩)) =
            loc ++ cutName d :: cs := by
          rw [stepsOf]
          simp only [lexicallyNormal, hcomps]
          rw [List.append_assoc, cutNul_append hnul, List.cons_append, cutNul_cons]
          exact ⟨_, rfl⟩
        obtain ⟨cs, hst⟩ := hst
        exact key (cutName d) cs ⟨_, hnotdir _ _ hnd⟩ hst
    · have hfl : (q :: Q').filter (fun c => c ≠ b!".") = q :: Q'.filter (fun c => c ≠ b!".") := by
        simp [hdot]
      rw [hfl] at hcomps
      have hst : ∃ cs, cutNul (stepsOf (lexicallyNormal ⟨true, loc ++ q :: Q', p.trail⟩)) =
          loc ++ cutName q :: cs := by
        rw [stepsOf]
        simp only [lexicallyNormal, hcomps]
        rw [List.append_assoc, cutNul_append hnul, List.cons_append, cutNul_cons]
        exact ⟨_, rfl⟩
      obtain ⟨cs, hst⟩ := hst
      exact key (cutName q) cs ⟨e', hfirst⟩ hst

end Ion
