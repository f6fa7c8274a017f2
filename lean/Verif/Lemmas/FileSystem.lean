import Verif.Model.FileSystem

/-! Lemmas about paths and path resolution. -/

namespace Ion

/-! ## Strings and paths -/

/-- An element of a path: not empty, no separator. -/
def PathElem (c : Bytes) : Prop := c ≠ [] ∧ (0x2f : UInt8) ∉ c

theorem splitSlash_ne_nil (s : Bytes) : splitSlash s ≠ [] := by
  cases s with
  | nil => simp [splitSlash]
  | cons b bs =>
    simp only [splitSlash]
    split
    · simp
    · split <;> simp

theorem splitSlash_noSlash (s : Bytes) : ∀ c ∈ splitSlash s, (0x2f : UInt8) ∉ c := by
  induction s with
  | nil => simp [splitSlash]
  | cons b bs ih =>
    simp only [splitSlash]
    split
    · intro c hc
      rcases List.mem_cons.mp hc with h | h
      · subst h; simp
      · exact ih c h
    · rename_i hb
      split
      · intro c hc
        simp at hc
        subst hc
        simp; exact fun h => hb h.symm
      · rename_i x xs hx
        intro c hc
        rcases List.mem_cons.mp hc with h | h
        · subst h
          simp only [List.mem_cons, not_or]
          exact ⟨fun h => hb h.symm, ih x (by rw [hx]; simp)⟩
        · exact ih c (by rw [hx]; simp [h])

theorem parsePath_elems (s : Bytes) : ∀ c ∈ (parsePath s).comps, PathElem c := by
  intro c hc
  simp only [parsePath, List.mem_filter, decide_eq_true_eq] at hc
  exact ⟨hc.2, splitSlash_noSlash s c hc.1⟩

/-- Splitting a slash-free piece followed by a slash. -/
theorem splitSlash_piece (c : Bytes) (hc : (0x2f : UInt8) ∉ c) (s : Bytes) :
    splitSlash (c ++ 0x2f :: s) = c :: splitSlash s := by
  induction c with
  | nil => simp [splitSlash]
  | cons b bs ih =>
    simp only [List.mem_cons, not_or] at hc
    simp only [List.cons_append, splitSlash, ih hc.2]
    rw [if_neg (fun h => hc.1 h.symm)]

theorem splitSlash_last (c : Bytes) (hc : (0x2f : UInt8) ∉ c) : splitSlash c = [c] := by
  induction c with
  | nil => simp [splitSlash]
  | cons b bs ih =>
    simp only [List.mem_cons, not_or] at hc
    simp only [splitSlash, ih hc.2]
    rw [if_neg (fun h => hc.1 h.symm)]

theorem splitSlash_joined (comps : List Bytes) (hc : ∀ c ∈ comps, PathElem c) (hne : comps ≠ []) :
    splitSlash (List.intercalate [0x2f] comps) = comps ∧
    splitSlash (List.intercalate [0x2f] comps ++ [0x2f]) = comps ++ [[]] := by
  induction comps with
  | nil => exact absurd rfl hne
  | cons c cs ih =>
    have h1 := hc c (by simp)
    cases cs with
    | nil =>
      simp only [List.intercalate, List.intersperse, List.flatten_cons, List.flatten_nil, List.append_nil]
      exact ⟨splitSlash_last c h1.2, by rw [splitSlash_piece c h1.2]; simp [splitSlash]⟩
    | cons d ds =>
      have ih := ih (fun x hx => hc x (by simp [hx])) (by simp)
      have e : List.intercalate [0x2f] (c :: d :: ds) = c ++ 0x2f :: List.intercalate [0x2f] (d :: ds) := by
        simp [List.intercalate, List.intersperse]
      rw [e]
      refine ⟨?_, ?_⟩
      · rw [splitSlash_piece c h1.2, ih.1]
      · rw [List.append_assoc, List.cons_append, splitSlash_piece c h1.2, ih.2]
        rfl

theorem filter_elems (comps : List Bytes) (hc : ∀ c ∈ comps, PathElem c) :
    comps.filter (fun c => c ≠ []) = comps := by
  rw [List.filter_eq_self]
  intro c h
  simpa using (hc c h).1

/-- Rendering an absolute path and reading it back. -/
theorem parsePath_render (comps : List Bytes) (trail : Bool) (hc : ∀ c ∈ comps, PathElem c)
    (ht : trail = true → comps ≠ []) : parsePath (FPath.render ⟨true, comps, trail⟩) = ⟨true, comps, trail⟩ := by
  by_cases hne : comps = []
  · subst hne
    have : trail = false := by
      cases trail with
      | false => rfl
      | true => exact absurd rfl (ht rfl)
    subst this
    rfl
  · have hj := splitSlash_joined comps hc hne
    have hlast : ∀ c, comps.getLast? = some c → c ≠ [] := by
      intro c h
      exact (hc c (List.mem_of_getLast? h)).1
    have hl2 : comps.getLast? ≠ some [] := fun h => hlast _ h rfl
    cases trail with
    | false =>
      have hs : splitSlash (FPath.render ⟨true, comps, false⟩) = [] :: comps := by
        simp only [FPath.render, if_true, List.cons_append, List.nil_append]
        rw [show (0x2f : UInt8) :: (List.intercalate [0x2f] comps ++ if false = true then [0x2f] else [])
          = [] ++ 0x2f :: List.intercalate [0x2f] comps from by simp]
        rw [splitSlash_piece [] (by simp), hj.1]
      simp only [parsePath, hs]
      have hf : ([] :: comps).filter (fun c => decide (c ≠ [])) = comps := by
        rw [List.filter_cons]; simpa using filter_elems comps hc
      rw [hf]
      simp only [FPath.mk.injEq, true_and]
      refine ⟨by simp [FPath.render], ?_⟩
      rw [List.getLast?_cons]
      simp only [ne_eq, hne, not_false_eq_true, decide_true, Bool.true_and, decide_eq_false_iff_not]
      intro h
      cases hq : comps.getLast? with
      | none => exact hne (by simpa using hq)
      | some x => rw [hq] at h; simp at h; exact hl2 (by rw [hq, h])
    | true =>
      have hs : splitSlash (FPath.render ⟨true, comps, true⟩) = [] :: (comps ++ [[]]) := by
        simp only [FPath.render, if_true, List.cons_append, List.nil_append]
        rw [show (0x2f : UInt8) :: (List.intercalate [0x2f] comps ++ [0x2f])
          = [] ++ 0x2f :: (List.intercalate [0x2f] comps ++ [0x2f]) from by simp]
        rw [splitSlash_piece [] (by simp), hj.2]
      simp only [parsePath, hs]
      have hf : ([] :: (comps ++ [[]])).filter (fun c => decide (c ≠ [])) = comps := by
        rw [List.filter_cons, List.filter_append]
        simpa using filter_elems comps hc
      rw [hf]
      simp only [FPath.mk.injEq, true_and]
      refine ⟨by simp [FPath.render], ?_⟩
      rw [← List.cons_append, List.getLast?_concat]
      simp [hne]

theorem render_ne_nil (comps : List Bytes) (trail : Bool) : FPath.render ⟨true, comps, trail⟩ ≠ [] := by
  simp [FPath.render]

/-! ## Resolution -/

namespace FS

/-- A name that can appear in a directory. -/
structure ValidName (c : Name) : Prop where
  elem : PathElem c
  noNul : (0 : UInt8) ∉ c
  notDot : c ≠ b!"."
  notDotDot : c ≠ b!".."

/-- The file system is a tree: every node has a proper name and lies in a directory. The current directory and
everything above it may be searched. -/
structure WF (fs : FS) : Prop where
  node : ∀ loc c n, fs.node (loc ++ [c]) = some n → ValidName c ∧ fs.look loc = some .dir
  cwd : fs.look fs.cwd = some .dir
  reach : ∀ pre, pre <+: fs.cwd → fs.search pre = true

theorem look_snoc (fs : FS) (loc : List Name) (c : Name) : fs.look (loc ++ [c]) = fs.node (loc ++ [c]) := by
  simp [look]

theorem WF.parent {fs : FS} (h : fs.WF) {loc : List Name} {c : Name} {n : Node}
    (hl : fs.look (loc ++ [c]) = some n) : ValidName c ∧ fs.look loc = some .dir :=
  h.node loc c n (by rw [← look_snoc]; exact hl)

/-- Everything above an existing location is a directory. -/
theorem WF.above {fs : FS} (h : fs.WF) (rest : List Name) : ∀ loc n, rest ≠ [] →
    fs.look (loc ++ rest) = some n → fs.look loc = some .dir := by
  induction hr : rest.length generalizing rest with
  | zero => intro loc n hne; simp at hr; exact absurd hr hne
  | succ k ih =>
    intro loc n hne hl
    obtain ⟨init, c, rfl⟩ : ∃ init c, rest = init ++ [c] :=
      ⟨rest.dropLast, rest.getLast hne, (List.dropLast_concat_getLast hne).symm⟩
    have hp := h.parent (loc := loc ++ init) (c := c) (n := n) (by rw [← List.append_assoc] at hl; exact hl)
    by_cases hi : init = []
    · subst hi; simpa using hp.2
    · exact ih init (by simp at hr; exact hr) loc .dir hi hp.2

theorem WF.names {fs : FS} (h : fs.WF) : ∀ (loc : List Name) n, fs.look loc = some n → ∀ c ∈ loc, ValidName c := by
  intro loc
  induction hr : loc.length generalizing loc with
  | zero => simp at hr; subst hr; simp
  | succ k ih =>
    intro n hl c hc
    have hne : loc ≠ [] := by intro h; subst h; simp at hr
    obtain ⟨init, d, rfl⟩ : ∃ init d, loc = init ++ [d] :=
      ⟨loc.dropLast, loc.getLast hne, (List.dropLast_concat_getLast hne).symm⟩
    have hp := h.parent hl
    rcases List.mem_append.mp hc with hc | hc
    · exact ih init (by simp at hr; exact hr) .dir hp.2 c hc
    · simp at hc; subst hc; exact hp.1

theorem look_dropLast {fs : FS} (h : fs.WF) {loc : List Name} {n : Node} (hl : fs.look loc = some n) :
    fs.look loc.dropLast = some .dir := by
  by_cases hne : loc = []
  · subst hne; simp [look]
  · rw [← List.dropLast_concat_getLast hne] at hl
    exact (h.parent hl).2

/-! ### One step of `walk` -/

variable (fs : FS)

theorem walk_nil (f) (cur : List Name) : fs.walk f cur [] = .ok cur := by simp [walk]

/-- A directory that may be searched. -/
def Enter (cur : List Name) : Prop := fs.look cur = some .dir ∧ fs.search cur = true

/-- Why a location cannot be entered. -/
def stuck (cur : List Name) : Errno := if fs.look cur ≠ some .dir then .notDir else .access

theorem walk_stuck (f) {cur : List Name} (h : ¬ fs.Enter cur) (c : Name) (cs : List Name) :
    fs.walk f cur (c :: cs) = .error (fs.stuck cur) := by
  rw [walk, stuck]
  by_cases hd : fs.look cur = some .dir
  · have hs : fs.search cur = false := by
      cases hs : fs.search cur with
      | false => rfl
      | true => exact absurd ⟨hd, hs⟩ h
    simp [hd, hs]
  · rw [if_pos hd, if_pos hd]

theorem walk_notDir (f) {cur : List Name} (h : fs.look cur ≠ some .dir) (c : Name) (cs : List Name) :
    fs.walk f cur (c :: cs) = .error .notDir := by
  rw [walk_stuck fs f (fun h' => h h'.1), stuck, if_pos h]

theorem walk_dot (f) {cur : List Name} (h : fs.Enter cur) (cs : List Name) :
    fs.walk f cur (b!"." :: cs) = fs.walk f cur cs := by
  rw [walk, if_neg (by simp [h.1]), if_neg (by simp [h.2]), if_pos rfl]

theorem walk_up (f) {cur : List Name} (h : fs.Enter cur) (cs : List Name) :
    fs.walk f cur (b!".." :: cs) = fs.walk f cur.dropLast cs := by
  rw [walk, if_neg (by simp [h.1]), if_neg (by simp [h.2]), if_neg (by decide), if_pos rfl]

theorem walk_name (f) {cur : List Name} (h : fs.Enter cur) {c : Name} (h1 : c ≠ b!".")
    (h2 : c ≠ b!"..") (cs : List Name) : fs.walk f cur (c :: cs) =
      match fs.look (cur ++ [c]) with
      | none => .error (if fs.nameMax < c.length then .nameTooLong else .noEnt)
      | some (.link target) =>
        f (if (parsePath target).abs then [] else cur)
          ((parsePath target).comps ++ ((if (parsePath target).trail then [b!"."] else []) ++ cs))
      | some .dir => fs.walk f (cur ++ [c]) cs
      | some (.file _ _) => fs.walk f (cur ++ [c]) cs
      | some .special => fs.walk f (cur ++ [c]) cs := by
  rw [walk, if_neg (by simp [h.1]), if_neg (by simp [h.2]), if_neg h1, if_neg h2]
  rfl

/-- How the budget for following links is passed on. -/
def next : Nat → List Name → List Name → Except Errno (List Name)
  | 0 => fun _ _ => .error .loop
  | n + 1 => fs.resolve n

theorem resolve_eq (n : Nat) : fs.resolve n = fs.walk (fs.next n) := by
  cases n <;> rfl

/-! ### More budget changes nothing but "too many links" -/

theorem walk_mono {f g : List Name → List Name → Except Errno (List Name)}
    (hfg : ∀ a b, f a b ≠ .error .loop → g a b = f a b) :
    ∀ steps cur, fs.walk f cur steps ≠ .error .loop → fs.walk g cur steps = fs.walk f cur steps := by
  intro steps
  induction steps with
  | nil => intro cur _; simp [walk]
  | cons c cs ih =>
    intro cur h
    by_cases hd : fs.Enter cur
    · by_cases h1 : c = b!"."
      · subst h1
        rw [walk_dot fs f hd] at h ⊢
        rw [walk_dot fs g hd]
        exact ih _ h
      · by_cases h2 : c = b!".."
        · subst h2
          rw [walk_up fs f hd] at h ⊢
          rw [walk_up fs g hd]
          exact ih _ h
        · rw [walk_name fs f hd h1 h2] at h ⊢
          rw [walk_name fs g hd h1 h2]
          rcases hl : fs.look (cur ++ [c]) with _ | (_ | ⟨x, r⟩ | t | _)
          · rfl
          · simp only [hl] at h ⊢; exact ih _ h
          · simp only [hl] at h ⊢; exact ih _ h
          · simp only [hl] at h ⊢; exact hfg _ _ h
          · simp only [hl] at h ⊢; exact ih _ h
    · rw [walk_stuck fs f hd, walk_stuck fs g hd]

theorem resolve_succ : ∀ n cur steps, fs.resolve n cur steps ≠ .error .loop →
    fs.resolve (n + 1) cur steps = fs.resolve n cur steps := by
  intro n
  induction n with
  | zero =>
    intro cur steps h
    rw [resolve_eq, resolve_eq] at *
    exact walk_mono fs (fun a b h => absurd rfl h) steps cur h
  | succ n ih =>
    intro cur steps h
    rw [resolve_eq fs (n + 1)] at h ⊢
    rw [resolve_eq fs (n + 1 + 1)]
    exact walk_mono fs (fun a b h => ih a b h) steps cur h

theorem resolve_mono {n m : Nat} (hnm : n ≤ m) {cur steps : List Name}
    (h : fs.resolve n cur steps ≠ .error .loop) : fs.resolve m cur steps = fs.resolve n cur steps := by
  induction m with
  | zero => have : n = 0 := by omega
            subst this; rfl
  | succ m ih =>
    by_cases he : n = m + 1
    · subst he; rfl
    · have := ih (by omega)
      rw [resolve_succ fs m cur steps (by rw [this]; exact h), this]

/-! ### Resolving in two parts -/

theorem walk_append_of_error (n : Nat) (ihn : ∀ a s t e, fs.next n a s = .error e → fs.next n a (s ++ t) = .error e) :
    ∀ s cur t e, fs.walk (fs.next n) cur s = .error e → fs.walk (fs.next n) cur (s ++ t) = .error e := by
  intro s
  induction s with
  | nil => intro cur t e h; simp [walk] at h
  | cons c cs ih =>
    intro cur t e h
    rw [List.cons_append]
    by_cases hd : fs.Enter cur
    · by_cases h1 : c = b!"."
      · subst h1
        rw [walk_dot fs _ hd] at h ⊢
        exact ih _ _ _ h
      · by_cases h2 : c = b!".."
        · subst h2
          rw [walk_up fs _ hd] at h ⊢
          exact ih _ _ _ h
        · rw [walk_name fs _ hd h1 h2] at h ⊢
          rcases hl : fs.look (cur ++ [c]) with _ | (_ | ⟨x, r⟩ | tg | _)
          · simp only [hl] at h ⊢; exact h
          · simp only [hl] at h ⊢; exact ih _ _ _ h
          · simp only [hl] at h ⊢; exact ih _ _ _ h
          · simp only [hl] at h ⊢
            have := ihn _ _ t _ h
            simpa [List.append_assoc] using this
          · simp only [hl] at h ⊢; exact ih _ _ _ h
    · rw [walk_stuck fs _ hd] at h ⊢
      exact h

theorem resolve_append_of_error : ∀ n s cur t e, fs.resolve n cur s = .error e →
    fs.resolve n cur (s ++ t) = .error e := by
  intro n
  induction n with
  | zero =>
    intro s cur t e h
    rw [resolve_eq] at *
    exact walk_append_of_error fs 0 (fun a s t e h => h) s cur t e h
  | succ n ih =>
    intro s cur t e h
    rw [resolve_eq fs (n + 1)] at h ⊢
    exact walk_append_of_error fs (n + 1) (fun a s t e h => ih s a t e h) s cur t e h

theorem walk_append_of_ok (n : Nat)
    (ihn : ∀ a s t l, fs.next n a s = .ok l → ∃ j, j ≤ n ∧ fs.next n a (s ++ t) = fs.resolve j l t) :
    ∀ s cur t l, fs.walk (fs.next n) cur s = .ok l →
      ∃ j, j ≤ n ∧ fs.walk (fs.next n) cur (s ++ t) = fs.resolve j l t := by
  intro s
  induction s with
  | nil =>
    intro cur t l h
    simp [walk] at h; subst h
    exact ⟨n, Nat.le_refl _, by rw [List.nil_append, resolve_eq]⟩
  | cons c cs ih =>
    intro cur t l h
    rw [List.cons_append]
    by_cases hd : fs.Enter cur
    · by_cases h1 : c = b!"."
      · subst h1
        rw [walk_dot fs _ hd] at h ⊢
        exact ih _ _ _ h
      · by_cases h2 : c = b!".."
        · subst h2
          rw [walk_up fs _ hd] at h ⊢
          exact ih _ _ _ h
        · rw [walk_name fs _ hd h1 h2] at h ⊢
          rcases hl : fs.look (cur ++ [c]) with _ | (_ | ⟨x, r⟩ | tg | _)
          · simp only [hl] at h; cases h
          · simp only [hl] at h ⊢; exact ih _ _ _ h
          · simp only [hl] at h ⊢; exact ih _ _ _ h
          · simp only [hl] at h ⊢
            have := ihn _ _ t _ h
            simpa [List.append_assoc] using this
          · simp only [hl] at h ⊢; exact ih _ _ _ h
    · rw [walk_stuck fs _ hd] at h
      cases h

theorem resolve_append_of_ok : ∀ n s cur t l, fs.resolve n cur s = .ok l →
    ∃ j, j ≤ n ∧ fs.resolve n cur (s ++ t) = fs.resolve j l t := by
  intro n
  induction n with
  | zero =>
    intro s cur t l h
    rw [resolve_eq] at h
    rw [resolve_eq fs 0]
    exact walk_append_of_ok fs 0 (fun a s t e h => by simp [next] at h) s cur t l h
  | succ n ih =>
    intro s cur t l h
    rw [resolve_eq] at h
    rw [resolve_eq fs (n + 1)]
    refine walk_append_of_ok fs (n + 1) (fun a s t e h => ?_) s cur t l h
    obtain ⟨j, hj, h⟩ := ih s a t e h
    exact ⟨j, by omega, h⟩

/-! ### Results exist and are not links -/

/-- There, not a symbolic link, and every directory on the way from the root may be searched. -/
structure Real (loc : List Name) : Prop where
  there : ∃ n, fs.look loc = some n ∧ ∀ t, n ≠ .link t
  reach : ∀ pre c post, loc = pre ++ c :: post → fs.search pre = true

theorem Real.root : fs.Real [] := ⟨⟨.dir, by simp [look], by simp⟩, by simp⟩

theorem Real.down {fs : FS} {loc : List Name} (h : fs.Real loc) (hs : fs.search loc = true) {c : Name} {n : Node}
    (hl : fs.look (loc ++ [c]) = some n) (hn : ∀ t, n ≠ .link t) : fs.Real (loc ++ [c]) := by
  refine ⟨⟨n, hl, hn⟩, ?_⟩
  intro pre d post e
  rcases List.eq_nil_or_concat post with rfl | ⟨post', x, rfl⟩
  · have := List.append_inj_left' e (by simp)
    rw [← this]; exact hs
  · refine h.reach pre d post' ?_
    have e' : loc ++ [c] = (pre ++ d :: post') ++ [x] := by simpa using e
    exact List.append_inj_left' e' (by simp)

theorem Real.above {fs : FS} (hwf : fs.WF) {loc rest : List Name} (h : fs.Real (loc ++ rest)) : fs.Real loc := by
  refine ⟨?_, ?_⟩
  · by_cases hr : rest = []
    · subst hr; simpa using h.there
    · obtain ⟨n, hn, _⟩ := h.there
      exact ⟨.dir, hwf.above rest loc n hr hn, by simp⟩
  · intro pre c post e
    exact h.reach pre c (post ++ rest) (by rw [e]; simp)

theorem Real.up {fs : FS} (hwf : fs.WF) {loc : List Name} (h : fs.Real loc) : fs.Real loc.dropLast := by
  by_cases hne : loc = []
  · subst hne; exact h
  · rw [← List.dropLast_concat_getLast hne] at h
    exact h.above hwf

theorem Real.cwd {fs : FS} (hwf : fs.WF) : fs.Real fs.cwd := 
  ⟨⟨_, hwf.cwd, by simp⟩, fun pre _ _ e => hwf.reach pre (by rw [e]; exact List.prefix_append _ _)⟩

theorem walk_real {fs : FS} (hwf : fs.WF) (n : Nat)
    (ihn : ∀ a s l, fs.Real a → fs.next n a s = .ok l → fs.Real l) :
    ∀ s cur l, fs.Real cur → fs.walk (fs.next n) cur s = .ok l → fs.Real l := by
  intro s
  induction s with
  | nil => intro cur l hr h; simp [walk] at h; subst h; exact hr
  | cons c cs ih =>
    intro cur l hr h
    by_cases hd : fs.Enter cur
    · by_cases h1 : c = b!"."
      · subst h1
        rw [walk_dot fs _ hd] at h
        exact ih _ _ hr h
      · by_cases h2 : c = b!".."
        · subst h2
          rw [walk_up fs _ hd] at h
          exact ih _ _ (hr.up hwf) h
        · rw [walk_name fs _ hd h1 h2] at h
          split at h
          · cases h
          · refine ihn _ _ _ ?_ h
            split
            · exact Real.root fs
            · exact hr
          · rename_i e; exact ih _ _ (hr.down hd.2 e (by simp)) h
          · rename_i e; exact ih _ _ (hr.down hd.2 e (by simp)) h
          · rename_i e; exact ih _ _ (hr.down hd.2 e (by simp)) h
    · rw [walk_stuck fs _ hd] at h
      cases h

theorem resolve_real {fs : FS} (hwf : fs.WF) : ∀ n s cur l, fs.Real cur → fs.resolve n cur s = .ok l →
    fs.Real l := by
  intro n
  induction n with
  | zero =>
    intro s cur l hr h
    rw [resolve_eq] at h
    exact walk_real hwf 0 (fun a s l _ h => by simp [next] at h) s cur l hr h
  | succ n ih =>
    intro s cur l hr h
    rw [resolve_eq] at h
    exact walk_real hwf (n + 1) (fun a s l hr h => ih s a l hr h) s cur l hr h

/-- Whatever a path resolves to is there. -/
theorem stat_real {fs : FS} (hwf : fs.WF) {p : FPath} {l : List Name} (h : fs.stat p = .ok l) : fs.Real l := by
  rw [stat] at h
  refine resolve_real hwf _ _ _ _ ?_ h
  split
  · exact Real.root fs
  · exact Real.cwd hwf

theorem Real.some {fs : FS} {loc : List Name} (h : fs.Real loc) : ∃ n, fs.look loc = some n :=
  h.there.imp fun _ h => h.1

/-- Walking down real names stays on the path. -/
theorem resolve_down {fs : FS} (hwf : fs.WF) (n : Nat) : ∀ (s t cur : List Name), fs.Real (cur ++ s) →
    fs.resolve n cur (s ++ t) = fs.resolve n (cur ++ s) t := by
  intro s
  induction s with
  | nil => intro t cur _; simp
  | cons c cs ih =>
    intro t cur hr
    obtain ⟨nd, hnd⟩ := hr.some
    have hd : fs.Enter cur := ⟨hwf.above (c :: cs) cur nd (by simp) hnd, hr.reach cur c cs rfl⟩
    have hv := hwf.names _ _ hnd c (by simp)
    have e : cur ++ c :: cs = (cur ++ [c]) ++ cs := by simp
    have hr' : fs.Real ((cur ++ [c]) ++ cs) := by rw [← e]; exact hr
    have ih := ih t (cur ++ [c]) hr'
    obtain ⟨nc, hc, hl⟩ := (hr'.above hwf).there
    rw [List.cons_append, e, ← ih, resolve_eq, walk_name fs _ hd hv.notDot hv.notDotDot]
    cases nc with
    | link t => exact absurd rfl (hl t)
    | dir => simp only [hc]
    | file => simp only [hc]
    | special => simp only [hc]

/-- The same when it is known that the walk succeeds. -/
theorem resolve_down_ok {fs : FS} (hwf : fs.WF) (n : Nat) : ∀ (s t cur l : List Name) (nd : Node),
    fs.look (cur ++ s) = some nd → (∀ t, nd ≠ .link t) → fs.resolve n cur (s ++ t) = .ok l →
    fs.resolve n (cur ++ s) t = .ok l := by
  intro s
  induction s with
  | nil => intro t cur l nd _ _ h; simpa using h
  | cons c cs ih =>
    intro t cur l nd hnd hl h
    have hv := hwf.names _ _ hnd c (by simp)
    have e : cur ++ c :: cs = (cur ++ [c]) ++ cs := by simp
    have hc : ∃ nc, fs.look (cur ++ [c]) = some nc ∧ ∀ t, nc ≠ .link t := by
      by_cases hcs : cs = []
      · subst hcs; exact ⟨nd, hnd, hl⟩
      · exact ⟨.dir, hwf.above cs _ nd hcs (by rw [← e]; exact hnd), by simp⟩
    obtain ⟨nc, hc, hl'⟩ := hc
    rw [List.cons_append, resolve_eq] at h
    by_cases hd : fs.Enter cur
    · rw [walk_name fs _ hd hv.notDot hv.notDotDot] at h
      rw [e]
      refine ih t (cur ++ [c]) l nd (by rw [← e]; exact hnd) hl ?_
      rw [resolve_eq]
      cases nc with
      | link t => exact absurd rfl (hl' t)
      | dir => simpa only [hc] using h
      | file => simpa only [hc] using h
      | special => simpa only [hc] using h
    · rw [walk_stuck fs _ hd] at h; cases h

theorem resolve_root {fs : FS} (hwf : fs.WF) (n : Nat) {loc : List Name} (hr : fs.Real loc) :
    fs.resolve n [] loc = .ok loc := by
  have := resolve_down hwf n loc [] [] (by simpa using hr)
  simp only [List.append_nil, List.nil_append] at this
  rw [this, resolve_eq, walk_nil]

end FS
end Ion
