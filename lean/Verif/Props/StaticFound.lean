import Verif.Props.StaticFiles

/-!
# A file answers to its name (C132)
-/

namespace Ion
namespace Props

open FS FileReader StaticFileHandler Files

/-- The target `path` asks, below `pfx`, for the file with this name: the names of directories and of the file,
separated by '/'; after the prefix there may be one '/' more, and a query may follow. Nothing, or '/', asks for
`index.html`. -/
inductive AsksFor (pfx : Bytes) : Bytes → List Name → Prop
  | index (rest : Bytes) : rest = [] ∨ rest = b!"/" → AsksFor pfx (pfx ++ rest) [b!"index.html"]
  | named (slash query : Bytes) (names : List Name) : slash = [] ∨ slash = b!"/" → names ≠ [] →
      (∀ c ∈ names, (0x3f : UInt8) ∉ c) → (query = [] ∨ ∃ q, query = 0x3f :: q) →
      AsksFor pfx (pfx ++ (slash ++ List.intercalate [0x2f] names ++ query)) names

theorem intercalate_no {x : UInt8} (hx : x ≠ 0x2f) : ∀ {names : List Name}, (∀ c ∈ names, x ∉ c) →
    x ∉ List.intercalate [0x2f] names := by
  intro names h
  simp only [List.intercalate, List.mem_flatten, not_exists, not_and]
  intro l hl hxl
  have : ∀ (names : List Name), (∀ c ∈ names, x ∉ c) → ∀ l ∈ List.intersperse [0x2f] names, x ∉ l := by
    intro names
    induction names with
    | nil => simp
    | cons c cs ih =>
      intro h
      cases cs with
      | nil => simpa using h
      | cons d ds =>
        intro l hl
        rw [List.intersperse_cons_cons] at hl
        rcases List.mem_cons.mp hl with rfl | hl
        · exact h _ (by simp)
        · rcases List.mem_cons.mp hl with rfl | hl
          · simpa using hx
          · exact ih (fun e he => h e (by simp [he])) l hl
  exact this names h l hl hxl

theorem intercalate_head {names : List Name} (hne : names ≠ []) (hv : ∀ c ∈ names, PathElem c) :
    List.intercalate [0x2f] names ≠ [] ∧ (List.intercalate [0x2f] names).head? ≠ some 0x2f := by
  cases names with
  | nil => exact absurd rfl hne
  | cons c cs =>
    have hc := hv c (by simp)
    cases c with
    | nil => exact absurd rfl hc.1
    | cons b bs =>
      have hb : b ≠ 0x2f := by
        have := hc.2
        simp only [List.mem_cons, not_or] at this
        exact fun h => this.1 h.symm
      cases cs with
      | nil => simp [List.intercalate, hb]
      | cons d ds => simp [List.intercalate, hb]

theorem takeWhile_all {x : Bytes} (h : (0x3f : UInt8) ∉ x) (query : Bytes) (hq : query = [] ∨ ∃ q, query = 0x3f :: q) :
    (x ++ query).takeWhile (· ≠ 0x3f) = x := by
  rw [List.takeWhile_append_of_pos (by
    intro a ha
    simp only [ne_eq, decide_not, Bool.not_eq_eq_eq_not, Bool.not_true, decide_eq_false_iff_not]
    rintro rfl
    exact h ha)]
  rcases hq with rfl | ⟨q, rfl⟩ <;> simp

/-- What the handler takes the target for. -/
theorem AsksFor.relative {h : StaticFileHandler} {path : Bytes} {names : List Name}
    (ha : AsksFor h.urlPrefix path names) (hv : ∀ c ∈ names, PathElem c) :
    h.getRelativePath path = List.intercalate [0x2f] names ∧ names ≠ [] := by
  cases ha with
  | index rest hr =>
    refine ⟨?_, by simp⟩
    rw [(C58_relative h rest).1 hr]
    decide
  | named slash query names hs hne hq hquery =>
    refine ⟨?_, hne⟩
    obtain ⟨h1, h2⟩ := intercalate_head hne hv
    have h3 := intercalate_no (by decide) hq
    simp only [getRelativePath, List.drop_left]
    generalize List.intercalate [0x2f] names = x at h1 h2 h3 ⊢
    cases x with
    | nil => exact absurd rfl h1
    | cons b bs =>
      have hb : b ≠ 0x2f := by simpa using h2
      rcases hs with rfl | rfl
      · have e1 : ¬ (decide (([] ++ b :: bs ++ query : Bytes) = []) || decide ([] ++ b :: bs ++ query = b!"/")) = true := by
          simp [hb]
        rw [if_neg e1, if_neg (by simpa using hb)]
        exact takeWhile_all h3 query hquery
      · have e1 : ¬ (decide ((b!"/" ++ b :: bs ++ query : Bytes) = []) || decide (b!"/" ++ b :: bs ++ query = b!"/")) = true := by
          simp
        rw [if_neg e1, if_pos (by simp)]
        exact takeWhile_all h3 query hquery

theorem parsePath_relative {names : List Name} (hne : names ≠ []) (hv : ∀ c ∈ names, PathElem c) :
    parsePath (List.intercalate [0x2f] names) = ⟨false, names, false⟩ := by
  simp only [parsePath, (splitSlash_joined names hv hne).1, filter_elems names hv, FPath.mk.injEq, true_and]
  refine ⟨by simpa using (intercalate_head hne hv).2, ?_⟩
  simp only [Bool.and_eq_false_iff, decide_eq_false_iff_not]
  right
  intro h
  exact (hv [] (List.mem_of_getLast? h)).1 rfl

/-- The directories on the way from `cur` down the names may be searched, where they exist. -/
def SearchableTo (fs : FS) (cur names : List Name) : Prop :=
  ∀ pre, pre <+: names → pre ≠ names → fs.look (cur ++ pre) = some .dir → fs.search (cur ++ pre) = true

theorem SearchableTo.next {fs : FS} {cur : List Name} {c : Name} {cs : List Name} (h : SearchableTo fs cur (c :: cs)) :
    SearchableTo fs (cur ++ [c]) cs := by
  intro pre hp hne hl
  have := h (c :: pre) (List.cons_prefix_cons.mpr ⟨rfl, hp⟩) (by simpa using hne) (by simpa using hl)
  simpa using this

theorem SearchableTo.mono {fs : FS} {cur a b : List Name} (h : SearchableTo fs cur b) (hab : a <+: b) :
    SearchableTo fs cur a := by
  intro pre hp hne hl
  refine h pre (hp.trans hab) ?_ hl
  rintro rfl
  exact hne (hp.eq_of_length (Nat.le_antisymm hp.length_le hab.length_le))

/-- Walking down proper names that are not links. -/
theorem resolve_plain {fs : FS} (hwf : fs.WF) (n : Nat) : ∀ (names cur : List Name), fs.Real cur →
    (∀ c ∈ names, ValidName c) → (∀ pre t, pre <+: names → fs.look (cur ++ pre) ≠ some (.link t)) →
    SearchableTo fs cur names → (∀ c ∈ names, c.length ≤ fs.nameMax) →
    (fs.Real (cur ++ names) ∧ fs.resolve n cur names = .ok (cur ++ names)) ∨
      (¬ fs.Real (cur ++ names) ∧ ∃ e, Errno.absent e = true ∧ fs.resolve n cur names = .error e) := by
  intro names
  induction names with
  | nil =>
    intro cur hr _ _ _ _
    exact .inl ⟨by simpa using hr, by simp [resolve_eq, walk_nil]⟩
  | cons c cs ih =>
    intro cur hr hv hl ho hm
    have hn : ∀ {nd}, fs.look (cur ++ c :: cs) = some nd → fs.look (cur ++ [c]) ≠ none := by
      intro nd hx hx'
      by_cases hcs : cs = []
      · subst hcs
        rw [hx'] at hx
        cases hx
      · rw [show cur ++ c :: cs = (cur ++ [c]) ++ cs from by simp] at hx
        rw [hwf.above cs _ _ hcs hx] at hx'
        cases hx'
    by_cases hd : fs.look cur = some .dir
    · have hs : fs.search cur = true := by
        have := ho [] List.nil_prefix (by simp) (by simpa using hd)
        simpa using this
      have hd : fs.Enter cur := ⟨hd, hs⟩
      rw [resolve_eq, walk_name fs _ hd (hv c (by simp)).notDot (hv c (by simp)).notDotDot]
      have hl' := fun t => hl [c] t (List.cons_prefix_cons.mpr ⟨rfl, List.nil_prefix⟩)
      have go : fs.Real (cur ++ [c]) → (fs.Real (cur ++ c :: cs) ∧ fs.walk (fs.next n) (cur ++ [c]) cs = .ok (cur ++ c :: cs)) ∨
          (¬ fs.Real (cur ++ c :: cs) ∧ ∃ e, Errno.absent e = true ∧ fs.walk (fs.next n) (cur ++ [c]) cs = .error e) := by
        intro hr'
        have := ih (cur ++ [c]) hr' (fun d hd => hv d (by simp [hd])) (fun pre t hp => by
          have := hl (c :: pre) t (List.cons_prefix_cons.mpr ⟨rfl, hp⟩)
          simpa using this) ho.next (fun d hd => hm d (by simp [hd]))
        rw [resolve_eq] at this
        simpa using this
      cases hx : fs.look (cur ++ [c]) with
      | none =>
        refine .inr ⟨fun h => ?_, .noEnt, rfl, by
          have := hm c (by simp)
          simp only
          rw [if_neg (by omega)]⟩
        obtain ⟨nd, h⟩ := h.some
        exact hn h hx
      | some nd =>
        cases nd with
        | link t => exact absurd hx (hl' t)
        | dir => exact go (hr.down hs hx (by simp))
        | file x r => exact go (hr.down hs hx (by simp))
        | special => exact go (hr.down hs hx (by simp))
    · rw [resolve_eq, walk_notDir fs _ hd]
      refine .inr ⟨fun h => ?_, .notDir, rfl, rfl⟩
      obtain ⟨nd, h⟩ := h.some
      exact hd (hwf.above (c :: cs) cur nd (by simp) h)

theorem existingPrefix_total {fs : FS} : ∀ (rev dne : List Name),
    (∀ pre e, pre <+: rev.reverse → fs.stat ⟨true, pre, false⟩ = .error e → e.absent = true) →
    ∃ loc d, fs.existingPrefix rev dne = .ok (loc, d) := by
  intro rev
  induction rev with
  | nil => intro dne _; exact ⟨_, _, rfl⟩
  | cons c rev ih =>
    intro dne h
    rw [existingPrefix]
    cases hx : fs.stat ⟨true, (c :: rev).reverse, false⟩ with
    | ok loc => exact ⟨_, _, rfl⟩
    | error e =>
      have := ih (c :: dne) (fun pre e hp => h pre e (hp.trans (by simp)))
      simp only
      rw [if_pos (h _ e (List.prefix_refl _) hx)]
      exact this

theorem normalize_valid {loc : List Name} (h : ∀ c ∈ loc, ValidName c) : normalize [] loc = loc := by
  have := normalize_append_valid loc [] [] h
  simpa [normalize] using this

/-- The path the file reader opens. -/
theorem sanitize_plain {fs : FS} (hwf : fs.WF) {root : Bytes} {base names : List Name}
    (hbase : fs.stat (parsePath root) = .ok base) (hdir : fs.look base = some .dir) (hne : names ≠ [])
    (hv : ∀ c ∈ names, ValidName c) (hl : ∀ pre t, pre <+: names → fs.look (base ++ pre) ≠ some (.link t))
    (ho : SearchableTo fs base names) (hm : ∀ c ∈ names, c.length ≤ fs.nameMax) :
    sanitizePath fs root (List.intercalate [0x2f] names) = some (FPath.render ⟨true, base ++ names, false⟩) := by
  have hvb := hwf.names _ _ hdir
  have hbr := stat_real hwf hbase
  have hva : ∀ c ∈ base ++ names, ValidName c := by
    intro c hc
    rcases List.mem_append.mp hc with hc | hc
    · exact hvb c hc
    · exact hv c hc
  have hpre : ∀ pre, pre <+: base ++ names → (fs.Real pre ∧ fs.resolve fs.maxLinks [] pre = .ok pre) ∨
      ∃ e, Errno.absent e = true ∧ fs.resolve fs.maxLinks [] pre = .error e := by
    intro pre hp
    rcases List.prefix_or_prefix_of_prefix hp (List.prefix_append base names) with hp' | ⟨t, rfl⟩
    · left
      have hr : fs.Real pre := by
        obtain ⟨u, rfl⟩ := hp'
        exact hbr.above hwf
      exact ⟨hr, resolve_root hwf _ hr⟩
    · have ht := (List.prefix_append_right_inj base).mp hp
      have := resolve_plain hwf fs.maxLinks t base hbr (fun c hc => hv c (ht.subset hc))
        (fun pre u hp => hl pre u (hp.trans ht)) (ho.mono ht) (fun c hc => hm c (ht.subset hc))
      have hdown : fs.resolve fs.maxLinks [] (base ++ t) = fs.resolve fs.maxLinks base t := by
        have := resolve_down hwf fs.maxLinks base t [] (by simpa using hbr)
        simpa using this
      rw [hdown]
      rcases this with ⟨h1, h2⟩ | ⟨-, h2⟩
      · exact .inl ⟨h1, h2⟩
      · exact .inr h2
  have hst : ∀ pre, pre <+: base ++ names → fs.stat ⟨true, pre, false⟩ = fs.resolve fs.maxLinks [] pre := by
    intro pre hp
    rw [stat_abs fs rfl, stepsOf]
    simp only [Bool.false_eq_true, if_false, List.append_nil]
    rw [cutNul_id fun c hc => (hva c (hp.subset hc)).noNul]
  have hwc : fs.weaklyCanonical ⟨true, base ++ names, false⟩ = .ok ⟨true, base ++ names, false⟩ := by
    rcases hpre _ (List.prefix_refl _) with ⟨-, h⟩ | ⟨e, he, h⟩
    · rw [weaklyCanonical, hst _ (List.prefix_refl _), h]
    · obtain ⟨loc, d, hx⟩ := existingPrefix_total (fs := fs) (base ++ names).reverse [] (by
        intro pre e' hp hx
        rw [List.reverse_reverse] at hp
        rw [hst pre hp] at hx
        rcases hpre pre hp with ⟨-, h⟩ | ⟨e, he, h⟩
        · rw [h] at hx; cases hx
        · rw [h] at hx; cases hx; exact he)
      have hw : fs.weaklyCanonical ⟨true, base ++ names, false⟩ =
          .ok (lexicallyNormal ⟨true, loc ++ d, false⟩) := by
        rw [weaklyCanonical, hst _ (List.prefix_refl _), h]
        simp only
        rw [if_pos he, hx]
      obtain ⟨P, Q, h1, h2, h3, -⟩ := existingPrefix_spec fs _ _ _ _ hx
      rw [List.reverse_reverse] at h1
      have hP : P <+: base ++ names := ⟨Q, h1.symm⟩
      rw [cutNul_id fun c hc => (hva c (hP.subset hc)).noNul] at h3
      have hloc : loc = P := by
        rcases hpre P hP with ⟨-, h⟩ | ⟨e, -, h⟩
        · rw [h] at h3
          cases h3
          rfl
        · rw [h] at h3
          cases h3
      have hall : loc ++ d = base ++ names := by rw [hloc, h2, h1]; simp
      rw [hw, hall]
      simp only [lexicallyNormal, normalize_valid hva, Except.ok.injEq, FPath.mk.injEq, true_and, Bool.false_or]
      simp only [Bool.and_eq_false_iff, Bool.or_eq_false_iff, decide_eq_false_iff_not]
      right
      exact ⟨fun h => (hva _ (List.mem_of_getLast? h)).notDot rfl,
        fun h => (hva _ (List.mem_of_getLast? h)).notDotDot rfl⟩
  have hw0 : fs.weaklyCanonical (fs.absolute (parsePath root)) = .ok ⟨true, base, false⟩ := by
    rw [weaklyCanonical, stat_absolute hwf _ (parsePath_trail _), hbase]
  rw [sanitizePath]
  simp only
  rw [stat_absolute hwf _ (parsePath_trail _), hbase]
  simp only
  rw [if_neg (by simp [hdir]), hw0]
  simp only
  rw [parsePath_relative hne fun c hc => (hv c hc).elem]
  simp only [Bool.false_eq_true, if_false, FPath.append, hne]
  rw [hwc]
  simp only
  rw [if_pos (prefix_within (by simp [FPath.elems]))]

/-- What lies below a place that is reached, along directories that may be searched, is reached. -/
theorem real_below {fs : FS} (hwf : fs.WF) {base names : List Name} (hbr : fs.Real base)
    (ho : SearchableTo fs base names) {n : Node} (hx : fs.look (base ++ names) = some n) (hn : ∀ t, n ≠ .link t) :
    fs.Real (base ++ names) := by
  refine ⟨⟨_, hx, hn⟩, ?_⟩
  intro pre c post e
  rcases List.append_eq_append_iff.mp e with ⟨a, ha, hb⟩ | ⟨a, ha, hb⟩
  · have hp : a <+: names := ⟨c :: post, hb.symm⟩
    have hdir : fs.look (base ++ a) = some .dir :=
      hwf.above (c :: post) _ _ (by simp) (by rw [List.append_assoc, ← hb]; exact hx)
    rw [ha]
    exact ho a hp (by rintro rfl; have := congrArg List.length hb; simp at this) hdir
  · cases a with
    | nil =>
      rw [List.append_nil] at ha
      have hne : ([] : List Name) ≠ names := by rintro rfl; simp at hb
      have hdir : fs.look (base ++ []) = some .dir := by
        have := hwf.above names base n hne.symm hx
        simpa using this
      have := ho [] List.nil_prefix hne hdir
      rw [← ha]; simpa using this
    | cons d a =>
      exact hbr.reach pre d a ha

/-- C132: a target made of a prefix and the names of directories and of a file below the root directory, none of
them a symbolic link, is answered with that file: 200 and the content for GET, 200 and the length for HEAD. If
there is no such file, or it cannot be read, the answer is 404. The directories on the way must be searchable, and for
404 no name must be longer than the system allows (otherwise: C150). -/
theorem C132_found {fs : FS} (hwf : fs.WF) (h : StaticFileHandler) {path : Bytes} {base names : List Name}
    (hbase : fs.stat (parsePath h.filesystemRoot) = .ok base) (hdir : fs.look base = some .dir)
    (ha : AsksFor h.urlPrefix path names) (hv : ∀ c ∈ names, ValidName c)
    (hl : ∀ pre t, pre <+: names → fs.look (base ++ pre) ≠ some (.link t)) (ho : SearchableTo fs base names) :
    (∀ content, fs.look (base ++ names) = some (.file content true) →
      (h.handle fs path false).status = 200 ∧ (h.handle fs path false).body = content ∧
      (h.handle fs path true).status = 200 ∧ (h.handle fs path true).body = [] ∧
      ∃ len, Spec.IsDecimal content.length len ∧
        (h.handle fs path true).headers.filter (fun x => x.name = b!"content-length") =
          [⟨b!"content-length", len⟩]) ∧
    ((∀ content, fs.look (base ++ names) ≠ some (.file content true)) → (∀ c ∈ names, c.length ≤ fs.nameMax) →
      ∀ head, h.handle fs path head = { status := 404 }) := by
  obtain ⟨hrel, hne⟩ := ha.relative (h := h) fun c hc => (hv c hc).elem
  have hbr := stat_real hwf hbase
  have hva : ∀ c ∈ base ++ names, ValidName c := by
    intro c hc
    rcases List.mem_append.mp hc with hc | hc
    · exact hwf.names _ _ hdir c hc
    · exact hv c hc
  refine ⟨?_, ?_⟩
  · intro content hc
    have hst : fs.stat ⟨true, base ++ names, false⟩ = .ok (base ++ names) := by
      rw [stat_abs fs rfl]
      simp only [stepsOf, Bool.false_eq_true, if_false, List.append_nil]
      rw [cutNul_id fun c hc => (hva c hc).noNul]
      exact resolve_root hwf _ (real_below hwf hbr ho hc (by simp))
    have hp : parsePath (h.getRelativePath path) = ⟨false, names, false⟩ := by
      rw [hrel]; exact parsePath_relative hne fun c hc => (hv c hc).elem
    have hex := fun head => (C53_existing hwf h path head hbase hdir (by rw [hp])
      (by rw [hp]; simp only [FPath.append, if_neg hne]; exact hst)).2 (List.prefix_append _ _) content hc
    have hhd := C55_head h fs path
    simp only [(hex false).1, (hex false).2 rfl] at hhd
    exact ⟨(hex false).1, (hex false).2 rfl, (hex true).1, hhd.2.1, hhd.2.2.2.1 trivial⟩
  · intro hno hm head
    have hs := sanitize_plain hwf hbase hdir hne hv hl ho hm
    rw [← hrel] at hs
    refine ((C56_status h fs path).2 _ hs).1 ?_ head
    rintro c ⟨loc, h1, h2⟩
    rw [statString_render rfl (by simp) fun c hc => (hva c hc).elem] at h1
    simp only [stepsOf, Bool.false_eq_true, if_false, List.append_nil] at h1
    rw [cutNul_id fun c hc => (hva c hc).noNul, resolve_down hwf fs.maxLinks base names [] (by simpa using hbr),
      List.nil_append] at h1
    rcases resolve_plain hwf fs.maxLinks names base hbr hv hl ho hm with ⟨-, h3⟩ | ⟨-, e, -, h3⟩
    · rw [h3] at h1
      cases h1
      exact hno c h2
    · rw [h3] at h1; cases h1

/-- `/static/css/a.css?v=2` is the file `/srv/www/css/a.css`. -/
example : (handler.handle site b!"/static/css/a.css?v=2" false).status = 200 ∧
    (handler.handle site b!"/static/css/a.css?v=2" false).body = b!"body{}" := by
  have := (C132_found site_wf handler (path := b!"/static/css/a.css?v=2") (base := [b!"srv", b!"www"])
    (names := [b!"css", b!"a.css"]) (by decide +kernel) (by decide +kernel)
    (.named b!"/" b!"?v=2" [b!"css", b!"a.css"] (.inr rfl) (by simp) (by decide +kernel) (.inr ⟨_, rfl⟩)) ?_ ?_
    (fun _ _ _ _ => rfl)).1 b!"body{}"
    (by decide +kernel)
  · exact ⟨this.1, this.2.1⟩
  · intro c hc
    simp only [List.mem_cons, List.not_mem_nil, or_false] at hc
    rcases hc with rfl | rfl <;> exact ⟨⟨by decide, by decide⟩, by decide, by decide, by decide⟩
  · rintro pre t ⟨rest, hp⟩ hx
    match pre, hp with
    | [], _ => revert hx; rw [show site.look ([b!"srv", b!"www"] ++ []) = some .dir from by decide +kernel]; simp
    | [_], hp =>
      simp only [List.cons_append, List.nil_append, List.cons.injEq] at hp
      obtain ⟨rfl, -⟩ := hp
      revert hx
      rw [show site.look ([b!"srv", b!"www"] ++ [b!"css"]) = some .dir from by decide +kernel]
      simp
    | [_, _], hp =>
      simp only [List.cons_append, List.nil_append, List.cons.injEq] at hp
      obtain ⟨rfl, rfl, -⟩ := hp
      revert hx
      rw [show site.look ([b!"srv", b!"www"] ++ [b!"css", b!"a.css"]) = some (.file b!"body{}" true) from by
        decide +kernel]
      simp
    | _ :: _ :: _ :: _, hp => simp at hp

end Props
end Ion
