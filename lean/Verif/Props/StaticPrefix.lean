import Verif.Props.Targets

/-! # Which targets are served, and what answers depend on (C118, C119) -/

namespace Ion

namespace Spec

/-- The target is the prefix itself or lies below it: the prefix ends where a segment of the path ends. -/
def Below (pfx target : Bytes) : Prop :=
  ∃ rest, target = pfx ++ rest ∧
    (rest = [] ∨ pfx.getLast? = some 0x2f ∨ rest.head? = some 0x2f ∨ rest.head? = some 0x3f)

end Spec

namespace Props
open FS FileReader StaticFileHandler Files Spec

/-! ### C118 -/

/-- C118, "only targets below the prefix are served from the directory", refuted in general: a target that goes on
after the prefix without a separator is answered as if there were one. -/
theorem C118_refuted (h : StaticFileHandler) (fs : FS) (c : UInt8) (rest : Bytes) (head : Bool) (hc : c ≠ 0x2f) :
    h.matches (h.urlPrefix ++ c :: rest) = true ∧
    h.handle fs (h.urlPrefix ++ c :: rest) head = h.handle fs (h.urlPrefix ++ 0x2f :: c :: rest) head := by
  refine ⟨by simp [StaticFileHandler.matches], ?_⟩
  have : h.getRelativePath (h.urlPrefix ++ c :: rest) = h.getRelativePath (h.urlPrefix ++ 0x2f :: c :: rest) := by
    simp only [getRelativePath, List.drop_left]
    have e1 : (c :: rest = [] || c :: rest = b!"/") = false := by simp [hc]
    have e2 : (0x2f :: c :: rest = [] || 0x2f :: c :: rest = b!"/") = false := by simp
    simp [hc]
  simp only [StaticFileHandler.handle, this]

/-- `/staticindex.html` is not below `/static`, and is served. -/
example : ¬ Below b!"/static" b!"/staticindex.html" ∧ (handler.handle site b!"/staticindex.html" false).status = 200 := by
  refine ⟨?_, by decide +kernel⟩
  rintro ⟨rest, h1, h2⟩
  have : rest = b!"index.html" := List.append_cancel_left (as := b!"/static") (h1.symm.trans (by decide))
  subst this
  revert h2
  decide

/-- C118, what holds: if the prefix ends with a separator, a target that is not below it is answered 404, unless
it is a built-in route. Missing: prefixes that do not. -/
theorem C118_below_partial (page : Page) (a : Args) (pfx root target method : Bytes)
    (hm : a.staticMap = [pfx, root]) (hp : pfx.getLast? = some 0x2f) (h : ¬ Below pfx target)
    (ht : ¬ (a.underTest = true ∧ method = b!"GET" ∧ target ∈ testPaths))
    (hs : ¬ (a.statusPage = true ∧ method = b!"GET" ∧ target = b!"/_ion/status")) :
    a.getHandler page target method =
      wrapped ((if a.statusPage = true then [statsMiddleware] else []) ++
        (if a.status404FilePath = [] then [] else [custom404 a.status404FilePath]))
        fun _ w => (.resp { status := 404 }, w) := by
  obtain ⟨t, h1, -, -, -, h5⟩ := C72_routes page a target method
  rw [h1, h5 ht hs]
  rintro ⟨s, r, e1, ⟨rest, e2⟩, -⟩
  rw [hm] at e1
  cases e1
  exact h ⟨rest, e2.symm, .inr (.inl hp)⟩

/-- With the prefix `/static/` the target of the example above is not found. -/
example : ¬ Below b!"/static/" b!"/staticindex.html" ∧
    (respOf (({ staticMap := [b!"/static/", b!"/srv/www"] } : Args).getHandler exPage b!"/staticindex.html" b!"GET"
      ⟨[], [], []⟩ exWorld)).map HttpResponse.status = some 404 := by
  refine ⟨?_, by decide +kernel⟩
  rintro ⟨rest, h1, -⟩
  have := congrArg (List.take 8) h1
  revert this
  simp

/-! ### C119 -/

/-- Two file systems hold the same in a directory, with the same permissions and the same limit on names. -/
structure SameBelow (base : List Name) (fs fs' : FS) : Prop where
  look : ∀ loc, base <+: loc → fs.look loc = fs'.look loc
  search : ∀ loc, base <+: loc → fs.search loc = fs'.search loc
  nameMax : fs.nameMax = fs'.nameMax

/-- A site below `/srv/www`, and what is in `/home`. -/
def Files.beside (home : List (List Name × Node)) : FS := ofList
  ([([b!"srv"], .dir), ([b!"srv", b!"www"], .dir), ([b!"srv", b!"www", b!"index.html"], .file b!"hello" true),
    ([b!"home"], .dir)] ++ home)

/-- C119, "what lies outside the served directory has no influence on the answers", refuted: whether
`/home/alice` is a symbolic link decides between 200 and 403. -/
theorem C119_refuted : ∃ (h : StaticFileHandler) (fs fs' : FS) (base : List Name) (path : Bytes),
    fs.WF ∧ fs'.WF ∧ fs.stat (parsePath h.filesystemRoot) = .ok base ∧
    fs'.stat (parsePath h.filesystemRoot) = .ok base ∧ SameBelow base fs fs' ∧
    (∀ loc c t, base <+: loc → fs.look (loc ++ [c]) ≠ some (.link t)) ∧
    (h.handle fs path false).status = 200 ∧ (h.handle fs' path false).status = 403 := by
  have look_below : ∀ home : List (List Name × Node), (∀ e ∈ home, e.1.head? = some b!"home") → ∀ t,
      (beside home).look ([b!"srv", b!"www"] ++ t) = (beside []).look ([b!"srv", b!"www"] ++ t) := by
    intro home hh t
    have : ∀ home : List (List Name × Node), (∀ e ∈ home, e.1.head? = some b!"home") →
        home.lookup ([b!"srv", b!"www"] ++ t) = none := by
      intro home
      induction home with
      | nil => intro _; rfl
      | cons e home ih =>
        intro hh
        obtain ⟨k, v⟩ := e
        rw [List.lookup_cons]
        split
        · rename_i hk
          have := hh (k, v) (by simp)
          rw [← eq_of_beq hk] at this
          simp at this
        · exact ih fun e he => hh e (by simp [he])
    have := this home hh
    simp only [List.cons_append, List.nil_append] at this
    simp only [look, beside, ofList, List.append_nil, List.cons_append, List.nil_append, List.lookup_cons,
      reduceCtorEq, if_false, this, List.lookup_nil]
  refine ⟨handler, beside [], beside [([b!"home", b!"alice"], .link b!"/home/deep/er"), ([b!"home", b!"deep"], .dir),
    ([b!"home", b!"deep", b!"er"], .dir)], [b!"srv", b!"www"],
    b!"/static/../../home/alice/../../srv/www/index.html", ofList_wf _ (by decide +kernel),
    ofList_wf _ (by decide +kernel), by decide +kernel, by decide +kernel, ?_, ?_, by decide +kernel,
    by decide +kernel⟩
  · refine ⟨?_, fun _ _ => rfl, rfl⟩
    rintro loc ⟨t, rfl⟩
    exact (look_below _ (by decide) t).symm
  · intro loc c t _ hl
    have hm : (loc ++ [c], Node.link t) ∈ _ := mem_of_lookup (by simpa [look, beside, ofList] using hl)
    simp at hm

theorem walk_agree {fs fs' : FS} {base : List Name} (hs : SameBelow base fs fs')
    (hn : ∀ loc c t, base <+: loc → fs.look (loc ++ [c]) ≠ some (.link t))
    (f g : List Name → List Name → Except Errno (List Name)) :
    ∀ s cur, base <+: cur → UpLast s → fs.walk f cur s = fs'.walk g cur s := by
  intro s
  induction s with
  | nil => intro cur _ _; rfl
  | cons c cs ih =>
    intro cur hc hu
    have hc' : base <+: cur ++ [c] := hc.trans (List.prefix_append ..)
    by_cases hd : fs'.Enter cur
    · have hd0 : fs.Enter cur := by rw [Enter, hs.look cur hc, hs.search cur hc]; exact hd
      by_cases h1 : c = b!"."
      · subst h1
        rw [walk_dot fs f hd0, walk_dot fs' g hd]; exact ih cur hc hu.2
      · by_cases h2 : c = b!".."
        · rw [hu.1 h2, h2, walk_up fs f hd0, walk_up fs' g hd]; rfl
        · rw [walk_name fs f hd0 h1 h2, walk_name fs' g hd h1 h2, hs.look _ hc', hs.nameMax]
          have hl := hn cur c
          rw [hs.look _ hc'] at hl
          rcases hk : fs'.look (cur ++ [c]) with _ | _ | ⟨x, r⟩ | t | _
          · rfl
          · exact ih _ hc' hu.2
          · exact ih _ hc' hu.2
          · exact absurd hk (hl t hc)
          · exact ih _ hc' hu.2
    · have hd0 : ¬ fs.Enter cur := by rw [Enter, hs.look cur hc, hs.search cur hc]; exact hd
      rw [walk_stuck fs f hd0, walk_stuck fs' g hd, stuck, stuck, hs.look cur hc]

/-- Where such a walk ends: in the directory, or right above it. -/
theorem walk_where {fs : FS} {base : List Name}
    (hn : ∀ loc c t, base <+: loc → fs.look (loc ++ [c]) ≠ some (.link t))
    (f : List Name → List Name → Except Errno (List Name)) :
    ∀ s cur l, base <+: cur → UpLast s → fs.walk f cur s = .ok l → base <+: l ∨ l = base.dropLast := by
  intro s
  induction s with
  | nil => intro cur l hc _ h; cases h; exact .inl hc
  | cons c cs ih =>
    intro cur l hc hu h
    have hc' : base <+: cur ++ [c] := hc.trans (List.prefix_append ..)
    by_cases hd : fs.Enter cur
    · by_cases h1 : c = b!"."
      · subst h1
        rw [walk_dot fs f hd] at h; exact ih cur l hc hu.2 h
      · by_cases h2 : c = b!".."
        · rw [hu.1 h2, h2, walk_up fs f hd] at h
          cases h
          obtain ⟨t, rfl⟩ := hc
          by_cases ht : t = []
          · subst ht; exact .inr (by rw [List.append_nil])
          · rw [List.dropLast_append_of_ne_nil ht]
            exact .inl (List.prefix_append ..)
        · rw [walk_name fs f hd h1 h2] at h
          rcases hk : fs.look (cur ++ [c]) with _ | _ | ⟨x, r⟩ | t | _
          · rw [hk] at h; cases h
          · rw [hk] at h; exact ih _ l hc' hu.2 h
          · rw [hk] at h; exact ih _ l hc' hu.2 h
          · exact absurd hk (hn cur c t hc)
          · rw [hk] at h; exact ih _ l hc' hu.2 h
    · rw [walk_stuck fs f hd] at h; cases h

/-- Below the directory both file systems resolve paths alike. -/
theorem stat_agree {fs fs' : FS} {base : List Name} (h : fs.WF) (h' : fs'.WF) (hs : SameBelow base fs fs')
    (hn : ∀ loc c t, base <+: loc → fs.look (loc ++ [c]) ≠ some (.link t)) (hd : fs.look base = some .dir)
    (hr : fs.Real base) (hr' : fs'.Real base) (cs : List Name) (t : Bool) (hu : b!".." ∉ cs) : fs.stat ⟨true, base ++ cs, t⟩ = fs'.stat ⟨true, base ++ cs, t⟩ := by
  have hnul : ∀ c ∈ base, (0 : UInt8) ∉ c := fun c hc => (h.names _ _ hd c hc).noNul
  rw [stat_abs fs rfl, stat_abs fs' rfl, stepsOf, List.append_assoc, cutNul_append hnul,
    resolve_down h _ base _ [] (by simpa using hr), resolve_down h' _ base _ [] (by simpa using hr'),
    List.nil_append, resolve_eq, resolve_eq]
  refine walk_agree hs hn _ _ _ _ (List.prefix_refl _) (upLast_cutNul _ ?_)
  intro hm
  rcases List.mem_append.mp hm with hm | hm
  · exact hu hm
  · split at hm
    · simp at hm
    · simp at hm

theorem existingPrefix_agree {fs fs' : FS} {base : List Name} (h : fs.WF) (h' : fs'.WF) (hs : SameBelow base fs fs')
    (hn : ∀ loc c t, base <+: loc → fs.look (loc ++ [c]) ≠ some (.link t)) (hd : fs.look base = some .dir)
    (hr : fs.Real base) (hr' : fs'.Real base) : ∀ rev dne : List Name, b!".." ∉ rev →
      fs.existingPrefix (rev ++ base.reverse) dne = fs'.existingPrefix (rev ++ base.reverse) dne := by
  intro rev
  induction rev with
  | nil =>
    intro dne _
    rw [List.nil_append]
    cases hb : base.reverse with
    | nil => rfl
    | cons c r =>
      have e : (c :: r).reverse = base ++ [] := by rw [← hb]; simp
      rw [existingPrefix, existingPrefix, e, ← stat_agree h h' hs hn hd hr hr' [] false (by simp), List.append_nil]
      have : fs.stat ⟨true, base, false⟩ = .ok base := by
        have hnul : ∀ c ∈ base, (0 : UInt8) ∉ c := fun c hc => (h.names _ _ hd c hc).noNul
        rw [stat_abs fs rfl, stepsOf]
        simp only [Bool.false_eq_true, if_false, List.append_nil]
        rw [cutNul_id hnul, resolve_root h _ hr]
      rw [this]
  | cons c rev ih =>
    intro dne hu
    simp only [List.mem_cons, not_or] at hu
    have e : (c :: (rev ++ base.reverse)).reverse = base ++ (rev.reverse ++ [c]) := by simp
    rw [List.cons_append, existingPrefix, existingPrefix, e,
      ← stat_agree h h' hs hn hd hr hr' (rev.reverse ++ [c]) false (by simp [hu])]
    split
    · rfl
    · split
      · exact ih _ hu.2
      · rfl

/-- What `sanitize_path` does once the base directory has been found. -/
theorem sanitizePath_eq {fs : FS} {b r : Bytes} {base : List Name}
    (hb : fs.stat (fs.absolute (parsePath b)) = .ok base) (hd : fs.look base = some .dir) :
    sanitizePath fs b r = match fs.weaklyCanonical (combinedPath base r) with
      | .error _ => none
      | .ok full => if within (FPath.elems ⟨true, base, false⟩) full.elems then some full.render else none := by
  have hw : fs.weaklyCanonical (fs.absolute (parsePath b)) = .ok ⟨true, base, false⟩ := by
    rw [weaklyCanonical, hb]
  rw [sanitizePath]
  simp only [hb, hw]
  rw [if_neg (by simp [hd])]
  rfl

/-- C119, what holds: if there are no symbolic links in the directory, a target that neither goes up nor names an
absolute path is answered alike whatever lies outside. Missing: the others. -/
theorem C119_outside_partial (h : StaticFileHandler) (fs fs' : FS) (base : List Name) (path : Bytes) (head : Bool)
    (h1 : fs.WF) (h2 : fs'.WF) (hb : fs.stat (parsePath h.filesystemRoot) = .ok base)
    (hb' : fs'.stat (parsePath h.filesystemRoot) = .ok base) (hd : fs.look base = some .dir)
    (hs : SameBelow base fs fs') (hn : ∀ loc c t, base <+: loc → fs.look (loc ++ [c]) ≠ some (.link t))
    (hr : (parsePath (h.getRelativePath path)).abs = false)
    (hu : b!".." ∉ (parsePath (h.getRelativePath path)).comps) :
    h.handle fs path head = h.handle fs' path head := by
  have hd' : fs'.look base = some .dir := by rw [← hs.look base (List.prefix_refl _)]; exact hd
  have hbr := stat_real h1 hb
  have hbr' := stat_real h2 hb'
  have hcp : combinedPath base (h.getRelativePath path) =
      FPath.append ⟨true, base, false⟩ (parsePath (h.getRelativePath path)) := by
    rw [combinedPath, if_neg (by simp [hr])]
  have hw : fs.weaklyCanonical (combinedPath base (h.getRelativePath path)) =
      fs'.weaklyCanonical (combinedPath base (h.getRelativePath path)) := by
    rw [hcp, weaklyCanonical, weaklyCanonical]
    simp only [FPath.append]
    rw [← stat_agree h1 h2 hs hn hd hbr hbr' _ _ hu, List.reverse_append,
      ← existingPrefix_agree h1 h2 hs hn hd hbr hbr' _ _ (by simpa using hu)]
  have hsan : sanitizePath fs h.filesystemRoot (h.getRelativePath path) =
      sanitizePath fs' h.filesystemRoot (h.getRelativePath path) := by
    rw [sanitizePath_eq (by rw [stat_absolute h1 _ (parsePath_trail _)]; exact hb) hd,
      sanitizePath_eq (by rw [stat_absolute h2 _ (parsePath_trail _)]; exact hb') hd', hw]
  rw [StaticFileHandler.handle, StaticFileHandler.handle, ← hsan]
  cases hx : sanitizePath fs h.filesystemRoot (h.getRelativePath path) with
  | none => rfl
  | some s =>
    obtain ⟨base2, full, e1, e2, e3, e4, ⟨rest, e5⟩, rfl⟩ := sanitizePath_spec h1 hx
    rw [stat_absolute h1 _ (parsePath_trail _), hb] at e1
    cases e1
    have hbe : ∀ c ∈ base, PathElem c := fun c hc => (h1.names _ _ hd c hc).elem
    obtain ⟨ha, ht, he⟩ := weaklyCanonical_elems h1 (combinedPath_abs base (h.getRelativePath path))
      (combinedPath_elems hbe (h.getRelativePath path)) e3
    have hst : fs.statString full.render = fs'.statString full.render := by
      rw [statString_render ha ht (fun x hx => (he x hx).1), statString_render ha ht (fun x hx => (he x hx).1)]
      have := stat_agree h1 h2 hs hn hd hbr hbr' rest full.trail (fun hm => (he b!".." (by rw [← e5]; simp [hm])).2.2 rfl)
      rw [e5, stat_abs fs rfl, stat_abs fs' rfl] at this
      exact this
    have hlk : ∀ l, fs.statString full.render = .ok l → fs.look l = fs'.look l := by
      intro l hl
      have hnul : ∀ c ∈ base, (0 : UInt8) ∉ c := fun c hc => (h1.names _ _ hd c hc).noNul
      rw [statString_render ha ht (fun x hx => (he x hx).1), stepsOf, ← e5, List.append_assoc, cutNul_append hnul,
        resolve_down h1 _ base _ [] (by simpa using hbr), List.nil_append, resolve_eq] at hl
      have hup : b!".." ∉ rest ++ (if full.trail then [b!"."] else []) := by
        intro hm
        rcases List.mem_append.mp hm with hm | hm
        · exact (he b!".." (by rw [← e5]; simp [hm])).2.2 rfl
        · split at hm
          · simp at hm
          · simp at hm
      rcases walk_where hn _ _ _ _ (List.prefix_refl _) (upLast_cutNul _ hup) hl with hb | rfl
      · exact hs.look l hb
      · rw [look_dropLast h1 hd, look_dropLast h2 hd']
    have r1 : isReadable fs full.render = isReadable fs' full.render := by
      rw [isReadable, isReadable, ← hst]
      split
      · rfl
      · rename_i l hl; rw [hlk l hl]
    have r2 : getFileSize fs full.render = getFileSize fs' full.render := by
      rw [getFileSize, getFileSize, ← hst]
      split
      · rfl
      · rename_i l hl; rw [hlk l hl]
    have r3 : readFile fs full.render = readFile fs' full.render := by
      rw [readFile, readFile, ← hst]
      split
      · rfl
      · rename_i l hl; rw [hlk l hl]
    simp only [fileResponse, headResponse, getResponse, r1, r2, r3]

/-- Both file systems of the witness agree on a target that does not go up. -/
example : (parsePath (handler.getRelativePath b!"/static/index.html")).abs = false ∧
    b!".." ∉ (parsePath (handler.getRelativePath b!"/static/index.html")).comps ∧
    (handler.handle (beside [([b!"home", b!"alice"], .link b!"/")]) b!"/static/index.html" false).body = b!"hello" := by
  decide +kernel

end Props
end Ion
