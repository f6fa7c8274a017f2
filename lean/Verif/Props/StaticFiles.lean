import Verif.Lemmas.StaticFiles
import Verif.Lemmas.ConnServe

/-! # Static files (C53-C58) -/

namespace Ion
namespace Props

open FS FileReader StaticFileHandler

/-! ## Concrete file systems for the examples -/

namespace Files

/-- A file system listing its nodes. -/
def ofList (es : List (List Name × Node)) : FS := { node := fun l => es.lookup l }

def validName (c : Name) : Bool :=
  c ≠ [] && !c.contains 0x2f && !c.contains 0 && c ≠ b!"." && c ≠ b!".."

theorem mem_of_lookup {es : List (List Name × Node)} {l : List Name} {n : Node} (h : es.lookup l = some n) :
    (l, n) ∈ es := by
  induction es with
  | nil => simp at h
  | cons e es ih =>
    obtain ⟨k, v⟩ := e
    simp only [List.lookup_cons] at h
    split at h
    · rename_i hk
      simp at h hk
      subst h; subst hk
      simp
    · exact List.mem_cons_of_mem _ (ih h)

theorem ofList_wf (es : List (List Name × Node))
    (h : es.all (fun e => validName (e.1.getLast?.getD []) && (ofList es).look e.1.dropLast = some .dir) = true) :
    (ofList es).WF where
  node := by
    intro loc c n hn
    have hm := mem_of_lookup hn
    rw [List.all_eq_true] at h
    have := h _ hm
    simp only [List.getLast?_concat, Option.getD_some, List.dropLast_concat, Bool.and_eq_true,
      decide_eq_true_eq, validName, Bool.not_eq_true', ne_eq] at this
    obtain ⟨⟨⟨⟨⟨h1, h2⟩, h3⟩, h4⟩, h5⟩, h6⟩ := this
    exact ⟨⟨⟨h1, by simpa using h2⟩, by simpa using h3, h4, h5⟩, h6⟩
  cwd := by simp [look, ofList]
  reach := by simp [ofList]

/-- `/srv/www` with a page, a style sheet in a sub-directory, an unreadable file and a symbolic link to
`/etc`; `/etc/passwd` outside it. -/
def site : FS := ofList
  [([b!"srv"], .dir), ([b!"srv", b!"www"], .dir),
   ([b!"srv", b!"www", b!"index.html"], .file b!"hello" true),
   ([b!"srv", b!"www", b!"css"], .dir),
   ([b!"srv", b!"www", b!"css", b!"a.css"], .file b!"body{}" true),
   ([b!"srv", b!"www", b!"private"], .file b!"none" false),
   ([b!"srv", b!"www", b!"link"], .link b!"/etc"),
   ([b!"srv", b!"www", b!"home"], .link b!"index.html"),
   ([b!"etc"], .dir), ([b!"etc", b!"passwd"], .file b!"root:x" true)]

theorem site_wf : site.WF := ofList_wf _ (by decide +kernel)

def handler : StaticFileHandler := ⟨b!"/static", b!"/srv/www"⟩

end Files

open Files

/-! ## C56: status codes -/

/-- Opening `path` gives a readable regular file with this content. -/
def Opens (fs : FS) (path content : Bytes) : Prop :=
  ∃ loc, fs.statString path = .ok loc ∧ fs.look loc = some (.file content true)

theorem isReadable_iff {fs : FS} {p : Bytes} : isReadable fs p = true ↔ ∃ c, Opens fs p c := by
  unfold isReadable Opens
  constructor
  · intro h
    split at h
    · simp at h
    · rename_i loc hl
      split at h
      · rename_i c r hc
        subst h
        exact ⟨c, loc, hl, hc⟩
      · simp at h
  · rintro ⟨c, loc, h1, h2⟩
    rw [h1]; simp only [h2]

theorem readFile_of {fs : FS} {p c : Bytes} (h : Opens fs p c) : readFile fs p = some c := by
  obtain ⟨loc, h1, h2⟩ := h
  rw [readFile, h1]; simp only [h2]

theorem getFileSize_of {fs : FS} {p c : Bytes} (h : Opens fs p c) : getFileSize fs p = some c.length := by
  obtain ⟨loc, h1, h2⟩ := h
  rw [getFileSize, h1]; simp only [h2]

theorem Opens.unique {fs : FS} {p c d : Bytes} (h : Opens fs p c) (h' : Opens fs p d) : c = d := by
  have := readFile_of h
  rw [readFile_of h'] at this
  simpa using this.symm

/-- C56. A refused path is answered 403; a path that does not open is answered 404; any other path is
answered 200 with the file's bytes and its content type. Nothing else happens. -/
theorem C56_status (h : StaticFileHandler) (fs : FS) (path : Bytes) :
    (sanitizePath fs h.filesystemRoot (h.getRelativePath path) = none →
      ∀ head, h.handle fs path head = { status := 403 }) ∧
    (∀ s, sanitizePath fs h.filesystemRoot (h.getRelativePath path) = some s →
      ((∀ c, ¬ Opens fs s c) → ∀ head, h.handle fs path head = { status := 404 }) ∧
      (∀ c, Opens fs s c → h.handle fs path false =
        { status := 200, body := c, headers := [⟨b!"content-type", getMimeType s⟩] })) := by
  refine ⟨?_, ?_⟩
  · intro hs head
    rw [handle, hs]
  · intro s hs
    refine ⟨?_, ?_⟩
    · intro hno head
      have : isReadable fs s = false := by
        cases hr : isReadable fs s with
        | false => rfl
        | true => obtain ⟨c, hc⟩ := isReadable_iff.mp hr; exact absurd hc (hno c)
      rw [handle, hs]
      simp only [fileResponse, this, Bool.not_false, if_true]
    · intro c hc
      rw [handle, hs]
      simp only [fileResponse, isReadable_iff.mpr ⟨c, hc⟩, Bool.not_true, Bool.false_eq_true, if_false,
        getResponse, readFile_of hc]

/-- C56, the codes: each of the three answers is given exactly in its case. -/
theorem C56_codes (h : StaticFileHandler) (fs : FS) (path : Bytes) (head : Bool) :
    ((h.handle fs path head).status = 403 ↔
      sanitizePath fs h.filesystemRoot (h.getRelativePath path) = none) ∧
    ((h.handle fs path head).status = 404 ↔ ∃ s,
      sanitizePath fs h.filesystemRoot (h.getRelativePath path) = some s ∧ ∀ c, ¬ Opens fs s c) ∧
    ((h.handle fs path head).status = 200 ↔ ∃ s c,
      sanitizePath fs h.filesystemRoot (h.getRelativePath path) = some s ∧ Opens fs s c) := by
  cases hs : sanitizePath fs h.filesystemRoot (h.getRelativePath path) with
  | none =>
    rw [(C56_status h fs path).1 hs head]
    simp
  | some s =>
    by_cases ho : ∃ c, Opens fs s c
    · obtain ⟨c, hc⟩ := ho
      have h200 : (h.handle fs path head).status = 200 := by
        rw [handle, hs]
        simp only [fileResponse, isReadable_iff.mpr ⟨c, hc⟩, Bool.not_true, Bool.false_eq_true, if_false,
          getResponse, readFile_of hc, headResponse, getFileSize_of hc]
        cases head <;> rfl
      rw [h200]
      refine ⟨by simp, ?_, by simp; exact ⟨c, hc⟩⟩
      simp only [show ¬ ((200 : UInt16) = 404) from by decide, false_iff]
      rintro ⟨s', hs', h'⟩
      cases hs'
      exact h' c hc
    · have hno : ∀ c, ¬ Opens fs s c := fun c hc => ho ⟨c, hc⟩
      rw [((C56_status h fs path).2 s hs).1 hno head]
      refine ⟨by simp, by simp; exact hno, ?_⟩
      simp only [show ¬ ((404 : UInt16) = 200) from by decide, false_iff]
      rintro ⟨s', c, hs', h'⟩
      cases hs'
      exact hno c h'

example : (handler.handle site b!"/static/css/a.css" false) =
    { status := 200, body := b!"body{}", headers := [⟨b!"content-type", b!"text/css; charset=utf-8"⟩] } := by
  decide +kernel
example : (handler.handle site b!"/static/../../etc/passwd" false).status = 403 := by decide +kernel
example : (handler.handle site b!"/static/none" false).status = 404 := by decide +kernel
example : (handler.handle site b!"/static/private" false).status = 404 := by decide +kernel
example : (handler.handle site b!"/static/css" false).status = 404 := by decide +kernel

/-! ## C54: sanitised paths are normal -/

theorem parsePath_trail (s : Bytes) : (parsePath s).trail = true → (parsePath s).comps ≠ [] := by
  simp only [parsePath, Bool.and_eq_true, decide_eq_true_eq]
  exact fun h => h.1

/-- C54. A path `sanitize_path` returns is absolute, starts with the elements of the place the base
directory resolves to, and contains neither '.' nor '..'. -/
theorem C54_normal {fs : FS} (hwf : fs.WF) {baseDir requested s : Bytes}
    (h : sanitizePath fs baseDir requested = some s) :
    ∃ base, fs.stat (parsePath baseDir) = .ok base ∧ fs.look base = some .dir ∧
      (parsePath s).abs = true ∧ base <+: (parsePath s).comps ∧
      ∀ c ∈ (parsePath s).comps, c ≠ b!"." ∧ c ≠ b!".." := by
  obtain ⟨base, full, h1, h2, h3, h4, h5, rfl⟩ := sanitizePath_spec hwf h
  rw [stat_absolute hwf _ (parsePath_trail baseDir)] at h1
  have hb : ∀ c ∈ base, PathElem c := fun c hc => (hwf.names _ _ h2 c hc).elem
  obtain ⟨ha, ht, he⟩ := weaklyCanonical_elems hwf (combinedPath_abs base requested) (combinedPath_elems hb requested) h3
  obtain ⟨a, c, t⟩ := full
  simp only at ha
  subst ha
  rw [parsePath_render c t (fun x hx => (he x hx).1) ht]
  exact ⟨base, h1, h2, rfl, h5, fun x hx => (he x hx).2⟩

example : sanitizePath site b!"/srv/../srv/www" b!"css/../css/./a.css" = some b!"/srv/www/css/a.css" := by
  decide +kernel
example : sanitizePath site b!"/srv/www" b!"nothing/../here/" = some b!"/srv/www/here/" := by decide +kernel

/-! ## C53: serving never leaves the directory -/

/-- C53 as stated fails. With a symbolic link in the served directory to a place outside it, a request
for the link is refused, but putting a non-existing element and '..' in front makes `weakly_canonical`
treat the rest as plain text, the check passes, and the file outside is served. -/
theorem C53_refuted : ∃ (fs : FS) (h : StaticFileHandler) (path : Bytes) (base : List Name),
    fs.WF ∧ fs.stat (parsePath h.filesystemRoot) = .ok base ∧
    h.handle fs b!"/static/link/passwd" false = { status := 403 } ∧
    (h.handle fs path false).status = 200 ∧
    ∀ loc r, base <+: loc → fs.look loc ≠ some (.file (h.handle fs path false).body r) := by
  refine ⟨site, handler, b!"/static/x/../link/passwd", [b!"srv", b!"www"], site_wf, by decide +kernel,
    by decide +kernel, by decide +kernel, ?_⟩
  have hb : (handler.handle site b!"/static/x/../link/passwd" false).body = b!"root:x" := by decide +kernel
  intro loc r hp hl
  rw [hb] at hl
  obtain ⟨t, rfl⟩ := hp
  have hm : ([b!"srv", b!"www"] ++ t, Node.file b!"root:x" r) ∈ _ := mem_of_lookup (by
    simpa [look, site, ofList] using hl)
  simp at hm

/-- C53, what holds: if the request has no '..' element, or every symbolic link in the served directory
leads to a place in it, then whatever is served (the body for GET, the size for HEAD) belongs to a
readable regular file in the directory the configured root resolves to. Missing: requests with '..'
into directories holding links that lead out, where it is false. -/
theorem C53_inside_partial {fs : FS} (hwf : fs.WF) (h : StaticFileHandler) (path : Bytes) (head : Bool)
    (hc : b!".." ∉ (parsePath (h.getRelativePath path)).comps ∨
      ∀ base, fs.stat (parsePath h.filesystemRoot) = .ok base → fs.LinksStay base)
    (hok : (h.handle fs path head).status = 200) :
    ∃ base loc content, fs.stat (parsePath h.filesystemRoot) = .ok base ∧ base <+: loc ∧
      fs.look loc = some (.file content true) ∧
      (head = false → (h.handle fs path head).body = content) := by
  obtain ⟨s, c, hs, hopen⟩ := (C56_codes h fs path head).2.2.mp hok
  obtain ⟨base, full, h1, h2, h3, h4, h5, rfl⟩ := sanitizePath_spec hwf hs
  rw [stat_absolute hwf _ (parsePath_trail _)] at h1
  have hb : ∀ c ∈ base, PathElem c := fun c hc => (hwf.names _ _ h2 c hc).elem
  have habs := combinedPath_abs base (h.getRelativePath path)
  obtain ⟨ha, ht, he⟩ := weaklyCanonical_elems hwf habs (combinedPath_elems hb (h.getRelativePath path)) h3
  have hbody : head = false → (h.handle fs path head).body = c := by
    intro hh; subst hh
    rw [((C56_status h fs path).2 _ hs).2 c hopen]
  obtain ⟨loc, hl1, hl2⟩ := id hopen
  refine ⟨base, loc, c, h1, ?_, hl2, hbody⟩
  rw [statString_render ha ht (fun x hx => (he x hx).1)] at hl1
  have hroot : fs.Real [] := Real.root fs
  rcases weaklyCanonical_spec fs h3 with ⟨l, hl, rfl⟩ | ⟨e, P, Q, l, hloop, hst, hPQ, hP, hQ, rfl⟩
  · -- the path exists: it is what was checked
    rw [stat_abs fs habs] at hl
    have hr := resolve_real hwf _ _ _ _ hroot hl
    obtain ⟨nd, hnd⟩ := hr.some
    have hnul : ∀ c ∈ l, (0 : UInt8) ∉ c := fun c hc => (hwf.names _ _ hnd c hc).noNul
    simp only [stepsOf, Bool.false_eq_true, if_false, List.append_nil] at hl1
    rw [cutNul_id hnul, resolve_root hwf _ hr] at hl1
    simp at hl1
    rw [← hl1]
    exact h5
  · rcases hc with hc | hc
    · -- nothing is there, so nothing is served
      exfalso
      refine normal_fails hwf habs hst hloop hPQ hP hQ ?_ loc hl1
      intro hm
      have hm' : b!".." ∈ (combinedPath base (h.getRelativePath path)).comps := by rw [hPQ]; simp [hm]
      rw [combinedPath] at hm'
      split at hm'
      · exact hc hm'
      · simp only [FPath.append, List.mem_append] at hm'
        rcases hm' with hm' | hm'
        · exact (hwf.names _ _ h2 _ hm').notDotDot rfl
        · exact hc hm'
    · -- going down from the base
      obtain ⟨rest, hrest⟩ := h5
      have hbr : fs.Real base := stat_real hwf h1
      have hnul : ∀ c ∈ base, (0 : UInt8) ∉ c := fun c hc => (hwf.names _ _ h2 c hc).noNul
      rw [stepsOf, ← hrest, List.append_assoc, cutNul_append hnul,
        resolve_down hwf _ base _ [] (by simpa using hbr), List.nil_append] at hl1
      refine resolve_stays hwf (hc base h1) _ _ _ _ _ _ (List.prefix_refl _) (upLast_cutNul _ ?_) hl1 hl2
      intro hm
      rcases List.mem_append.mp hm with hm | hm
      · exact (he b!".." (by rw [← hrest]; simp [hm])).2.2 rfl
      · split at hm
        · simp at hm
        · simp at hm

/-- Both kinds of condition are met by requests that are answered. -/
example : b!".." ∉ (parsePath (handler.getRelativePath b!"/static/home")).comps ∧
    handler.handle site b!"/static/home" false =
      { status := 200, body := b!"hello", headers := [⟨b!"content-type", b!"text/html; charset=utf-8"⟩] } := by
  decide +kernel

/-- The site without the link to `/etc`. -/
def Files.tame : FS := ofList
  [([b!"srv"], .dir), ([b!"srv", b!"www"], .dir),
   ([b!"srv", b!"www", b!"index.html"], .file b!"hello" true),
   ([b!"srv", b!"www", b!"home"], .link b!"index.html"),
   ([b!"etc"], .dir), ([b!"etc", b!"passwd"], .file b!"root:x" true)]

theorem Files.tame_stays : tame.LinksStay [b!"srv", b!"www"] := by
  intro loc c target m l hp hl hr
  have hm : (loc ++ [c], Node.link target) ∈ _ := mem_of_lookup (by
    simpa [look, tame, ofList] using hl)
  simp only [List.mem_cons, Prod.mk.injEq, reduceCtorEq, and_false, Node.link.injEq, List.not_mem_nil,
    or_false, false_or] at hm
  obtain ⟨hm, rfl⟩ := hm
  have hloc : loc = [b!"srv", b!"www"] := by
    have := congrArg List.dropLast hm
    simpa using this
  subst hloc
  have h0 : tame.resolve 0 (if (parsePath b!"index.html").abs then [] else [b!"srv", b!"www"])
      (stepsOf (parsePath b!"index.html")) = .ok [b!"srv", b!"www", b!"index.html"] := by decide +kernel
  rw [resolve_mono tame (Nat.zero_le m) (by rw [h0]; simp), h0] at hr
  cases hr
  exact ⟨[b!"index.html"], rfl⟩

example : tame.WF ∧ (∀ base, tame.stat (parsePath handler.filesystemRoot) = .ok base → tame.LinksStay base) ∧
    (handler.handle tame b!"/static/x/../home" false).body = b!"hello" := by
  refine ⟨ofList_wf _ (by decide +kernel), ?_, by decide +kernel⟩
  intro base h
  have : tame.stat (parsePath handler.filesystemRoot) = .ok [b!"srv", b!"www"] := by decide +kernel
  rw [this] at h
  cases h
  exact tame_stays

/-- A request that names an existing object is judged by where that object really is:
outside the directory it is refused, inside it is served if it is a readable regular file. -/
theorem C53_existing {fs : FS} (hwf : fs.WF) (h : StaticFileHandler) (path : Bytes) (head : Bool)
    {base loc : List Name} (hbase : fs.stat (parsePath h.filesystemRoot) = .ok base)
    (hdir : fs.look base = some .dir)
    (hrel : (parsePath (h.getRelativePath path)).abs = false)
    (hloc : fs.stat (FPath.append ⟨true, base, false⟩ (parsePath (h.getRelativePath path))) = .ok loc) :
    (¬ base <+: loc → h.handle fs path head = { status := 403 }) ∧
    (base <+: loc → ∀ c, fs.look loc = some (.file c true) →
      (h.handle fs path head).status = 200 ∧ (head = false → (h.handle fs path head).body = c)) := by
  have hs : sanitizePath fs h.filesystemRoot (h.getRelativePath path) =
      if within (FPath.elems ⟨true, base, false⟩) (FPath.elems ⟨true, loc, false⟩) then
        some (FPath.render ⟨true, loc, false⟩) else none := by
    rw [sanitizePath]
    simp only
    rw [stat_absolute hwf _ (parsePath_trail _), hbase]
    simp only
    rw [if_neg (by simp [hdir])]
    have hw : fs.weaklyCanonical (fs.absolute (parsePath h.filesystemRoot)) = .ok ⟨true, base, false⟩ := by
      rw [weaklyCanonical, stat_absolute hwf _ (parsePath_trail _), hbase]
    rw [hw]
    simp only
    rw [if_neg (by simp [hrel])]
    have hw2 : fs.weaklyCanonical (FPath.append ⟨true, base, false⟩ (parsePath (h.getRelativePath path))) =
        .ok ⟨true, loc, false⟩ := by rw [weaklyCanonical, hloc]
    rw [hw2]
  have hel : within (FPath.elems ⟨true, base, false⟩) (FPath.elems ⟨true, loc, false⟩) = true ↔ base <+: loc := by
    simp only [FPath.elems, if_true, Bool.false_eq_true, if_false, List.append_nil, List.cons_append,
      List.nil_append]
    constructor
    · intro h; exact (List.cons_prefix_cons.mp (within_prefix h)).2
    · intro h; exact prefix_within (List.cons_prefix_cons.mpr ⟨rfl, h⟩)
  refine ⟨?_, ?_⟩
  · intro hno
    rw [if_neg (fun hx => hno (hel.mp hx))] at hs
    exact (C56_status h fs path).1 hs head
  · intro hin c hc
    rw [if_pos (hel.mpr hin)] at hs
    have hr : fs.Real loc := stat_real hwf hloc
    have hv := hwf.names _ _ hc
    have ho : Opens fs (FPath.render ⟨true, loc, false⟩) c := by
      refine ⟨loc, ?_, hc⟩
      rw [statString_render rfl (by simp) (fun x hx => (hv x hx).elem)]
      simp only [stepsOf, Bool.false_eq_true, if_false, List.append_nil]
      rw [cutNul_id (fun x hx => (hv x hx).noNul), resolve_root hwf _ hr]
    refine ⟨(C56_codes h fs path head).2.2.mpr ⟨_, c, hs, ho⟩, ?_⟩
    intro hh; subst hh
    rw [((C56_status h fs path).2 _ hs).2 c ho]

example : site.stat (FPath.append ⟨true, [b!"srv", b!"www"], false⟩
    (parsePath (handler.getRelativePath b!"/static/css/../home"))) = .ok [b!"srv", b!"www", b!"index.html"] := by
  decide +kernel

/-! ## C55: HEAD mirrors GET -/

/-- C55. HEAD and GET for the same path on the same file system: same status, same content-type, no
body for HEAD, and for an existing file a content-length that is the decimal length of GET's body. -/
theorem C55_head (h : StaticFileHandler) (fs : FS) (path : Bytes) :
    let get := h.handle fs path false
    let hd := h.handle fs path true
    hd.status = get.status ∧ hd.body = [] ∧
    hd.headers.filter (fun x => x.name = b!"content-type") = get.headers.filter (fun x => x.name = b!"content-type") ∧
    (get.status = 200 → ∃ len, Spec.IsDecimal get.body.length len ∧
      hd.headers.filter (fun x => x.name = b!"content-length") = [⟨b!"content-length", len⟩]) ∧
    (get.status ≠ 200 → hd = get) := by
  cases hs : sanitizePath fs h.filesystemRoot (h.getRelativePath path) with
  | none =>
    have h1 := (C56_status h fs path).1 hs
    simp only [h1]
    exact ⟨trivial, trivial, trivial, fun h => absurd h (by decide), fun _ => trivial⟩
  | some s =>
    by_cases ho : ∃ c, Opens fs s c
    · obtain ⟨c, hc⟩ := ho
      have hg := ((C56_status h fs path).2 s hs).2 c hc
      have hh : h.handle fs path true = { status := 200, headers :=
          [⟨b!"content-length", decimal c.length⟩, ⟨b!"content-type", getMimeType s⟩] } := by
        rw [handle, hs]
        simp only [fileResponse, isReadable_iff.mpr ⟨c, hc⟩, Bool.not_true, Bool.false_eq_true, if_false,
          headResponse, getFileSize_of hc, if_true]
      simp only [hg, hh]
      refine ⟨trivial, trivial, ?_, fun _ => ?_, fun h => absurd rfl h⟩
      · rw [List.filter_cons_of_neg (by
          rw [decide_eq_true_iff]; show ¬ b!"content-length" = b!"content-type"; decide)]
      · refine ⟨_, Sim.decimal_spec _, ?_⟩
        rw [List.filter_cons_of_pos (by rw [decide_eq_true_iff]), List.filter_cons_of_neg (by
          rw [decide_eq_true_iff]; show ¬ b!"content-type" = b!"content-length"; decide)]
        rfl
    · have h1 := ((C56_status h fs path).2 s hs).1 (fun c hc => ho ⟨c, hc⟩)
      simp only [h1]
      exact ⟨trivial, trivial, trivial, fun h => absurd h (by decide), fun _ => trivial⟩

example : handler.handle site b!"/static/css/a.css" true = { status := 200, headers :=
    [⟨b!"content-length", b!"6"⟩, ⟨b!"content-type", b!"text/css; charset=utf-8"⟩] } := by decide +kernel

/-! ## C57: MIME types -/

theorem lastExtension_none {p : Bytes} (h : (0x2e : UInt8) ∉ p) : lastExtension p = none := by
  induction p with
  | nil => rfl
  | cons b bs ih =>
    simp only [List.mem_cons, not_or] at h
    rw [lastExtension, ih h.2]
    simp only
    rw [if_neg (fun h' => h.1 h'.symm)]

theorem lastExtension_dot {ext : Bytes} (h : (0x2e : UInt8) ∉ ext) (pre : Bytes) :
    lastExtension (pre ++ 0x2e :: ext) = some (0x2e :: ext) := by
  induction pre with
  | nil => rw [List.nil_append, lastExtension, lastExtension_none h]; simp
  | cons b bs ih => rw [List.cons_append, lastExtension, ih]

/-- The extensions known (README and lib/file_reader.cpp:52-72), without the dot. -/
def knownTypes : List (Bytes × Bytes) :=
  [(b!"html", b!"text/html; charset=utf-8"), (b!"htm", b!"text/html; charset=utf-8"),
   (b!"css", b!"text/css; charset=utf-8"), (b!"js", b!"application/javascript; charset=utf-8"),
   (b!"json", b!"application/json"), (b!"xml", b!"application/xml"), (b!"png", b!"image/png"),
   (b!"jpg", b!"image/jpeg"), (b!"jpeg", b!"image/jpeg"), (b!"gif", b!"image/gif"),
   (b!"svg", b!"image/svg+xml"), (b!"ico", b!"image/x-icon"), (b!"txt", b!"text/plain; charset=utf-8"),
   (b!"pdf", b!"application/pdf"), (b!"zip", b!"application/zip"), (b!"woff", b!"font/woff"),
   (b!"woff2", b!"font/woff2"), (b!"ttf", b!"font/ttf"), (b!"webp", b!"image/webp")]

theorem lookup_map (ext : Bytes) (t : List (Bytes × Bytes)) :
    (t.map (fun e => (0x2e :: e.1, e.2))).lookup (0x2e :: ext) = t.lookup ext := by
  induction t with
  | nil => rfl
  | cons e es ih =>
    obtain ⟨k, v⟩ := e
    simp only [List.map_cons, List.lookup_cons, ih]
    have : ((0x2e : UInt8) :: ext == 0x2e :: k) = (ext == k) := by
      simp [BEq.beq, List.beq]
    rw [this]

/-- C57. For every path: without a '.', `application/octet-stream`; otherwise what follows the last '.'
decides: a known extension (octet by octet, so upper case is different) gives its type, anything else
`application/octet-stream`. -/
theorem C57_mime :
    (∀ path, (0x2e : UInt8) ∉ path → getMimeType path = b!"application/octet-stream") ∧
    (∀ pre ext, (0x2e : UInt8) ∉ ext → getMimeType (pre ++ 0x2e :: ext) =
      match knownTypes.find? (fun e => e.1 = ext) with
      | some (_, t) => t
      | none => b!"application/octet-stream") := by
  refine ⟨fun path h => by rw [getMimeType, lastExtension_none h], fun pre ext h => ?_⟩
  rw [getMimeType, lastExtension_dot h]
  simp only
  rw [show mimeTypes = knownTypes.map (fun e => (0x2e :: e.1, e.2)) from by decide +kernel, lookup_map]
  have : ∀ t : List (Bytes × Bytes), (t.lookup ext).getD b!"application/octet-stream" =
      match t.find? (fun e => e.1 = ext) with
      | some (_, t) => t
      | none => b!"application/octet-stream" := by
    intro t
    induction t with
    | nil => rfl
    | cons e es ih =>
      obtain ⟨k, v⟩ := e
      simp only [List.lookup_cons, List.find?_cons]
      by_cases hk : k = ext
      · subst hk; simp
      · have h1 : (ext == k) = false := by simpa using fun h => hk h.symm
        rw [h1]
        simp only [hk, decide_false]
        exact ih
  exact this _

example : getMimeType b!"/srv/www/a.b.css" = b!"text/css; charset=utf-8" := by decide +kernel
example : getMimeType b!"/srv/www/A.CSS" = b!"application/octet-stream" := by decide +kernel
example : getMimeType b!"/srv/v1.html/file" = b!"application/octet-stream" := by decide +kernel

/-! ## C58: URL to relative path -/

theorem takeWhile_query (r : Bytes) : (0x3f : UInt8) ∉ r.takeWhile (· ≠ 0x3f) ∧
    (r = r.takeWhile (· ≠ 0x3f) ∨ ∃ t, r = r.takeWhile (· ≠ 0x3f) ++ 0x3f :: t) := by
  induction r with
  | nil => simp
  | cons b bs ih =>
    by_cases h : b = 0x3f
    · subst h; simp
    · simp only [ne_eq, h, not_false_eq_true, decide_true, List.takeWhile_cons, if_true, List.mem_cons,
        not_or, List.cons_append, List.cons.injEq, true_and]
      exact ⟨⟨fun h' => h h'.symm, ih.1⟩, ih.2⟩

/-- C58. With the prefix taken off, an empty remainder or '/' means `index.html`; otherwise one leading
'/' (if there is one) and everything from the first '?' are dropped. -/
theorem C58_relative (h : StaticFileHandler) (rest : Bytes) :
    let rel := h.getRelativePath (h.urlPrefix ++ rest)
    ((rest = [] ∨ rest = b!"/") → rel = b!"index.html") ∧
    (rest ≠ [] → rest ≠ b!"/" → (0x3f : UInt8) ∉ rel ∧ ∃ query,
      (query = [] ∨ query.head? = some 0x3f) ∧
      (rest = 0x2f :: (rel ++ query) ∨ (rest = rel ++ query ∧ rest.head? ≠ some 0x2f))) := by
  simp only [getRelativePath, List.drop_left]
  refine ⟨?_, ?_⟩
  · rintro (rfl | rfl) <;> decide
  · intro h1 h2
    have hn : ¬ (decide (rest = []) || decide (rest = b!"/")) = true := by simp [h1, h2]
    simp only [hn, if_false, Bool.false_eq_true]
    by_cases hs : rest.head? = some 0x2f
    · obtain ⟨r, rfl⟩ : ∃ r, rest = 0x2f :: r := by
        cases rest with
        | nil => simp at hs
        | cons b bs => simp at hs; subst hs; exact ⟨bs, rfl⟩
      rw [if_pos hs]
      simp only [List.drop_succ_cons, List.drop_zero]
      obtain ⟨hq, hr | ⟨t, hr⟩⟩ := takeWhile_query r
      · exact ⟨hq, [], Or.inl rfl, Or.inl (by rw [List.append_nil, ← hr])⟩
      · exact ⟨hq, 0x3f :: t, Or.inr rfl, Or.inl (by rw [← hr])⟩
    · rw [if_neg hs]
      obtain ⟨hq, hr | ⟨t, hr⟩⟩ := takeWhile_query rest
      · exact ⟨hq, [], Or.inl rfl, Or.inr ⟨by rw [List.append_nil, ← hr], hs⟩⟩
      · exact ⟨hq, 0x3f :: t, Or.inr rfl, Or.inr ⟨by rw [← hr], hs⟩⟩

example : handler.getRelativePath b!"/static/a/b.css?v=1?x" = b!"a/b.css" := by decide +kernel
/-- With a query string the directory itself is asked for, not `index.html`. -/
example : handler.getRelativePath b!"/static/?v=1" = [] ∧
    (handler.handle site b!"/static/?v=1" false).status = 404 := by decide +kernel

end Props
end Ion
