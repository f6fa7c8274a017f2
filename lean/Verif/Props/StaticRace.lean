import Verif.Model.StaticRace
import Verif.Props.StaticFiles

/-! # Static files while other processes change the file system (C117) -/

namespace Ion
namespace Props

open FS FileReader StaticFileHandler Files

/-- As long as nothing changes, the handler is the one of C53-C58. -/
theorem C117_unchanged (h : StaticFileHandler) (fs : FS) (path : Bytes) (head : Bool) :
    h.handleOver ⟨fs, fs, fs, id⟩ path head = h.handle fs path head := by
  have hr : ∀ p, readFileOver ⟨fs, fs, fs, id⟩ p = readFile fs p := by
    intro p
    rw [readFileOver]
    cases readFile fs p with
    | none => rfl
    | some c => simp
  simp only [handleOver, StaticFileHandler.handle, fileResponseOver, fileResponse, getResponseOver, getResponse, hr]
  rfl

/-- The site after a page has been replaced by a link to a file outside. -/
def Files.swapped : FS := ofList
  [([b!"srv"], .dir), ([b!"srv", b!"www"], .dir),
   ([b!"srv", b!"www", b!"index.html"], .link b!"/etc/passwd"),
   ([b!"etc"], .dir), ([b!"etc", b!"passwd"], .file b!"root:x" true)]

/-- The site without links. -/
def Files.plain : FS := ofList
  [([b!"srv"], .dir), ([b!"srv", b!"www"], .dir),
   ([b!"srv", b!"www", b!"index.html"], .file b!"hello" true),
   ([b!"etc"], .dir), ([b!"etc", b!"passwd"], .file b!"root:x" true)]

/-- C117, "a file that is served lay in the configured directory at the moment it was read", refuted: if a page
is replaced by a link after its path was checked, what the link leads to is served; although each of the two file
systems, had it been there all the time, would have been served correctly. -/
theorem C117_refuted : ∃ (h : StaticFileHandler) (v : Views) (path : Bytes) (base : List Name),
    v.check.WF ∧ v.readable.WF ∧ v.opened.WF ∧ v.content = id ∧
    v.check.stat (parsePath h.filesystemRoot) = .ok base ∧ v.opened.stat (parsePath h.filesystemRoot) = .ok base ∧
    (∀ loc c t, v.check.look (loc ++ [c]) ≠ some (.link t)) ∧ (h.handle v.opened path false).status = 403 ∧
    (h.handleOver v path false).status = 200 ∧
    ∀ loc r, base <+: loc → v.opened.look loc ≠ some (.file (h.handleOver v path false).body r) ∧
      v.check.look loc ≠ some (.file (h.handleOver v path false).body r) := by
  have hb : (handler.handleOver ⟨plain, plain, swapped, id⟩ b!"/static/index.html" false).body = b!"root:x" := by
    decide +kernel
  refine ⟨handler, ⟨plain, plain, swapped, id⟩, b!"/static/index.html", [b!"srv", b!"www"],
    ofList_wf _ (by decide +kernel), ofList_wf _ (by decide +kernel), ofList_wf _ (by decide +kernel), rfl,
    by decide +kernel, by decide +kernel, ?_, by decide +kernel, by decide +kernel, ?_⟩
  · intro loc c t hl
    have hm : (loc ++ [c], Node.link t) ∈ _ := mem_of_lookup (by simpa [look, plain, ofList] using hl)
    simp at hm
  · intro loc r hp
    obtain ⟨t, rfl⟩ := hp
    rw [hb]
    constructor
    · intro hl
      have hm : ([b!"srv", b!"www"] ++ t, Node.file b!"root:x" r) ∈ _ := mem_of_lookup (by
        simpa [look, swapped, ofList] using hl)
      simp at hm
    · intro hl
      have hm : ([b!"srv", b!"www"] ++ t, Node.file b!"root:x" r) ∈ _ := mem_of_lookup (by
        simpa [look, plain, ofList] using hl)
      simp at hm

/-- The path that is opened. -/
theorem handleOver_ok {h : StaticFileHandler} {v : Views} {path : Bytes} {head : Bool}
    (hok : (h.handleOver v path head).status = 200) :
    ∃ s loc c r, sanitizePath v.check h.filesystemRoot (h.getRelativePath path) = some s ∧
      v.opened.statString s = .ok loc ∧ v.opened.look loc = some (.file c r) ∧
      (head = false → r = true ∧ c.length ≤ (v.content c).length ∧
        (h.handleOver v path head).body = (v.content c).take c.length) ∧
      (head = true → (h.handleOver v path head).headers.filter (fun x => x.name = b!"content-length") =
        [⟨b!"content-length", decimal c.length⟩] ∧ (h.handleOver v path head).body = []) := by
  cases hs : sanitizePath v.check h.filesystemRoot (h.getRelativePath path) with
  | none => rw [handleOver, hs] at hok; simp at hok
  | some s =>
    have he : h.handleOver v path head = fileResponseOver v s head := by rw [handleOver, hs]
    rw [he] at hok ⊢
    by_cases hr : isReadable v.readable s = true
    · simp only [fileResponseOver, hr, Bool.not_true, Bool.false_eq_true, if_false] at hok ⊢
      cases head with
      | true =>
        simp only [if_true, headResponse] at hok ⊢
        rcases hg : getFileSize v.opened s with _ | size
        · rw [hg] at hok; simp at hok
        · rw [getFileSize] at hg
          split at hg
          · cases hg
          · rename_i loc hl
            split at hg
            · rename_i c r hc
              cases hg
              exact ⟨s, loc, c, r, rfl, hl, hc, by simp, by simp⟩
            · cases hg
      | false =>
        simp only [Bool.false_eq_true, if_false, getResponseOver, readFileOver] at hok ⊢
        rcases hg : readFile v.opened s with _ | c
        · rw [hg] at hok; simp at hok
        · rw [hg] at hok
          simp only at hok ⊢
          by_cases hn : (v.content c).length < c.length
          · rw [if_pos hn] at hok; simp at hok
          · rw [readFile] at hg
            split at hg
            · cases hg
            · rename_i loc hl
              split at hg
              · rename_i c' hc
                cases hg
                refine ⟨s, loc, c, true, rfl, hl, hc, fun _ => ⟨rfl, by omega, ?_⟩, by simp⟩
                rw [if_neg hn]
              · cases hg
    · simp only [fileResponseOver, hr, Bool.not_false, if_true] at hok
      simp at hok

/-- C117, what holds: whatever the file system was before, if at the moment the file is opened every symbolic
link in the served directory leads to a place in it, and the directory is where it was, then what is served is a
regular file in it: for GET as many octets as it had then, for HEAD their number. Missing: links that lead out
and are put there while the request is handled. -/
theorem C117_inside_partial (h : StaticFileHandler) (v : Views) (path : Bytes) (head : Bool)
    (h1 : v.check.WF) (h3 : v.opened.WF)
    (hl : ∀ base, v.check.stat (parsePath h.filesystemRoot) = .ok base →
      v.opened.look base = some .dir ∧ v.opened.LinksStay base)
    (hok : (h.handleOver v path head).status = 200) :
    ∃ base loc c r, v.check.stat (parsePath h.filesystemRoot) = .ok base ∧ base <+: loc ∧
      v.opened.look loc = some (.file c r) ∧
      (head = false → r = true ∧ c.length ≤ (v.content c).length ∧
        (h.handleOver v path head).body = (v.content c).take c.length) ∧
      (head = true → ∃ len, Spec.IsDecimal c.length len ∧
        (h.handleOver v path head).headers.filter (fun x => x.name = b!"content-length") =
          [⟨b!"content-length", len⟩] ∧ (h.handleOver v path head).body = []) := by
  obtain ⟨s, loc, c, r, hs, ho1, ho2, hg, hd⟩ := handleOver_ok hok
  obtain ⟨base, full, e1, e2, e3, e4, e5, rfl⟩ := sanitizePath_spec h1 hs
  rw [stat_absolute h1 _ (parsePath_trail _)] at e1
  have hb : ∀ c ∈ base, PathElem c := fun c hc => (h1.names _ _ e2 c hc).elem
  obtain ⟨ha, ht, he⟩ := weaklyCanonical_elems h1 (combinedPath_abs base (h.getRelativePath path))
    (combinedPath_elems hb (h.getRelativePath path)) e3
  refine ⟨base, loc, c, r, e1, ?_, ho2, hg, fun hh => ⟨_, Sim.decimal_spec _, hd hh⟩⟩
  rw [statString_render ha ht (fun x hx => (he x hx).1)] at ho1
  obtain ⟨rest, hrest⟩ := e5
  have hnul : ∀ c ∈ base, (0 : UInt8) ∉ c := fun c hc => (h1.names _ _ e2 c hc).noNul
  rw [stepsOf, ← hrest, List.append_assoc, cutNul_append hnul] at ho1
  have ho1 := resolve_down_ok h3 _ base _ [] loc .dir (by simpa using (hl base e1).1) (by simp) ho1
  rw [List.nil_append] at ho1
  refine resolve_stays h3 (hl base e1).2 _ _ _ _ _ _ (List.prefix_refl _) (upLast_cutNul _ ?_) ho1 ho2
  intro hm
  rcases List.mem_append.mp hm with hm | hm
  · exact (he b!".." (by rw [← hrest]; simp [hm])).2.2 rfl
  · split at hm
    · simp at hm
    · simp at hm

/-- The links may lead out while the path is checked: only the last file system matters. -/
example : (∀ base, site.stat (parsePath handler.filesystemRoot) = .ok base →
      tame.look base = some .dir ∧ tame.LinksStay base) ∧
    (handler.handleOver ⟨site, site, tame, fun c => c ++ b!"!"⟩ b!"/static/index.html" false).body = b!"hello" := by
  refine ⟨?_, by decide +kernel⟩
  intro base h
  have : site.stat (parsePath handler.filesystemRoot) = .ok [b!"srv", b!"www"] := by decide +kernel
  rw [this] at h
  cases h
  exact ⟨by decide +kernel, tame_stays⟩

/-- C117, failures: a request is answered 500 exactly if its path was accepted and the file was readable when
that was asked for, but then could not be opened or measured, or became shorter. -/
theorem C117_failed (h : StaticFileHandler) (v : Views) (path : Bytes) (head : Bool) :
    (h.handleOver v path head).status = 500 ↔ ∃ s,
      sanitizePath v.check h.filesystemRoot (h.getRelativePath path) = some s ∧ (∃ c, Opens v.readable s c) ∧
      (head = false → ∀ c, Opens v.opened s c → (v.content c).length < c.length) ∧
      (head = true → ∀ loc c r, v.opened.statString s = .ok loc → v.opened.look loc ≠ some (.file c r)) := by
  cases hs : sanitizePath v.check h.filesystemRoot (h.getRelativePath path) with
  | none => rw [handleOver, hs]; simp
  | some s =>
    have he : h.handleOver v path head = fileResponseOver v s head := by rw [handleOver, hs]
    rw [he]
    by_cases hr : isReadable v.readable s = true
    · simp only [fileResponseOver, hr, Bool.not_true, Bool.false_eq_true, if_false, Option.some.injEq,
        exists_eq_left', isReadable_iff.mp hr, true_and]
      cases head with
      | true =>
        simp only [if_true, headResponse, getFileSize, Bool.true_eq_false, false_implies, true_and, true_implies]
        rcases hl : v.opened.statString s with e | loc
        · simp
        · simp only [Except.ok.injEq]
          have hall : (∀ l c r, loc = l → v.opened.look l ≠ some (.file c r)) ↔
              ∀ c r, v.opened.look loc ≠ some (.file c r) :=
            ⟨fun h c r => h loc c r rfl, fun h l c r hl => hl ▸ h c r⟩
          rw [hall]
          rcases hk : v.opened.look loc with _ | _ | ⟨c, r⟩ | t | _
          · simp
          · simp
          · simp
          · simp
          · simp
      | false =>
        simp only [Bool.false_eq_true, if_false, getResponseOver, readFileOver, false_implies, and_true, true_implies]
        by_cases ho : ∃ c, Opens v.opened s c
        · obtain ⟨c, hc⟩ := ho
          rw [readFile_of hc]
          simp only
          by_cases hn : (v.content c).length < c.length
          · rw [if_pos hn]
            simp only [true_iff]
            intro c' hc'
            rw [hc'.unique hc]; exact hn
          · rw [if_neg hn]
            simp only [show ¬ ((200 : UInt16) = 500) from by decide, false_iff]
            exact fun h => hn (h c hc)
        · have : readFile v.opened s = none := by
            rcases hg : readFile v.opened s with _ | c
            · rfl
            · exfalso
              rw [readFile] at hg
              split at hg
              · cases hg
              · rename_i loc hl
                split at hg
                · rename_i c' hc
                  exact ho ⟨c', loc, hl, hc⟩
                · cases hg
          rw [this]
          simp only [true_iff]
          exact fun c hc => absurd ⟨c, hc⟩ ho
    · have hno : ¬ ∃ c, Opens v.readable s c := fun h => hr (isReadable_iff.mpr h)
      simp only [fileResponseOver, hr, Bool.not_false, if_true]
      simp [hno]

/-- A file that becomes shorter while it is read, and one that becomes longer. -/
example : (handler.handleOver ⟨site, site, site, fun _ => b!"hell"⟩ b!"/static/index.html" false).status = 500 ∧
    (handler.handleOver ⟨site, site, site, fun _ => b!"goodbye"⟩ b!"/static/index.html" false).body = b!"goodb" := by
  decide +kernel

end Props
end Ion
