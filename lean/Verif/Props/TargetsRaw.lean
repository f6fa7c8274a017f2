import Verif.Props.Targets
import Verif.Props.StaticExact

/-!
# Nothing in a target is decoded (C111)

`get_relative_path` (lib/static_file_handler.cpp:18-35) hands the octets of the target on as they are.
-/

namespace Ion
namespace Props

open FS FileReader StaticFileHandler Files Spec

/-- What a successful search has passed: every element of the path but '.' and '..' is the name of something. -/
theorem walk_named {fs : FS} {f : List Name → List Name → Except Errno (List Name)}
    (hf : ∀ cur s l, f cur s = .ok l → ∀ c ∈ s, c ≠ b!"." → c ≠ b!".." → ∃ dir n, fs.look (dir ++ [c]) = some n) :
    ∀ (s cur l : List Name), fs.walk f cur s = .ok l →
      ∀ c ∈ s, c ≠ b!"." → c ≠ b!".." → ∃ dir n, fs.look (dir ++ [c]) = some n := by
  intro s
  induction s with
  | nil => simp
  | cons x xs ih =>
    intro cur l h c hc h1 h2
    by_cases he : fs.Enter cur
    · by_cases hd : x = b!"."
      · subst hd
        rw [walk_dot _ _ he] at h
        rcases List.mem_cons.mp hc with rfl | hc
        · exact absurd rfl h1
        · exact ih _ _ h c hc h1 h2
      · by_cases hu : x = b!".."
        · subst hu
          rw [walk_up _ _ he] at h
          rcases List.mem_cons.mp hc with rfl | hc
          · exact absurd rfl h2
          · exact ih _ _ h c hc h1 h2
        · rw [walk_name _ _ he hd hu] at h
          cases hl : fs.look (cur ++ [x]) with
          | none => simp [hl] at h
          | some n =>
            rcases List.mem_cons.mp hc with rfl | hc
            · exact ⟨cur, n, hl⟩
            · cases n with
              | link t =>
                simp only [hl] at h
                exact hf _ _ _ h c (by simp [hc]) h1 h2
              | dir => simp only [hl] at h; exact ih _ _ h c hc h1 h2
              | file a b => simp only [hl] at h; exact ih _ _ h c hc h1 h2
              | special => simp only [hl] at h; exact ih _ _ h c hc h1 h2
    · rw [walk_stuck _ _ he] at h
      cases h

theorem resolve_named {fs : FS} : ∀ (n : Nat) (cur s l : List Name), fs.resolve n cur s = .ok l →
    ∀ c ∈ s, c ≠ b!"." → c ≠ b!".." → ∃ dir n, fs.look (dir ++ [c]) = some n := by
  intro n
  induction n with
  | zero =>
    intro cur s l h
    rw [resolve] at h
    exact walk_named (by simp) s cur l h
  | succ n ih =>
    intro cur s l h
    rw [resolve] at h
    exact walk_named ih s cur l h

/-- Every octet of a text but '/' is in one of its pieces. -/
theorem mem_splitSlash {s : Bytes} {b : UInt8} (hb : b ≠ 0x2f) (h : b ∈ s) : ∃ c ∈ splitSlash s, b ∈ c := by
  induction s with
  | nil => cases h
  | cons x xs ih =>
    rw [splitSlash]
    split
    · rename_i hx
      rcases List.mem_cons.mp h with rfl | h
      · exact absurd hx hb
      · obtain ⟨c, hc, hbc⟩ := ih h
        exact ⟨c, List.mem_cons_of_mem _ hc, hbc⟩
    · cases hs : splitSlash xs with
      | nil => exact absurd hs (splitSlash_ne_nil xs)
      | cons y ys =>
        rcases List.mem_cons.mp h with rfl | h
        · exact ⟨_, List.mem_cons_self, List.mem_cons_self⟩
        · obtain ⟨c, hc, hbc⟩ := ih h
          rw [hs] at hc
          rcases List.mem_cons.mp hc with rfl | hc
          · exact ⟨_, List.mem_cons_self, List.mem_cons_of_mem _ hbc⟩
          · exact ⟨c, List.mem_cons_of_mem _ hc, hbc⟩

theorem mem_parsePath {s : Bytes} {b : UInt8} (hb : b ≠ 0x2f) (h : b ∈ s) : ∃ c ∈ (parsePath s).comps, b ∈ c := by
  obtain ⟨c, hc, hbc⟩ := mem_splitSlash hb h
  refine ⟨c, ?_, hbc⟩
  simp only [parsePath, List.mem_filter, hc, true_and, ne_eq, decide_eq_true_eq]
  rintro rfl
  cases hbc

theorem splitSlash_mem (s : Bytes) : ∀ c ∈ splitSlash s, ∀ b ∈ c, b ∈ s := by
  induction s with
  | nil => simp [splitSlash]
  | cons x xs ih =>
    rw [splitSlash]
    intro c hc b hb
    split at hc
    · rcases List.mem_cons.mp hc with rfl | hc
      · cases hb
      · exact List.mem_cons_of_mem _ (ih c hc b hb)
    · cases hs : splitSlash xs with
      | nil => exact absurd hs (splitSlash_ne_nil xs)
      | cons y ys =>
        rw [hs] at hc ih
        simp only at hc
        rcases List.mem_cons.mp hc with rfl | hc
        · rcases List.mem_cons.mp hb with rfl | hb
          · exact List.mem_cons_self
          · exact List.mem_cons_of_mem _ (ih y List.mem_cons_self b hb)
        · exact List.mem_cons_of_mem _ (ih c (List.mem_cons_of_mem _ hc) b hb)

/-- What is asked for, from the part of the target after the prefix: as `Spec.targetPath`, without the first '/'. -/
theorem relative_has (h : StaticFileHandler) (rest : Bytes) (b : UInt8) (hb : b ≠ 0x2f) (hm : b ∈ targetPath rest) :
    b ∈ h.getRelativePath (h.urlPrefix ++ rest) := by
  have hne : rest ≠ [] := by rintro rfl; simp [targetPath] at hm
  have hne' : rest ≠ b!"/" := by
    rintro rfl
    have : b ∈ b!"/" := (List.takeWhile_sublist _).subset hm
    simp only [List.mem_singleton] at this
    exact hb this
  simp only [StaticFileHandler.getRelativePath, List.drop_left, hne, hne', decide_false, Bool.or_false,
    Bool.false_eq_true, if_false]
  obtain ⟨c, rest, rfl⟩ := List.exists_cons_of_ne_nil hne
  simp only [List.head?_cons]
  by_cases hc : c = 0x2f
  · subst hc
    simp only [targetPath, List.takeWhile_cons] at hm
    simpa [hb] using hm
  · simpa [hc, targetPath] using hm

theorem relative_from (h : StaticFileHandler) (rest : Bytes) (b : UInt8)
    (hm : b ∈ h.getRelativePath (h.urlPrefix ++ rest)) : b ∈ rest ∨ b ∈ b!"/index.html" := by
  simp only [StaticFileHandler.getRelativePath, List.drop_left] at hm
  have hm := (List.takeWhile_sublist _).subset hm
  by_cases hr : rest = [] ∨ rest = b!"/"
  · right
    have : (decide (rest = []) || decide (rest = b!"/")) = true := by simpa using hr
    rw [if_pos this] at hm
    split at hm
    · exact List.mem_of_mem_drop hm
    · exact hm
  · left
    have : ¬ (decide (rest = []) || decide (rest = b!"/")) = true := by simpa using hr
    rw [if_neg this] at hm
    split at hm
    · exact List.mem_of_mem_drop hm
    · exact hm

/-- C111, nothing is ever decoded: where no file has a percent sign in its name, no target with a percent sign in its
path is answered with a file, whatever its digits stand for. -/
theorem C111_never {fs : FS} (hwf : fs.WF) (h : StaticFileHandler) (rest : Bytes) (head : Bool)
    (hpct : (0x25 : UInt8) ∈ targetPath rest) (hnul : (0 : UInt8) ∉ rest)
    (hup : b!".." ∉ (parsePath (h.getRelativePath (h.urlPrefix ++ rest))).comps)
    (hnames : ∀ dir c, (0x25 : UInt8) ∈ c → fs.look (dir ++ [c]) = none) :
    (h.handle fs (h.urlPrefix ++ rest) head).status ≠ 200 := by
  intro hok
  obtain ⟨s, c, hs, hopen⟩ := (C56_codes h fs _ head).2.2.mp hok
  obtain ⟨base, full, h1, h2, h3, h4, h5, rfl⟩ := sanitizePath_spec hwf hs
  rw [stat_absolute hwf _ (parsePath_trail _)] at h1
  have hstands : ∃ p, StandsFor base (h.getRelativePath (h.urlPrefix ++ rest)) p := by
    by_cases ha : (parsePath (h.getRelativePath (h.urlPrefix ++ rest))).abs = true
    · exact ⟨_, .absolute ha⟩
    · exact ⟨_, .below (by simpa using ha)⟩
  obtain ⟨p, hp⟩ := hstands
  obtain ⟨loc, k, hloc, -, -⟩ := (C134_exact_partial hwf h _ head h1 h2 hp hup).1.mp hok
  obtain ⟨x, hx, hbx⟩ := mem_parsePath (by decide) (relative_has h rest 0x25 (by decide) hpct)
  have hno : ∀ c ∈ (parsePath (h.getRelativePath (h.urlPrefix ++ rest))).comps, (0 : UInt8) ∉ c := by
    intro c hc h0
    have : (0 : UInt8) ∈ h.getRelativePath (h.urlPrefix ++ rest) :=
      splitSlash_mem _ c (List.mem_filter.mp hc).1 0 h0
    rcases relative_from h rest 0 this with h' | h'
    · exact hnul h'
    · revert h'; decide
  have hmem : x ∈ p.comps ∧ ∀ c ∈ p.comps, (0 : UInt8) ∉ c := by
    cases hp with
    | below ha =>
      refine ⟨by simp [FPath.append, hx], fun c hc => ?_⟩
      simp only [FPath.append, List.mem_append] at hc
      rcases hc with hc | hc
      · exact (hwf.names _ _ h2 c hc).noNul
      · exact hno c hc
    | absolute ha => exact ⟨hx, hno⟩
  rw [stat, cutNul_id (by
    intro c hc
    rcases List.mem_append.mp hc with hc | hc
    · exact hmem.2 c hc
    · split at hc
      · obtain rfl := List.mem_singleton.mp hc; decide
      · cases hc)] at hloc
  have hd : x ≠ b!"." := by rintro rfl; revert hbx; decide
  have hu : x ≠ b!".." := by rintro rfl; revert hbx; decide
  obtain ⟨dir, n, hn⟩ := resolve_named _ _ _ _ hloc x (by simp [hmem.1]) hd hu
  rw [hnames dir x hbx] at hn
  cases hn

/-- The example site has no such names. -/
theorem site_plain (dir : List Name) (c : Name) (hc : (0x25 : UInt8) ∈ c) : site.look (dir ++ [c]) = none := by
  cases hl : site.look (dir ++ [c]) with
  | none => rfl
  | some n =>
    exfalso
    have hm := mem_of_lookup (show List.lookup (dir ++ [c]) _ = some n by simpa [look, site, ofList] using hl)
    have : ∀ x ∈ ([([b!"srv"], .dir), ([b!"srv", b!"www"], .dir),
        ([b!"srv", b!"www", b!"index.html"], .file b!"hello" true), ([b!"srv", b!"www", b!"css"], .dir),
        ([b!"srv", b!"www", b!"css", b!"a.css"], .file b!"body{}" true),
        ([b!"srv", b!"www", b!"private"], .file b!"none" false), ([b!"srv", b!"www", b!"link"], .link b!"/etc"),
        ([b!"srv", b!"www", b!"home"], .link b!"index.html"), ([b!"etc"], .dir),
        ([b!"etc", b!"passwd"], .file b!"root:x" true)] : List (List Name × Node)),
        ∀ y ∈ x.1.getLast?, (0x25 : UInt8) ∉ y := by decide +kernel
    exact this _ hm c (by simp) hc

example (head : Bool) : (handler.handle site (handler.urlPrefix ++ b!"/%69ndex.html?x") head).status ≠ 200 :=
  C111_never site_wf handler _ head (by decide) (by decide) (by decide +kernel) site_plain

/-- A file with a percent sign in its name is asked for with that name. -/
example : (handler.handle (ofList [([b!"srv"], .dir), ([b!"srv", b!"www"], .dir),
    ([b!"srv", b!"www", b!"%69ndex.html"], .file b!"odd" true)]) b!"/static/%69ndex.html" false).body = b!"odd" := by
  decide +kernel

/-- With '..', what is cancelled does not matter. -/
example : (handler.handle site b!"/static/%69/../index.html" false).status = 200 := by decide +kernel

end Props
end Ion
