import Verif.Spec.Uri
import Verif.Props.App
import Verif.Props.StaticFiles

/-! # Request targets as URIs (C110, C111) -/

namespace Ion.Props
open Spec Files

/-- C110, "the query of a target does not change which route or file is asked for", refuted: with a query the
status page is not found, and neither is the index page of a directory. -/
theorem C110_refuted :
    (∃ (a : Args) (w : World), (respOf (a.getHandler exPage b!"/_ion/status" b!"GET" ⟨[], [], []⟩ w)).map HttpResponse.status = some 200 ∧
      (respOf (a.getHandler exPage b!"/_ion/status?x" b!"GET" ⟨[], [], []⟩ w)).map HttpResponse.status = some 404) ∧
    (handler.handle site b!"/static/" false).status = 200 ∧ (handler.handle site b!"/static/?x" false).status = 404 :=
  ⟨⟨{ statusPage := true }, exWorld, by decide +kernel⟩, by decide +kernel, by decide +kernel⟩

/-- C110: no target with a query reaches a built-in route. -/
theorem C110_routes (page : Page) (a : Args) (target method : Bytes) (h : (0x3f : UInt8) ∈ target) :
    ∃ t : Handler World, a.getHandler page target method =
      wrapped ((if a.statusPage = true then [statsMiddleware] else []) ++
        (if a.status404FilePath = [] then [] else [custom404 a.status404FilePath])) t ∧
    ((∃ s root, a.staticMap = [s, root] ∧ s <+: target ∧ (method = b!"GET" ∨ method = b!"HEAD") ∧
        t = fun _ w => (.resp (StaticFileHandler.handle ⟨s, root⟩ w.fs target (decide (method = b!"HEAD"))), w)) ∨
      t = fun _ w => (.resp { status := 404 }, w)) := by
  obtain ⟨t, h1, h2, h3, h4, h5⟩ := C72_routes page a target method
  refine ⟨t, h1, ?_⟩
  have n1 : ¬ (a.underTest = true ∧ method = b!"GET" ∧ target ∈ testPaths) := by
    rintro ⟨-, -, hm⟩
    have : ∀ p ∈ testPaths, (0x3f : UInt8) ∉ p := by decide
    exact this target hm h
  have n2 : ¬ (a.statusPage = true ∧ method = b!"GET" ∧ target = b!"/_ion/status") := by
    rintro ⟨-, -, rfl⟩
    revert h
    decide
  by_cases hs : ∃ s root, a.staticMap = [s, root] ∧ s <+: target ∧ (method = b!"GET" ∨ method = b!"HEAD")
  · obtain ⟨s, root, k⟩ := hs
    exact .inl ⟨s, root, k.1, k.2.1, k.2.2, h4 n1 n2 s root k⟩
  · exact .inr (h5 n1 n2 hs)

theorem takeWhile_path {l q : Bytes} (h : (0x3f : UInt8) ∉ l) :
    (l ++ 0x3f :: q).takeWhile (· ≠ 0x3f) = l ∧ l.takeWhile (· ≠ 0x3f) = l := by
  induction l with
  | nil => simp
  | cons b l ih =>
    simp only [List.mem_cons, not_or] at h
    have hb : b ≠ 0x3f := fun e => h.1 e.symm
    obtain ⟨i1, i2⟩ := ih h.2
    simp only [ne_eq] at i1 i2
    simp only [List.cons_append, List.takeWhile_cons, ne_eq, hb, not_false_eq_true, decide_true, if_true, i1, i2,
      and_self]

/-- C110 for static files other than index pages: a target with a query is answered as its path. Missing: index
pages and routes. -/
theorem C110_static_partial (h : StaticFileHandler) (fs : FS) (target rest : Bytes) (head : Bool)
    (hp : targetPath target = h.urlPrefix ++ rest) (h1 : rest ≠ []) (h2 : rest ≠ b!"/") :
    h.handle fs target head = h.handle fs (targetPath target) head := by
  have hq : target = targetPath target ∨ ∃ q, target = targetPath target ++ 0x3f :: q := by
    have : ∀ l : Bytes, l = targetPath l ∨ ∃ q, l = targetPath l ++ 0x3f :: q := by
      intro l
      induction l with
      | nil => exact .inl rfl
      | cons b l ih =>
        by_cases hb : b = 0x3f
        · exact .inr ⟨l, by simp [targetPath, hb]⟩
        · simp only [targetPath, List.takeWhile_cons, ne_eq, hb, not_false_eq_true, decide_true, if_true] at ih ⊢
          rcases ih with ih | ⟨q, ih⟩
          · exact .inl (by rw [← ih])
          · exact .inr ⟨q, by rw [List.cons_append, ← ih]⟩
    exact this target
  rcases hq with hq | ⟨q, hq⟩
  · rw [← hq]
  · have hno : (0x3f : UInt8) ∉ rest := by
      intro hm
      have : (0x3f : UInt8) ∈ targetPath target := by rw [hp]; simp [hm]
      exact (takeWhile_query target).1 this
    have hrel : h.getRelativePath target = h.getRelativePath (targetPath target) := by
      rw [hp] at hq ⊢
      rw [hq]
      simp only [StaticFileHandler.getRelativePath, List.append_assoc, List.drop_left]
      have e1 : rest ++ 0x3f :: q ≠ [] := by simp
      have e2 : rest ++ 0x3f :: q ≠ b!"/" := by
        intro e
        have : (0x3f : UInt8) ∈ b!"/" := by rw [← e]; simp
        revert this
        decide
      simp only [e1, e2, h1, h2, decide_false, Bool.or_false, Bool.false_eq_true, if_false]
      obtain ⟨c, rest, rfl⟩ := List.exists_cons_of_ne_nil h1
      simp only [List.mem_cons, not_or] at hno
      simp only [List.cons_append, List.head?_cons, List.drop_succ_cons, List.drop_zero]
      by_cases hc : some c = some (0x2f : UInt8)
      · rw [if_pos hc, if_pos hc, (takeWhile_path (q := q) hno.2).1, (takeWhile_path (q := q) hno.2).2]
      · rw [if_neg hc, if_neg hc]
        have hm : (0x3f : UInt8) ∉ c :: rest := by simp [hno.1, hno.2]
        rw [← List.cons_append, (takeWhile_path (q := q) hm).1, (takeWhile_path (q := q) hm).2]
    simp only [StaticFileHandler.handle, hrel]

/-- A style sheet asked for with a query. -/
example : targetPath b!"/static/css/a.css?v=1" = handler.urlPrefix ++ b!"/css/a.css" ∧
    (handler.handle site b!"/static/css/a.css?v=1" false).status = 200 := by decide +kernel

/-- C111, "a percent-encoded target names the same file as the octets it stands for", refuted: `%69` is not read
as `i`. -/
theorem C111_refuted : ∃ target decoded, PctDecodes target decoded ∧
    (handler.handle site decoded false).status = 200 ∧ (handler.handle site target false).status = 404 := by
  refine ⟨b!"/static/%69ndex.html", b!"/static/index.html", ?_, by decide +kernel, by decide +kernel⟩
  iterate 8 refine .plain _ _ _ (by decide) ?_
  refine .encoded 0x36 0x39 6 9 _ _ (by decide) (by decide) ?_
  iterate 9 refine .plain _ _ _ (by decide) ?_
  exact .nil

/-- C111 without percent signs: the target stands for itself, and for nothing else. Missing: encoded octets. -/
theorem C111_plain_partial (h : StaticFileHandler) (fs : FS) (target decoded : Bytes) (head : Bool)
    (hd : PctDecodes target decoded) (hp : (0x25 : UInt8) ∉ target) :
    h.handle fs target head = h.handle fs decoded head := by
  have : target = decoded := by
    induction hd with
    | nil => rfl
    | plain b t d hb hd ih => rw [ih fun hm => hp (List.mem_cons_of_mem _ hm)]
    | encoded x y i j t d hx hy hd ih => exact absurd List.mem_cons_self hp
  rw [this]

example : PctDecodes b!"/a" b!"/a" := .plain _ _ _ (by decide) (.plain _ _ _ (by decide) .nil)

end Ion.Props
