import Verif.Props.StaticFiles

/-!
# Which targets are served (C134)

`sanitize_path` (lib/file_reader.cpp:99-143) computes with names what the operating system computes with files, and
opens the result. C134 asks whether a target is served exactly when the operating system finds a file under it.
-/

namespace Ion
namespace Props

open FS FileReader StaticFileHandler Files

/-- The path a target stands for, below the directory at `base`: the rest of the target after the prefix, which is
taken as it is if it begins with another '/'. -/
inductive StandsFor (base : List Name) (rest : Bytes) : FPath → Prop
  | below : (parsePath rest).abs = false → StandsFor base rest (FPath.append ⟨true, base, false⟩ (parsePath rest))
  | absolute : (parsePath rest).abs = true → StandsFor base rest (parsePath rest)

theorem StandsFor.combined {base : List Name} {rest : Bytes} {p : FPath} (h : StandsFor base rest p) :
    p = combinedPath base rest := by
  cases h with
  | below h => rw [combinedPath, if_neg (by simp [h])]
  | absolute h => rw [combinedPath, if_pos h]

/-- C134 is false: `/static/x/../home` is served although there is no `x` in the directory. The operating system
finds nothing under that name. -/
theorem C134_refuted : ∃ (fs : FS) (h : StaticFileHandler) (path : Bytes) (base : List Name) (p : FPath), fs.WF ∧
    fs.stat (parsePath h.filesystemRoot) = .ok base ∧ fs.look base = some .dir ∧
    StandsFor base (h.getRelativePath path) p ∧ fs.stat p = .error .noEnt ∧
    (h.handle fs path false).status = 200 ∧ (h.handle fs path false).body = b!"hello" :=
  ⟨site, handler, b!"/static/x/../home", [b!"srv", b!"www"], _, site_wf, by decide +kernel, by decide +kernel,
    .below (by decide +kernel), by decide +kernel, by decide +kernel, by decide +kernel⟩

/-- C134 for targets without '..': they are answered with 200 exactly if the operating system finds a readable
regular file under them, in the directory; and with that file. Missing: targets with '..' that lead through a name
that does not exist. -/
theorem C134_exact_partial {fs : FS} (hwf : fs.WF) (h : StaticFileHandler) (path : Bytes) (head : Bool)
    {base : List Name} (hbase : fs.stat (parsePath h.filesystemRoot) = .ok base) (hdir : fs.look base = some .dir)
    {p : FPath} (hp : StandsFor base (h.getRelativePath path) p)
    (hup : b!".." ∉ (parsePath (h.getRelativePath path)).comps) :
    ((h.handle fs path head).status = 200 ↔
      ∃ loc c, fs.stat p = .ok loc ∧ base <+: loc ∧ fs.look loc = some (.file c true)) ∧
    ∀ loc c, fs.stat p = .ok loc → base <+: loc → fs.look loc = some (.file c true) →
      head = false → (h.handle fs path head).body = c := by
  obtain rfl := hp.combined
  have hw0 : fs.weaklyCanonical (fs.absolute (parsePath h.filesystemRoot)) = .ok ⟨true, base, false⟩ := by
    rw [weaklyCanonical, stat_absolute hwf _ (parsePath_trail _), hbase]
  have hback : ∀ loc c, fs.stat (combinedPath base (h.getRelativePath path)) = .ok loc → base <+: loc →
      fs.look loc = some (.file c true) →
      ∃ s, sanitizePath fs h.filesystemRoot (h.getRelativePath path) = some s ∧ Opens fs s c := by
    intro loc c hloc hin hc
    have hr : fs.Real loc := stat_real hwf hloc
    have hv := hwf.names _ _ hc
    refine ⟨FPath.render ⟨true, loc, false⟩, ?_, loc, ?_, hc⟩
    · rw [sanitizePath]
      simp only
      rw [stat_absolute hwf _ (parsePath_trail _), hbase]
      simp only
      rw [if_neg (by simp [hdir]), hw0]
      simp only
      have hw : fs.weaklyCanonical (combinedPath base (h.getRelativePath path)) = .ok ⟨true, loc, false⟩ := by
        rw [weaklyCanonical, hloc]
      rw [combinedPath] at hw
      rw [hw]
      simp only
      rw [if_pos (prefix_within (by simpa [FPath.elems] using hin))]
    · rw [statString_render rfl (by simp) (fun x hx => (hv x hx).elem)]
      simp only [stepsOf, Bool.false_eq_true, if_false, List.append_nil]
      rw [cutNul_id (fun x hx => (hv x hx).noNul), resolve_root hwf _ hr]
  refine ⟨⟨?_, ?_⟩, ?_⟩
  · intro hok
    obtain ⟨s, c, hs, hopen⟩ := (C56_codes h fs path head).2.2.mp hok
    obtain ⟨base', full, h1, h2, h3, h4, h5, rfl⟩ := sanitizePath_spec hwf hs
    rw [stat_absolute hwf _ (parsePath_trail _), hbase] at h1
    obtain rfl : base = base' := by simpa using h1
    have hb : ∀ c ∈ base, PathElem c := fun c hc => (hwf.names _ _ hdir c hc).elem
    have habs := combinedPath_abs base (h.getRelativePath path)
    obtain ⟨ha, ht, he⟩ := weaklyCanonical_elems hwf habs (combinedPath_elems hb (h.getRelativePath path)) h3
    obtain ⟨loc, hl1, hl2⟩ := id hopen
    rw [statString_render ha ht (fun x hx => (he x hx).1)] at hl1
    rcases weaklyCanonical_spec fs h3 with ⟨l, hl, rfl⟩ | ⟨e, P, Q, l, hloop, hst, hPQ, hP, hQ, rfl⟩
    · have hl' := hl
      rw [stat_abs fs habs] at hl'
      have hr := resolve_real hwf _ _ _ _ (Real.root fs) hl'
      obtain ⟨nd, hnd⟩ := hr.some
      simp only [stepsOf, Bool.false_eq_true, if_false, List.append_nil] at hl1
      rw [cutNul_id fun c hc => (hwf.names _ _ hnd c hc).noNul, resolve_root hwf _ hr] at hl1
      obtain rfl : l = loc := by simpa using hl1
      exact ⟨l, c, hl, h5, hl2⟩
    · exfalso
      refine normal_fails hwf habs hst hloop hPQ hP hQ ?_ loc hl1
      intro hm
      have hm' : b!".." ∈ (combinedPath base (h.getRelativePath path)).comps := by rw [hPQ]; simp [hm]
      rw [combinedPath] at hm'
      split at hm'
      · exact hup hm'
      · simp only [FPath.append, List.mem_append] at hm'
        rcases hm' with hm' | hm'
        · exact (hwf.names _ _ hdir _ hm').notDotDot rfl
        · exact hup hm'
  · rintro ⟨loc, c, h1, h2, h3⟩
    obtain ⟨s, hs, ho⟩ := hback loc c h1 h2 h3
    exact (C56_codes h fs path head).2.2.mpr ⟨s, c, hs, ho⟩
  · intro loc c h1 h2 h3 hh
    obtain ⟨s, hs, ho⟩ := hback loc c h1 h2 h3
    subst hh
    rw [((C56_status h fs path).2 _ hs).2 c ho]

/-- Targets with '.', with a link, and with the whole path of a file are served; one with a file where a directory
should be is not. -/
example : (handler.handle site b!"/static/./css/./a.css" false).status = 200 ∧
    (handler.handle site b!"/static/home" false).status = 200 ∧
    (handler.handle site b!"/static//srv/www/index.html" false).body = b!"hello" ∧
    (handler.handle site b!"/static/index.html/." false).status = 404 ∧
    StandsFor [b!"srv", b!"www"] (handler.getRelativePath b!"/static//srv/www/index.html")
      (parsePath b!"/srv/www/index.html") :=
  ⟨by decide +kernel, by decide +kernel, by decide +kernel, by decide +kernel, .absolute (by decide +kernel)⟩

/-- The whole path of a file. -/
example : ((handler.handle site b!"/static//srv/www/index.html" true).status = 200 ↔
    ∃ loc c, site.stat (parsePath b!"/srv/www/index.html") = .ok loc ∧ [b!"srv", b!"www"] <+: loc ∧
      site.look loc = some (.file c true)) :=
  (C134_exact_partial site_wf handler b!"/static//srv/www/index.html" true (base := [b!"srv", b!"www"])
    (by decide +kernel) (by decide +kernel) (.absolute (by decide +kernel)) (by decide +kernel)).1

end Props
end Ion
