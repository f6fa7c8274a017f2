import Verif.Props.StaticAll
import Verif.Props.StaticPrefix
import Verif.Props.StaticFound

/-!
# When a request for a file is refused (C150)

`sanitize_path` (lib/file_reader.cpp:99-143) refuses with `std::nullopt` both when the path leads out of the directory
and when `std::filesystem` throws. C150 asks whether only paths that lead out are refused.
-/

namespace Ion
namespace Props

open FS FileReader StaticFileHandler Files

/-! ## When `weakly_canonical` fails -/

/-- An error of a beginning of a path is the error of the path. -/
theorem stat_prefix_error (fs : FS) {p : FPath} (hp : p.abs = true) {pre : List Name} (hpre : pre <+: p.comps)
    {e : Errno} (h : fs.stat ⟨true, pre, false⟩ = .error e) : fs.stat p = .error e := by
  obtain ⟨rest, hr⟩ := hpre
  rw [stat_abs fs rfl] at h
  rw [stat_abs fs hp, stepsOf, ← hr, List.append_assoc]
  simp only [stepsOf, Bool.false_eq_true, if_false, List.append_nil] at h
  by_cases hn : ∃ c ∈ pre, (0 : UInt8) ∈ c
  · rw [cutNul_of_nul hn]; exact h
  · have hn : ∀ c ∈ pre, (0 : UInt8) ∉ c := fun c hc h0 => hn ⟨c, hc, h0⟩
    rw [cutNul_append hn]
    rw [cutNul_id hn] at h
    exact resolve_append_of_error fs _ _ _ _ _ h

theorem weaklyCanonical_error {fs : FS} {p : FPath} (hp : p.abs = true) :
    (∃ e, fs.weaklyCanonical p = .error e) ↔ ∃ e, fs.stat p = .error e ∧ e.absent = false := by
  constructor
  · rintro ⟨e, h⟩
    rw [weaklyCanonical] at h
    split at h
    · cases h
    · rename_i e' he
      split at h
      · rename_i ha
        obtain ⟨loc, d, hx⟩ := existingPrefix_total (fs := fs) p.comps.reverse [] (by
          intro pre e2 hpre h2
          rw [List.reverse_reverse] at hpre
          rw [stat_prefix_error fs hp hpre h2] at he
          cases he
          exact ha)
        rw [hx] at h
        cases h
      · rename_i ha
        exact ⟨e', he, by simpa using ha⟩
  · rintro ⟨e, h1, h2⟩
    refine ⟨e, ?_⟩
    rw [weaklyCanonical, h1]
    simp only
    rw [if_neg (by simp [h2])]

theorem within_iff {base : List Name} (hb : ∀ c ∈ base, c ≠ []) {full : FPath} (ha : full.abs = true) :
    within (FPath.elems ⟨true, base, false⟩) full.elems = true ↔ base <+: full.comps := by
  simp only [FPath.elems, ha, if_true, Bool.false_eq_true, if_false, List.append_nil, List.cons_append,
    List.nil_append]
  constructor
  · intro h
    exact prefix_of_trail hb (List.cons_prefix_cons.mp (within_prefix h)).2
  · intro h
    exact prefix_within (List.cons_prefix_cons.mpr ⟨rfl, h.trans (List.prefix_append _ _)⟩)

/-! ## The answers -/

/-- C150, refusals: a target is answered with 403 exactly if the operating system, asked for it, reports something else
than that it is not there, or the path it is opened as lies outside the directory. -/
theorem C150_forbidden {fs : FS} (hwf : fs.WF) (h : StaticFileHandler) (path : Bytes) (head : Bool)
    {base : List Name} (hbase : fs.stat (parsePath h.filesystemRoot) = .ok base) (hdir : fs.look base = some .dir)
    {p : FPath} (hp : StandsFor base (h.getRelativePath path) p) :
    (h.handle fs path head).status = 403 ↔
      (∃ e, fs.stat p = .error e ∧ e ≠ .noEnt ∧ e ≠ .notDir) ∨ ∃ q, OpensAs fs p q ∧ ¬ base <+: q.comps := by
  obtain rfl := hp.combined
  have habs := combinedPath_abs base (h.getRelativePath path)
  have hb : ∀ c ∈ base, PathElem c := fun c hc => (hwf.names _ _ hdir c hc).elem
  have hab : ∀ e : Errno, e.absent = false ↔ e ≠ .noEnt ∧ e ≠ .notDir := by
    intro e; cases e <;> simp [Errno.absent]
  rw [(C56_codes h fs path head).1,
    sanitizePath_eq (by rw [stat_absolute hwf _ (parsePath_trail _)]; exact hbase) hdir]
  simp only [← hab]
  rw [← weaklyCanonical_error habs]
  simp only [← weaklyCanonical_iff habs]
  rcases hw : fs.weaklyCanonical (combinedPath base (h.getRelativePath path)) with e | full
  · simp
  · obtain ⟨ha, ht, he⟩ := weaklyCanonical_elems hwf habs (combinedPath_elems hb (h.getRelativePath path)) hw
    have hwi := within_iff (fun c hc => (hb c hc).1) ha
    simp only [reduceCtorEq, exists_false, false_or, Except.ok.injEq]
    constructor
    · intro hx
      refine ⟨full, rfl, fun hin => ?_⟩
      rw [if_pos (hwi.mpr hin)] at hx
      cases hx
    · rintro ⟨q, rfl, hq⟩
      rw [if_neg (fun hx => hq (hwi.mp hx))]

/-- C150, not found: 404 exactly if the path it is opened as lies in the directory, and no readable regular file is
found there. -/
theorem C150_notFound {fs : FS} (hwf : fs.WF) (h : StaticFileHandler) (path : Bytes) (head : Bool)
    {base : List Name} (hbase : fs.stat (parsePath h.filesystemRoot) = .ok base) (hdir : fs.look base = some .dir)
    {p : FPath} (hp : StandsFor base (h.getRelativePath path) p) :
    (h.handle fs path head).status = 404 ↔ ∃ q, OpensAs fs p q ∧ base <+: q.comps ∧
      ∀ loc c, fs.stat q = .ok loc → fs.look loc ≠ some (.file c true) := by
  obtain rfl := hp.combined
  have habs := combinedPath_abs base (h.getRelativePath path)
  have hb : ∀ c ∈ base, PathElem c := fun c hc => (hwf.names _ _ hdir c hc).elem
  rw [(C56_codes h fs path head).2.1,
    sanitizePath_eq (by rw [stat_absolute hwf _ (parsePath_trail _)]; exact hbase) hdir]
  simp only [← weaklyCanonical_iff habs]
  rcases hw : fs.weaklyCanonical (combinedPath base (h.getRelativePath path)) with e | full
  · simp
  · obtain ⟨ha, ht, he⟩ := weaklyCanonical_elems hwf habs (combinedPath_elems hb (h.getRelativePath path)) hw
    have hwi := within_iff (fun c hc => (hb c hc).1) ha
    have hst : fs.statString full.render = fs.stat full := by
      rw [statString_render ha ht (fun x hx => (he x hx).1), ← stat_abs fs ha]
    simp only [Except.ok.injEq, exists_eq_left']
    by_cases hin : base <+: full.comps
    · rw [if_pos (hwi.mpr hin)]
      simp only [Option.some.injEq, exists_eq_left', Opens, hst, not_exists, not_and, hin, true_and]
      exact ⟨fun h loc c h1 h2 => h c loc h1 h2, fun h c loc h1 h2 => h loc c h1 h2⟩
    · rw [if_neg (fun hx => hin (hwi.mp hx))]
      simp [hin]

/-- C150, no directory: if the configured directory is not there, or is none, everything is refused. -/
theorem C150_noBase {fs : FS} (hwf : fs.WF) (h : StaticFileHandler)
    (hbase : ∀ base, fs.stat (parsePath h.filesystemRoot) = .ok base → fs.look base ≠ some .dir)
    (path : Bytes) (head : Bool) : h.handle fs path head = { status := 403 } := by
  refine (C56_status h fs path).1 ?_ head
  rw [sanitizePath]
  simp only [stat_absolute hwf _ (parsePath_trail _)]
  split
  · rfl
  · rename_i loc hl
    rw [if_pos (hbase loc hl)]

/-! ## The claim -/

/-- The site with a directory that may not be searched. -/
def Files.locked : FS := { site with search := fun l => l ≠ [b!"srv", b!"www", b!"css"] }

theorem Files.locked_wf : locked.WF where
  node := site_wf.node
  cwd := site_wf.cwd
  reach := by
    intro pre hp
    obtain rfl : pre = [] := List.prefix_nil.mp hp
    decide +kernel

/-- C150, "only what lies outside the directory is refused with 403, what is not there is 404", is false: a name in the
directory that is longer than 255 octets, and anything in a directory that may not be searched, is refused, although the
targets have neither '..' nor links nor NUL octets. -/
theorem C150_refuted : ∃ (fs : FS) (h : StaticFileHandler) (base : List Name), fs.WF ∧
    fs.stat (parsePath h.filesystemRoot) = .ok base ∧ fs.look base = some .dir ∧
    AsksFor h.urlPrefix b!"/static/css/a.css" [b!"css", b!"a.css"] ∧
    fs.look (base ++ [b!"css", b!"a.css"]) = some (.file b!"body{}" true) ∧
    (∀ head, (h.handle fs b!"/static/css/a.css" head).status = 403) ∧
    AsksFor h.urlPrefix (b!"/static/" ++ List.replicate 256 0x61) [List.replicate 256 0x61] ∧
    fs.look (base ++ [List.replicate 256 0x61]) = none ∧
    (∀ head, (h.handle fs (b!"/static/" ++ List.replicate 256 0x61) head).status = 403) ∧
    ∀ head, (h.handle fs (b!"/static/" ++ List.replicate 255 0x61) head).status = 404 := by
  refine ⟨locked, handler, [b!"srv", b!"www"], locked_wf, by decide +kernel, by decide +kernel,
    .named b!"/" [] [b!"css", b!"a.css"] (.inr rfl) (by simp) (by decide +kernel) (.inl rfl), by decide +kernel,
    by decide +kernel, ?_, by decide +kernel, by decide +kernel, by decide +kernel⟩
  have hx : ∀ c ∈ [List.replicate 256 (0x61 : UInt8)], (0x3f : UInt8) ∉ c := by
    intro c hc
    rw [List.mem_singleton.mp hc, List.mem_replicate]
    decide
  have := AsksFor.named (pfx := handler.urlPrefix) b!"/" [] [List.replicate 256 0x61] (.inr rfl) (List.cons_ne_nil _ _)
    hx (.inl rfl)
  generalize List.replicate 256 (0x61 : UInt8) = x at this ⊢
  simpa [List.intercalate, handler] using this

/-- Going down without '..' and without links. -/
theorem resolve_inside {fs : FS} {base : List Name}
    (hn : ∀ loc c t, base <+: loc → fs.look (loc ++ [c]) ≠ some (.link t))
    (hs : ∀ loc, base <+: loc → fs.search loc = true) (n : Nat) :
    ∀ (s cur : List Name), base <+: cur → b!".." ∉ s → (∀ c ∈ s, c ≠ b!"." → c.length ≤ fs.nameMax) →
      (∃ l, fs.resolve n cur s = .ok l ∧ base <+: l) ∨ ∃ e, fs.resolve n cur s = .error e ∧ e.absent = true := by
  intro s
  induction s with
  | nil => intro cur hc _ _; exact .inl ⟨cur, by rw [resolve_eq, walk_nil], hc⟩
  | cons c cs ih =>
    intro cur hc hu hm
    simp only [List.mem_cons, not_or] at hu
    have ih := fun cur h => ih cur h hu.2 (fun d hd => hm d (by simp [hd]))
    rw [resolve_eq] at ih ⊢
    have hc' : base <+: cur ++ [c] := hc.trans (List.prefix_append ..)
    by_cases hd : fs.look cur = some .dir
    · have hd : fs.Enter cur := ⟨hd, hs cur hc⟩
      by_cases h1 : c = b!"."
      · subst h1
        rw [walk_dot fs _ hd]; exact ih cur hc
      · rw [walk_name fs _ hd h1 (Ne.symm hu.1)]
        rcases hk : fs.look (cur ++ [c]) with _ | _ | ⟨x, r⟩ | t | _
        · refine .inr ⟨.noEnt, ?_, rfl⟩
          have := hm c (by simp) h1
          simp only
          rw [if_neg (by omega)]
        · exact ih _ hc'
        · exact ih _ hc'
        · exact absurd hk (hn cur c t hc)
        · exact ih _ hc'
    · rw [walk_notDir fs _ hd]
      exact .inr ⟨.notDir, rfl, rfl⟩

/-- C150, what holds: if there are no symbolic links in the directory and everything in it may be searched, a target
that neither goes up nor names an absolute path nor contains a NUL octet or a name that is too long is never refused: it
is served or not found. Missing: the others. -/
theorem C150_plain_partial {fs : FS} (hwf : fs.WF) (h : StaticFileHandler) (path : Bytes) (head : Bool)
    {base : List Name} (hbase : fs.stat (parsePath h.filesystemRoot) = .ok base) (hdir : fs.look base = some .dir)
    (hn : ∀ loc c t, base <+: loc → fs.look (loc ++ [c]) ≠ some (.link t))
    (hs : ∀ loc, base <+: loc → fs.search loc = true)
    (hr : (parsePath (h.getRelativePath path)).abs = false)
    (hu : ∀ c ∈ (parsePath (h.getRelativePath path)).comps, c ≠ b!".." ∧ (0 : UInt8) ∉ c ∧ c.length ≤ fs.nameMax) :
    (h.handle fs path head).status = 200 ∨ (h.handle fs path head).status = 404 := by
  have hbr := stat_real hwf hbase
  have hbn : ∀ c ∈ base, ValidName c := hwf.names _ _ hdir
  have hno403 : (h.handle fs path head).status ≠ 403 := by
    rw [Ne, C150_forbidden hwf h path head hbase hdir (.below hr)]
    generalize parsePath (h.getRelativePath path) = r at hr hu
    have hstat : ∀ cs t, (∀ c ∈ cs, c ≠ b!".." ∧ (0 : UInt8) ∉ c ∧ c.length ≤ fs.nameMax) →
        (∃ l, fs.stat ⟨true, base ++ cs, t⟩ = .ok l ∧ base <+: l) ∨
          ∃ e, fs.stat ⟨true, base ++ cs, t⟩ = .error e ∧ e.absent = true := by
      intro cs t hcs
      have hall : ∀ c ∈ cs ++ (if t = true then [b!"."] else []),
          c ≠ b!".." ∧ (0 : UInt8) ∉ c ∧ (c ≠ b!"." → c.length ≤ fs.nameMax) := by
        intro c hc
        rcases List.mem_append.mp hc with hc | hc
        · exact ⟨(hcs c hc).1, (hcs c hc).2.1, fun _ => (hcs c hc).2.2⟩
        · split at hc
          · simp only [List.mem_cons, List.not_mem_nil, or_false] at hc
            subst hc
            exact ⟨by decide, by decide, fun h => absurd rfl h⟩
          · simp at hc
      rw [stat_abs fs rfl, stepsOf, List.append_assoc, cutNul_append fun c hc => (hbn c hc).noNul,
        resolve_down hwf _ base _ [] (by simpa using hbr), List.nil_append, cutNul_id fun c hc => (hall c hc).2.1]
      exact resolve_inside hn hs _ _ _ (List.prefix_refl _) (fun hm => (hall _ hm).1 rfl) (fun c hc => (hall c hc).2.2)
    rintro (⟨e, h1, h2, h3⟩ | ⟨q, hq, hout⟩)
    · simp only [FPath.append] at h1
      rcases hstat r.comps _ hu with ⟨l, h4, -⟩ | ⟨e', h4, h5⟩
      · rw [h4] at h1; cases h1
      · rw [h4] at h1; cases h1
        cases e <;> simp [Errno.absent] at h2 h3 h5
    · apply hout
      generalize hpe : FPath.append ⟨true, base, false⟩ r = p at hq
      have hpc : p.comps = base ++ r.comps := by rw [← hpe]; rfl
      cases hq with
      | found hl =>
        rw [← hpe] at hl
        simp only [FPath.append] at hl
        rcases hstat r.comps _ hu with ⟨l, h4, h5⟩ | ⟨e', h4, -⟩
        · rw [h4] at hl; cases hl; exact h5
        · rw [h4] at hl; cases hl
      | @named e P Q l full h1 h2 h3 h4 h5 h6 =>
        rw [hpc] at h3
        have hbs : fs.stat ⟨true, base, false⟩ = .ok base := by
          rw [stat_abs fs rfl, stepsOf]
          simp only [Bool.false_eq_true, if_false, List.append_nil]
          rw [cutNul_id fun c hc => (hbn c hc).noNul, resolve_root hwf _ hbr]
        have hPb : base <+: P := by
          rcases List.append_eq_append_iff.mp h3 with ⟨a, ha, -⟩ | ⟨a, ha, hb⟩
          · exact ⟨a, ha.symm⟩
          · rcases List.eq_nil_or_concat a with rfl | ⟨a', x, rfl⟩
            · rw [List.append_nil] at ha; exact ⟨[], by rw [List.append_nil, ha]⟩
            · exfalso
              obtain ⟨e, -, he⟩ := h5 a' x r.comps (by rw [hb]; simp)
              rw [← List.concat_eq_append, ← ha, hbs] at he
              cases he
        obtain ⟨cs, rfl⟩ := hPb
        rw [List.append_assoc, List.append_cancel_left_eq] at h3
        have hl : base <+: l := by
          rcases hstat cs false (fun c hc => hu c (by rw [h3]; simp [hc])) with ⟨l', h7, h8⟩ | ⟨e', h7, -⟩
          · rw [h7] at h4; cases h4; exact h8
          · rw [h7] at h4; cases h4
        have hlreal := stat_real hwf h4
        obtain ⟨nd, hnd⟩ := hlreal.some
        have hlv := hwf.names _ _ hnd
        have := h6.normalize
        rw [normalize_plain _ _ (by
          intro hm
          rcases List.mem_append.mp hm with hm | hm
          · exact (hlv _ hm).notDotDot rfl
          · exact (hu b!".." (by rw [h3]; simp [hm])).1 rfl), List.filter_append,
          List.filter_eq_self.mpr (fun c hc => by simpa using (hlv c hc).notDot)] at this
        simp only [List.reverse_nil, List.nil_append] at this
        simp only
        rw [← this]
        exact hl.trans (List.prefix_append _ _)
  have hcodes := C56_codes h fs path head
  rw [Ne, hcodes.1] at hno403
  cases hx : sanitizePath fs h.filesystemRoot (h.getRelativePath path) with
  | none => exact absurd hx hno403
  | some s =>
    by_cases ho : ∃ c, Opens fs s c
    · obtain ⟨c, hc⟩ := ho
      exact .inl (hcodes.2.2.mpr ⟨s, c, hx, hc⟩)
    · exact .inr (hcodes.2.1.mpr ⟨s, hx, fun c hc => ho ⟨c, hc⟩⟩)

/-- A site without links: what is there is served, what is not is not found. -/
example : (∀ loc c t, [b!"srv", b!"www"] <+: loc → (beside []).look (loc ++ [c]) ≠ some (.link t)) ∧
    (∀ loc, [b!"srv", b!"www"] <+: loc → (beside []).search loc = true) ∧
    (handler.handle (beside []) b!"/static/./index.html" false).status = 200 ∧
    (handler.handle (beside []) b!"/static/a/b/" false).status = 404 := by
  refine ⟨?_, fun _ _ => rfl, by decide +kernel, by decide +kernel⟩
  intro loc c t _ hl
  have hm : (loc ++ [c], Node.link t) ∈ _ := mem_of_lookup (by simpa [look, beside, ofList] using hl)
  simp at hm

/-- A NUL octet after '..': for the operating system the target names the directory above, and it is refused. -/
example : (handler.handle (beside []) (b!"/static/.." ++ [0]) false).status = 403 ∧
    b!".." ∉ (parsePath (handler.getRelativePath (b!"/static/.." ++ [0]))).comps := by decide +kernel

/-- A loop of links is refused; a special file is not found. -/
example : (handler.handle (ofList [([b!"srv"], .dir), ([b!"srv", b!"www"], .dir),
      ([b!"srv", b!"www", b!"a"], .link b!"a"), ([b!"srv", b!"www", b!"fifo"], .special)])
      b!"/static/a" false).status = 403 ∧
    (handler.handle (ofList [([b!"srv"], .dir), ([b!"srv", b!"www"], .dir),
      ([b!"srv", b!"www", b!"a"], .link b!"a"), ([b!"srv", b!"www", b!"fifo"], .special)])
      b!"/static/fifo" false).status = 404 := by decide +kernel

end Props
end Ion
