import Verif.Model.StaticLog
import Verif.Model.Reports
import Verif.Props.StaticRefused
import Verif.Props.FrameLog

/-!
# What the log says about requests for files (C165)

C165 asks whether the log tells which requests were refused, and whether they were attempts to leave the directory.
-/

namespace Ion
namespace Props

open FS FileReader StaticFileHandler Files Spec

/-- Where there is an answer other than 403 there is nothing to warn about. -/
theorem fileResponse_quiet (why : Bytes) (fs : FS) (s : Bytes) (head : Bool) :
    written 3 (fileResponseLines why fs s head) = [] := by
  rw [fileResponseLines]
  cases hr : isReadable fs s with
  | false => rfl
  | true =>
    obtain ⟨c, hc⟩ := isReadable_iff.mp hr
    cases head
    · simp only [Bool.not_true, Bool.false_eq_true, if_false, getResponseLines, readFileLines, readFile_of hc]
      rfl
    · simp only [Bool.not_true, Bool.false_eq_true, if_false, if_true, headResponseLines, getFileSizeLines, getFileSize_of hc]
      rfl

/-- What `sanitize_path` logs once the base directory has been found. -/
theorem sanitizeLines_eq {fs : FS} {why b r : Bytes} {base : List Name}
    (hb : fs.stat (fs.absolute (parsePath b)) = .ok base) (hd : fs.look base = some .dir) :
    sanitizeLines why fs b r = match fs.weaklyCanonical (combinedPath base r) with
      | .error _ => [(.err, b!"Path error: " ++ why)]
      | .ok full => if within (FPath.elems ⟨true, base, false⟩) full.elems then []
        else [(.warn, b!"Directory traversal attempt blocked: " ++ r ++ b!" (base: " ++ b ++ b!")")] := by
  have hw : fs.weaklyCanonical (fs.absolute (parsePath b)) = .ok ⟨true, base, false⟩ := by
    rw [weaklyCanonical, hb]
  rw [sanitizeLines]
  simp only [hb, hw]
  rw [if_neg (by simp [hd])]
  rfl

/-- C165: a target whose path lies in the directory causes no warning and no error; one whose path lies outside causes
a warning that says so, with the target's rest and the directory; one for which the operating system reports something
else than that it is not there causes an error with that. The last two are refused, and a warning says so, with the
target. -/
theorem C165_told {fs : FS} (hwf : fs.WF) (h : StaticFileHandler) (why path : Bytes) (head : Bool)
    {base : List Name} (hbase : fs.stat (parsePath h.filesystemRoot) = .ok base) (hdir : fs.look base = some .dir)
    {p : FPath} (hp : StandsFor base (h.getRelativePath path) p) :
    (∃ q, OpensAs fs p q ∧ base <+: q.comps ∧ (h.handle fs path head).status ≠ 403 ∧
      written 3 (h.handleLines why fs path head) = []) ∨
    (∃ q, OpensAs fs p q ∧ ¬ base <+: q.comps ∧ (h.handle fs path head).status = 403 ∧
      written 3 (h.handleLines why fs path head) =
        [(.warn, b!"Directory traversal attempt blocked: " ++ h.getRelativePath path ++ b!" (base: " ++ h.filesystemRoot ++ b!")"),
         (.warn, b!"invalid file path requested: " ++ path)]) ∨
    (∃ e, fs.stat p = .error e ∧ e ≠ .noEnt ∧ e ≠ .notDir ∧ (h.handle fs path head).status = 403 ∧
      written 3 (h.handleLines why fs path head) =
        [(.err, b!"Path error: " ++ why), (.warn, b!"invalid file path requested: " ++ path)]) := by
  obtain rfl := hp.combined
  have habs := combinedPath_abs base (h.getRelativePath path)
  have hb : ∀ c ∈ base, PathElem c := fun c hc => (hwf.names _ _ hdir c hc).elem
  have hb0 : fs.stat (fs.absolute (parsePath h.filesystemRoot)) = .ok base := by
    rw [stat_absolute hwf _ (parsePath_trail _)]; exact hbase
  have h403 := (C56_codes h fs path head).1
  rw [handleLines, written_append, sanitizeLines_eq hb0 hdir]
  rw [sanitizePath_eq hb0 hdir] at h403 ⊢
  rcases hw : fs.weaklyCanonical (combinedPath base (h.getRelativePath path)) with e | full
  · obtain ⟨e', h1, h2⟩ := (weaklyCanonical_error habs).mp ⟨e, hw⟩
    rw [hw] at h403
    refine .inr (.inr ⟨e', h1, ?_, ?_, h403.mpr rfl, rfl⟩) <;> rintro rfl <;> cases h2
  · obtain ⟨ha, ht, he⟩ := weaklyCanonical_elems hwf habs (combinedPath_elems hb (h.getRelativePath path)) hw
    have hwi := within_iff (fun c hc => (hb c hc).1) ha
    have ho := (weaklyCanonical_iff habs).mp hw
    rw [hw] at h403
    simp only at h403 ⊢
    by_cases hin : base <+: full.comps
    · rw [if_pos (hwi.mpr hin)] at h403
      rw [if_pos (hwi.mpr hin), if_pos (hwi.mpr hin)]
      refine .inl ⟨full, ho, hin, fun hx => (by cases h403.mp hx), ?_⟩
      rw [fileResponse_quiet]; rfl
    · rw [if_neg (fun hx => hin (hwi.mp hx))] at h403
      rw [if_neg (fun hx => hin (hwi.mp hx)), if_neg (fun hx => hin (hwi.mp hx))]
      exact .inr (.inl ⟨full, ho, hin, h403.mpr rfl, rfl⟩)

/-- C165, attempts: the warning about an attempt to leave the directory is logged for exactly those targets whose path
lies outside. -/
theorem C165_attempts {fs : FS} (hwf : fs.WF) (h : StaticFileHandler) (why path : Bytes) (head : Bool)
    {base : List Name} (hbase : fs.stat (parsePath h.filesystemRoot) = .ok base) (hdir : fs.look base = some .dir)
    {p : FPath} (hp : StandsFor base (h.getRelativePath path) p) :
    (∃ text, (.warn, b!"Directory traversal attempt blocked: " ++ text) ∈ h.handleLines why fs path head) ↔
      ∃ q, OpensAs fs p q ∧ ¬ base <+: q.comps := by
  have habs : p.abs = true := by rw [hp.combined]; exact combinedPath_abs base _
  have hmem : ∀ text, ((.warn, b!"Directory traversal attempt blocked: " ++ text) : Line) ∈ h.handleLines why fs path head ↔
      (.warn, b!"Directory traversal attempt blocked: " ++ text) ∈ written 3 (h.handleLines why fs path head) := by
    intro text
    rw [written, List.mem_filter]
    simp [Level.rank]
  have hne : ∀ text, ((.warn, b!"Directory traversal attempt blocked: " ++ text) : Line) ≠
      (.warn, b!"invalid file path requested: " ++ path) := by
    intro text hx
    simp at hx
  rcases C165_told hwf h why path head hbase hdir hp with ⟨q, h1, h2, -, h3⟩ | ⟨q, h1, h2, -, h3⟩ | ⟨e, h1, h2, h4, -, h3⟩
  · constructor
    · rintro ⟨text, ht⟩
      rw [hmem, h3] at ht
      cases ht
    · rintro ⟨q', h5, h6⟩
      have := (weaklyCanonical_iff habs).mpr h1
      rw [(weaklyCanonical_iff habs).mpr h5] at this
      cases this
      exact absurd h2 h6
  · refine ⟨fun _ => ⟨q, h1, h2⟩, fun _ => ⟨h.getRelativePath path ++ b!" (base: " ++ h.filesystemRoot ++ b!")", ?_⟩⟩
    rw [hmem, h3]
    simp only [List.append_assoc, List.mem_cons, true_or]
  · constructor
    · rintro ⟨text, ht⟩
      rw [hmem, h3] at ht
      simp only [List.mem_cons, List.not_mem_nil, or_false] at ht
      rcases ht with ht | ht
      · cases ht
      · exact absurd ht (hne text)
    · rintro ⟨q', h5, -⟩
      obtain ⟨e', h6⟩ := (weaklyCanonical_error habs).mpr ⟨e, h1, by cases e <;> simp_all [Errno.absent]⟩
      rw [(weaklyCanonical_iff habs).mpr h5] at h6
      cases h6

/-- C165, no directory: if the configured directory is not there, or is none, every request causes an error that says so
(or, if the operating system reports something else, what it reports), and a warning with the target. -/
theorem C165_noBase {fs : FS} (hwf : fs.WF) (h : StaticFileHandler)
    (hbase : ∀ base, fs.stat (parsePath h.filesystemRoot) = .ok base → fs.look base ≠ some .dir)
    (why path : Bytes) (head : Bool) :
    ((∃ e, fs.stat (parsePath h.filesystemRoot) = .error e ∧ e ≠ .noEnt ∧ e ≠ .notDir) →
      h.handleLines why fs path head =
        [(.err, b!"Path error: " ++ why), (.warn, b!"invalid file path requested: " ++ path)]) ∧
    ((¬ ∃ e, fs.stat (parsePath h.filesystemRoot) = .error e ∧ e ≠ .noEnt ∧ e ≠ .notDir) →
      h.handleLines why fs path head =
        [(.err, b!"Path error: base directory does not exist or is not a directory: " ++ h.filesystemRoot),
         (.warn, b!"invalid file path requested: " ++ path)]) := by
  have hs : sanitizePath fs h.filesystemRoot (h.getRelativePath path) = none := by
    rw [← (C56_codes h fs path head).1, C150_noBase hwf h hbase path head]
  rw [handleLines, hs, sanitizeLines]
  simp only [stat_absolute hwf _ (parsePath_trail _)]
  rcases hl : fs.stat (parsePath h.filesystemRoot) with e | loc
  · cases e <;> refine ⟨fun h1 => ?_, fun h1 => ?_⟩ <;> first | rfl | (exfalso; simp at h1)
  · refine ⟨fun ⟨e, h1, _⟩ => (by cases h1), fun _ => ?_⟩
    simp only
    rw [if_pos (hbase loc hl)]
    rfl

/-- The texts that C128 is about are among these lines: they are the warnings. -/
theorem messages_of_lines (h : StaticFileHandler) (why : Bytes) (fs : FS) (path : Bytes) (head : Bool) :
    h.messages fs path = ((h.handleLines why fs path head).filter fun l => decide (l.1 = .warn)).map (·.2) := by
  have hf : ∀ s, (fileResponseLines why fs s head).filter (fun l => decide (l.1 = .warn)) = [] := by
    intro s
    have h3 := fileResponse_quiet why fs s head
    rw [List.filter_eq_nil_iff]
    rintro ⟨v, t⟩ hl hv
    simp only [decide_eq_true_eq] at hv
    subst hv
    have : ((.warn, t) : Line) ∈ written 3 (fileResponseLines why fs s head) := by
      rw [written, List.mem_filter]; exact ⟨hl, rfl⟩
    rw [h3] at this
    cases this
  rw [messages, handleLines, List.filter_append, List.map_append]
  congr 1
  · rw [sanitizeMessages, sanitizeLines]
    simp only
    cases fs.stat (fs.absolute (parsePath h.filesystemRoot)) with
    | error e => cases e <;> rfl
    | ok loc =>
      simp only
      split
      · rfl
      · cases fs.weaklyCanonical (fs.absolute (parsePath h.filesystemRoot)) with
        | error e => rfl
        | ok b =>
          simp only
          cases fs.weaklyCanonical (if (parsePath (h.getRelativePath path)).abs then parsePath (h.getRelativePath path)
            else b.append (parsePath (h.getRelativePath path))) with
          | error e => rfl
          | ok full =>
            simp only
            split <;> rfl
  · cases sanitizePath fs h.filesystemRoot (h.getRelativePath path) with
    | none => rfl
    | some s => simp only [hf]; rfl

set_option maxRecDepth 100000 in
/-- Two attempts; a file that is served, one that is not there; a name that is too long; and a site without its
directory. -/
example :
    written 3 (handler.handleLines b!"x" site b!"/static/../x" false) =
      [(.warn, b!"Directory traversal attempt blocked: ../x (base: /srv/www)"),
       (.warn, b!"invalid file path requested: /static/../x")] ∧
    written 3 (handler.handleLines b!"x" site b!"/static//etc/passwd?a" true) =
      [(.warn, b!"Directory traversal attempt blocked: /etc/passwd (base: /srv/www)"),
       (.warn, b!"invalid file path requested: /static//etc/passwd?a")] ∧
    handler.handleLines b!"x" site b!"/static/css/a.css" false =
      [(.debug, b!"Read file: /srv/www/css/a.css (6 bytes)"),
       (.debug, b!"serving static file: /srv/www/css/a.css (6 bytes, text/css; charset=utf-8)")] ∧
    handler.handleLines b!"x" site b!"/static/css/a.css" true =
      [(.debug, b!"Returning metadata for static file: /srv/www/css/a.css (6 bytes, text/css; charset=utf-8)")] ∧
    handler.handleLines b!"x" site b!"/static/b" true = [(.debug, b!"file not found or not readable: /srv/www/b")] ∧
    handler.handleLines b!"Permission denied" locked b!"/static/css/a.css" false =
      [(.err, b!"Path error: Permission denied"), (.warn, b!"invalid file path requested: /static/css/a.css")] ∧
    StaticFileHandler.handleLines ⟨b!"/s", b!"/nowhere"⟩ b!"x" site b!"/s/a" false =
      [(.err, b!"Path error: base directory does not exist or is not a directory: /nowhere"),
       (.warn, b!"invalid file path requested: /s/a")] := by
  refine ⟨?_, ?_, ?_, ?_, ?_, ?_, ?_⟩ <;> decide +kernel

end Props
end Ion
