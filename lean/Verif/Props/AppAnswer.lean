import Verif.Props.AppFetch
import Verif.Props.StaticAll

/-! # C138: what each request is answered with -/

namespace Ion
namespace Props

open FS FileReader StaticFileHandler Files

/-- What of a target below the prefix `pfx` names the file: what follows the prefix and perhaps one '/', up to the
query. Nothing, or '/', stands for `index.html`. -/
inductive RestOf (pfx : Bytes) : Bytes → Bytes → Prop
  | index (tail : Bytes) : tail = [] ∨ tail = b!"/" → RestOf pfx (pfx ++ tail) b!"index.html"
  | given (slash rest query : Bytes) : slash = b!"/" ∨ slash = [] ∧ rest.head? ≠ some 0x2f → (0x3f : UInt8) ∉ rest →
      (query = [] ∨ ∃ q, query = 0x3f :: q) → slash ++ rest ++ query ≠ [] → slash ++ rest ++ query ≠ b!"/" →
      RestOf pfx (pfx ++ (slash ++ rest ++ query)) rest

/-- The target leads, below the prefix, to the readable regular file with this content: the path it is opened as
(`OpensAs`; what the operating system finds under it, if that finds anything) lies in the directory `root`, and `name`
is that path. -/
def Found (fs : FS) (pfx root path content name : Bytes) : Prop :=
  ∃ rest base p q loc, RestOf pfx path rest ∧ fs.stat (parsePath root) = .ok base ∧ fs.look base = some .dir ∧
    StandsFor base rest p ∧ OpensAs fs p q ∧ base <+: q.comps ∧ fs.stat q = .ok loc ∧
    fs.look loc = some (.file content true) ∧ name = q.render

theorem upTo_query {rest query : Bytes} (h : (0x3f : UInt8) ∉ rest) (hq : query = [] ∨ ∃ q, query = 0x3f :: q) :
    (rest ++ query).takeWhile (· ≠ 0x3f) = rest := by
  induction rest with
  | nil => rcases hq with rfl | ⟨q, rfl⟩ <;> simp
  | cons x rest ih =>
    simp only [List.mem_cons, not_or] at h
    have := ih h.2
    simp only [List.cons_append, List.takeWhile_cons]
    rw [this]
    simp [Ne.symm h.1]

theorem RestOf.relative {pfx path rest : Bytes} (h : RestOf pfx path rest) (root : Bytes) :
    getRelativePath ⟨pfx, root⟩ path = rest := by
  cases h with
  | index tail ht =>
    rw [getRelativePath]
    simp only [List.drop_left]
    rcases ht with rfl | rfl <;> decide +kernel
  | given slash rest query hs hr hq h1 h2 =>
    rw [getRelativePath]
    simp only [List.drop_left]
    have hc : ¬ (decide (slash ++ rest ++ query = []) || decide (slash ++ rest ++ query = b!"/")) = true := by
      simp only [Bool.or_eq_true, decide_eq_true_eq, not_or]
      exact ⟨h1, h2⟩
    rw [if_neg hc]
    rcases hs with rfl | ⟨rfl, hs⟩
    · have : (b!"/" ++ rest ++ query).head? = some 0x2f := rfl
      rw [if_pos this]
      exact upTo_query hr hq
    · have : ([] ++ rest ++ query).head? ≠ some 0x2f := by
        cases rest with
        | nil => rcases hq with rfl | ⟨q, rfl⟩ <;> simp
        | cons x rest => simpa using hs
      rw [if_neg this]
      exact upTo_query hr hq

theorem split_query (l : Bytes) : ∃ rest query, l = rest ++ query ∧ (0x3f : UInt8) ∉ rest ∧
    (query = [] ∨ ∃ q, query = 0x3f :: q) := by
  induction l with
  | nil => exact ⟨[], [], rfl, by simp, .inl rfl⟩
  | cons x l ih =>
    by_cases hx : x = 0x3f
    · exact ⟨[], x :: l, rfl, by simp, .inr ⟨l, by rw [hx]⟩⟩
    · obtain ⟨rest, query, rfl, h1, h2⟩ := ih
      exact ⟨x :: rest, query, rfl, by simp [h1, Ne.symm hx], h2⟩

/-- Every target below the prefix names a file. -/
theorem restOf_prefix {pfx path : Bytes} (h : pfx <+: path) : ∃ rest, RestOf pfx path rest := by
  obtain ⟨tail, rfl⟩ := h
  by_cases h1 : tail = []
  · exact ⟨_, .index tail (.inl h1)⟩
  by_cases h2 : tail = b!"/"
  · exact ⟨_, .index tail (.inr h2)⟩
  by_cases h3 : ∃ l, tail = 0x2f :: l
  · obtain ⟨l, rfl⟩ := h3
    obtain ⟨rest, query, rfl, k1, k2⟩ := split_query l
    exact ⟨rest, .given b!"/" rest query (.inl rfl) k1 k2 h1 h2⟩
  · obtain ⟨rest, query, rfl, k1, k2⟩ := split_query tail
    refine ⟨rest, .given [] rest query (.inr ⟨rfl, ?_⟩) k1 k2 h1 h2⟩
    cases rest with
    | nil => simp
    | cons x rest => simpa using h3

theorem RestOf.prefix {pfx path rest : Bytes} (h : RestOf pfx path rest) : pfx <+: path := by
  cases h <;> exact List.prefix_append _ _

theorem standsFor_exists (base : List Name) (rest : Bytes) : ∃ p, StandsFor base rest p := by
  cases h : (parsePath rest).abs with
  | true => exact ⟨_, .absolute h⟩
  | false => exact ⟨_, .below h⟩

/-- What the handler of files answers with: the file the target leads to, or 403 or 404. -/
inductive FileAnswer (fs : FS) (pfx root path : Bytes) (head : Bool) : HttpResponse → Prop
  | get (content name : Bytes) : Found fs pfx root path content name → head = false →
      FileAnswer fs pfx root path head
        { status := 200, body := content, headers := [⟨b!"content-type", getMimeType name⟩] }
  | head (content name len : Bytes) : Found fs pfx root path content name → head = true →
      Spec.IsDecimal content.length len →
      FileAnswer fs pfx root path head
        { status := 200, headers := [⟨b!"content-length", len⟩, ⟨b!"content-type", getMimeType name⟩] }
  | none (status : UInt16) : (∀ content name, ¬ Found fs pfx root path content name) → status = 403 ∨ status = 404 →
      FileAnswer fs pfx root path head { status }

theorem handle_answer {fs : FS} (hwf : fs.WF) (pfx root path : Bytes) (head : Bool) (hpfx : pfx <+: path) :
    FileAnswer fs pfx root path head (StaticFileHandler.handle ⟨pfx, root⟩ fs path head) := by
  obtain ⟨rest, hrest⟩ := restOf_prefix hpfx
  by_cases hf : ∃ content name, Found fs pfx root path content name
  · obtain ⟨content, name, hf⟩ := hf
    obtain ⟨rest', base, p, q, loc, h1, h2, h3, h4, h5, h6, h7, h8, rfl⟩ := id hf
    obtain ⟨hs, ho⟩ := sanitize_opens hwf h2 h3 h4 h5 h6 h7 h8
    rw [handle]
    simp only [h1.relative root, hs]
    rw [fileResponse]
    simp only [isReadable_iff.mpr ⟨content, ho⟩, Bool.not_true, Bool.false_eq_true, if_false]
    cases head with
    | false =>
      simp only [getResponse, readFile_of ho, Bool.false_eq_true, if_false]
      exact .get content _ hf rfl
    | true =>
      simp only [headResponse, getFileSize_of ho, if_true]
      exact .head content _ _ hf rfl (Sim.decimal_spec _)
  · have hno : ∀ content name, ¬ Found fs pfx root path content name := fun c n h => hf ⟨c, n, h⟩
    have h200 : (StaticFileHandler.handle ⟨pfx, root⟩ fs path head).status ≠ 200 := by
      intro h200
      obtain ⟨s, c, hs, -⟩ := (C56_codes ⟨pfx, root⟩ fs path head).2.2.mp h200
      obtain ⟨base, full, h1, h2, -⟩ := sanitizePath_spec hwf hs
      rw [stat_absolute hwf _ (parsePath_trail _)] at h1
      obtain ⟨p, hp⟩ := standsFor_exists base (getRelativePath ⟨pfx, root⟩ path)
      obtain ⟨q, loc, c, k1, k2, k3, k4⟩ := (C134_exact hwf ⟨pfx, root⟩ path head h1 h2 hp).1.mp h200
      rw [hrest.relative] at hp
      exact hno _ _ ⟨rest, base, p, q, loc, hrest, h1, h2, hp, k1, k2, k3, k4, rfl⟩
    cases hs : sanitizePath fs root (getRelativePath ⟨pfx, root⟩ path) with
    | none => rw [(C56_status ⟨pfx, root⟩ fs path).1 hs head]; exact .none 403 hno (.inl rfl)
    | some s =>
      by_cases ho : ∃ c, Opens fs s c
      · obtain ⟨c, ho⟩ := ho
        exact absurd ((C56_codes ⟨pfx, root⟩ fs path head).2.2.mpr ⟨s, c, hs, ho⟩) h200
      · rw [((C56_status ⟨pfx, root⟩ fs path).2 s hs).1 (fun c hc => ho ⟨c, hc⟩) head]
        exact .none 404 hno (.inr rfl)

/-! ## The whole program -/

/-- The answer of the program without a page for 404, by what was asked for and how the program was started. -/
inductive Plain (page : Page) (a : Args) (w : World) (path method : Bytes) : HttpResponse → Prop
  | test (r : HttpResponse) : a.underTest = true → method = b!"GET" → TestAnswer w.noNewPrivs path r →
      Plain page a w path method r
  | status (uptime : Bytes) (total : UInt64) (time : Int) (codes : List (UInt16 × UInt64)) : a.statusPage = true →
      method = b!"GET" → path = b!"/_ion/status" →
      Plain page a w path method { status := 200, body := page uptime total time codes, headers :=
        [⟨b!"content-type", b!"text/html; charset=utf-8"⟩, ⟨b!"cache-control", b!"no-store"⟩] }
  | file (pfx root : Bytes) (r : HttpResponse) : (a.underTest = true → method = b!"GET" → path ∉ testPaths) →
      (a.statusPage = true → method = b!"GET" → path ≠ b!"/_ion/status") → a.staticMap = [pfx, root] →
      method = b!"GET" ∨ method = b!"HEAD" → pfx <+: path →
      FileAnswer w.fs pfx root path (decide (method = b!"HEAD")) r → Plain page a w path method r
  | none : (a.underTest = true → method = b!"GET" → path ∉ testPaths) →
      (a.statusPage = true → method = b!"GET" → path ≠ b!"/_ion/status") →
      (∀ pfx root, a.staticMap = [pfx, root] → pfx <+: path → method ≠ b!"GET" ∧ method ≠ b!"HEAD") →
      Plain page a w path method { status := 404 }

/-- The answer of the program: 404 is given the content of the configured page, if that can be read, and nothing
else if not. -/
inductive Prescribed (page : Page) (a : Args) (w : World) (path method : Bytes) : HttpResponse → Prop
  | plain (r : HttpResponse) : Plain page a w path method r → r.status ≠ 404 ∨ a.status404FilePath = [] →
      Prescribed page a w path method r
  | page (r : HttpResponse) (content : Bytes) : Plain page a w path method r → r.status = 404 →
      a.status404FilePath ≠ [] → Opens w.fs a.status404FilePath content →
      Prescribed page a w path method
        { status := 404, body := content, headers := [⟨b!"content-type", getMimeType a.status404FilePath⟩] }
  | noPage (r : HttpResponse) : Plain page a w path method r → r.status = 404 → a.status404FilePath ≠ [] →
      (∀ content, ¬ Opens w.fs a.status404FilePath content) → Prescribed page a w path method { status := 404 }

theorem target_plain (page : Page) (a : Args) (path method : Bytes) (req : HttpRequest) (w w0 : World)
    (hfs : w.fs = w0.fs) (hp : w.noNewPrivs = w0.noNewPrivs) (hwf : w0.fs.WF) :
    ∃ r w', appTarget page a path method req w = (.resp r, w') ∧ w'.fs = w0.fs ∧ Plain page a w0 path method r := by
  obtain ⟨h1, h2, h3⟩ := target_routes page a path method
  by_cases ht : a.underTest = true ∧ method = b!"GET" ∧ path ∈ testPaths
  · obtain ⟨r, k1, k2⟩ := h1 ht req w
    exact ⟨r, w, k1, hfs, .test r ht.1 ht.2.1 (hp ▸ k2)⟩
  by_cases hs : a.statusPage = true ∧ method = b!"GET" ∧ path = b!"/_ion/status"
  · rw [h2 hs]
    exact ⟨_, _, rfl, hfs, .status _ _ _ _ hs.1 hs.2.1 hs.2.2⟩
  have ht' : a.underTest = true → method = b!"GET" → path ∉ testPaths := fun x y z => ht ⟨x, y, z⟩
  have hs' : a.statusPage = true → method = b!"GET" → path ≠ b!"/_ion/status" := fun x y z => hs ⟨x, y, z⟩
  rcases h3 ht hs with ⟨pfx, root, k1, k2, k3, k4⟩ | ⟨k1, k2⟩
  · rw [k4]
    refine ⟨_, w, rfl, hfs, .file pfx root _ ht' hs' k1 k3 k2 ?_⟩
    rw [hfs]
    exact handle_answer hwf pfx root path _ k2
  · rw [k2]
    exact ⟨_, w, rfl, hfs, .none ht' hs' fun pfx root e hx =>
      ⟨fun hm => k1 ⟨pfx, root, e, hx, .inl hm⟩, fun hm => k1 ⟨pfx, root, e, hx, .inr hm⟩⟩⟩

theorem page_prescribed (page : Page) (a : Args) (path method : Bytes) (req : HttpRequest) (w w0 : World)
    (hfs : w.fs = w0.fs) (hp : w.noNewPrivs = w0.noNewPrivs) (hwf : w0.fs.WF)
    (h404 : a.status404FilePath ≠ []) :
    ∃ r w', custom404 a.status404FilePath (appTarget page a path method) req w = (.resp r, w') ∧ w'.fs = w0.fs ∧
      Prescribed page a w0 path method r := by
  obtain ⟨r, w', h1, h2, h3⟩ := target_plain page a path method req w w0 hfs hp hwf
  obtain ⟨k1, k2, k3, -⟩ := C52_any a.status404FilePath (appTarget page a path method) req w w'
  by_cases hr : r.status = 404
  · by_cases ho : ∃ c, Opens w'.fs a.status404FilePath c
    · obtain ⟨c, ho⟩ := ho
      exact ⟨_, w', k2 r h1 hr c ho, h2, .page r c h3 hr h404 (h2 ▸ ho)⟩
    · exact ⟨_, w', k3 r h1 hr (fun c hc => ho ⟨c, hc⟩), h2, .noPage r h3 hr h404 (fun c hc => ho ⟨c, h2 ▸ hc⟩)⟩
  · exact ⟨r, w', k1 r h1 hr, h2, .plain r h3 (.inl hr)⟩

/-- C138: the program's answer to any request, whatever it has done before, is the one its arguments and the files
prescribe. -/
theorem C138_answer (page : Page) (a : Args) (path method : Bytes) (req : HttpRequest) (w : World) (hwf : w.fs.WF) :
    ∃ r w', a.getHandler page path method req w = (.resp r, w') ∧ w'.fs = w.fs ∧ Prescribed page a w path method r := by
  have inner : ∀ w1 : World, w1.fs = w.fs → w1.noNewPrivs = w.noNewPrivs →
      ∃ r w', wrapped (if a.status404FilePath = [] then [] else [custom404 a.status404FilePath])
        (appTarget page a path method) req w1 = (.resp r, w') ∧ w'.fs = w.fs ∧ Prescribed page a w path method r := by
    intro w1 h1 h2
    by_cases h404 : a.status404FilePath = []
    · obtain ⟨r, w', k1, k2, k3⟩ := target_plain page a path method req w1 w h1 h2 hwf
      exact ⟨r, w', by simpa [h404, wrapped] using k1, k2, .plain r k3 (.inr h404)⟩
    · obtain ⟨r, w', k1, k2, k3⟩ := page_prescribed page a path method req w1 w h1 h2 hwf h404
      exact ⟨r, w', by simpa [h404, wrapped] using k1, k2, k3⟩
  rw [getHandler_app]
  unfold appMiddlewares
  by_cases h1 : a.statusPage = true
  · obtain ⟨r, w', k1, k2, k3⟩ := inner { w with
      stats := { w.stats with total := w.stats.total + 1 }, tick := w.tick + 1 } rfl rfl
    have : ∃ w'', statsMiddleware (wrapped (if a.status404FilePath = [] then [] else
        [custom404 a.status404FilePath]) (appTarget page a path method)) req w = (.resp r, w'') ∧ w''.fs = w.fs := by
      simp only [statsMiddleware, World.now]
      rw [k1]
      exact ⟨_, rfl, k2⟩
    obtain ⟨w'', g1, g2⟩ := this
    refine ⟨r, w'', ?_, g2, k3⟩
    by_cases h404 : a.status404FilePath = [] <;> simpa [h1, h404, wrapped] using g1
  · obtain ⟨r, w', k1, k2, k3⟩ := inner w rfl rfl
    refine ⟨r, w', ?_, k2, k3⟩
    by_cases h404 : a.status404FilePath = [] <;> simpa [h1, h404, wrapped] using k1

/-- C138, targets without '..': `Found` is what the operating system finds under the target, in the directory. -/
theorem C138_found {fs : FS} (hwf : fs.WF) (pfx root path content : Bytes)
    (hup : ∀ rest, RestOf pfx path rest → b!".." ∉ (parsePath rest).comps) :
    (∃ name, Found fs pfx root path content name) ↔
    ∃ rest base p loc, RestOf pfx path rest ∧ fs.stat (parsePath root) = .ok base ∧ fs.look base = some .dir ∧
      StandsFor base rest p ∧ fs.stat p = .ok loc ∧ base <+: loc ∧ fs.look loc = some (.file content true) := by
  constructor
  · rintro ⟨name, rest, base, p, q, loc, h1, h2, h3, h4, h5, h6, h7, h8, -⟩
    obtain ⟨k1, k2⟩ := (OpensAs.plain hwf h3 h4 (hup _ h1) loc).mp ⟨q, h5, h6, h7⟩
    exact ⟨rest, base, p, loc, h1, h2, h3, h4, k1, k2, h8⟩
  · rintro ⟨rest, base, p, loc, h1, h2, h3, h4, h5, h6, h7⟩
    obtain ⟨q, k1, k2, k3⟩ := (OpensAs.plain hwf h3 h4 (hup _ h1) loc).mpr ⟨h5, h6⟩
    exact ⟨_, rest, base, p, q, loc, h1, h2, h3, h4, k1, k2, k3, h7, rfl⟩

/-- The program's handlers do not change whether the process runs without new privileges. -/
theorem privs_app (page : Page) (a : Args) (path method : Bytes) (req : HttpRequest) (w : World) :
    (a.getHandler page path method req w).2.noNewPrivs = w.noNewPrivs := by
  have ht : ∀ w1 : World, (appTarget page a path method req w1).2.noNewPrivs = w1.noNewPrivs := by
    intro w1
    rcases target_cases page a path method with ⟨h, h1, _, h3⟩ | ⟨_, _, _, h⟩ | ⟨s, root, _, _, _, h⟩ | ⟨_, h⟩
    · rw [h3]
      simp only [testOps, List.mem_cons, Op.route.injEq, List.not_mem_nil, or_false] at h1
      rcases h1 with ⟨-, -, rfl⟩ | ⟨-, -, rfl⟩ | ⟨-, -, rfl⟩ | ⟨-, -, rfl⟩ | ⟨-, -, rfl⟩ <;> rfl
    · rw [h]; rfl
    · rw [h]
    · rw [h]
  have hc : ∀ w1 : World, (custom404 a.status404FilePath (appTarget page a path method) req w1).2.noNewPrivs =
      w1.noNewPrivs := by
    intro w1
    rw [custom404]
    have := ht w1
    generalize appTarget page a path method req w1 = x at this
    obtain ⟨o, w2⟩ := x
    cases o with
    | resp r => simp only; split <;> exact this
    | stdExn => exact this
    | otherExn => exact this
  have hs : ∀ h : Handler World, (∀ w1 : World, (h req w1).2.noNewPrivs = w1.noNewPrivs) →
      (statsMiddleware h req w).2.noNewPrivs = w.noNewPrivs := by
    intro h hh
    have := hh { w with stats := { w.stats with total := w.stats.total + 1 }, tick := w.tick + 1 }
    simp only [statsMiddleware, World.now]
    generalize h req { w with stats := { w.stats with total := w.stats.total + 1 }, tick := w.tick + 1 } = x at this
    obtain ⟨o, w2⟩ := x
    cases o <;> exact this
  rw [getHandler_app]
  unfold appMiddlewares
  by_cases h1 : a.statusPage = true <;> by_cases h2 : a.status404FilePath = []
  · simpa [h1, h2, wrapped] using hs _ ht
  · simpa [h1, h2, wrapped] using hs _ hc
  · simpa [h1, h2, wrapped] using ht w
  · simpa [h1, h2, wrapped] using hc w

theorem Plain.world {page : Page} {a : Args} {w w0 : World} (hfs : w.fs = w0.fs)
    (hp : w.noNewPrivs = w0.noNewPrivs) {path method : Bytes} {r : HttpResponse} (h : Plain page a w path method r) :
    Plain page a w0 path method r := by
  cases h with
  | test r h1 h2 h3 => exact .test r h1 h2 (hp ▸ h3)
  | status uptime total time codes h1 h2 h3 => exact .status _ _ _ _ h1 h2 h3
  | file pfx root r h1 h2 h3 h4 h5 h6 => exact .file pfx root r h1 h2 h3 h4 h5 (hfs ▸ h6)
  | none h1 h2 h3 => exact .none h1 h2 h3

theorem Prescribed.world {page : Page} {a : Args} {w w0 : World} (hfs : w.fs = w0.fs)
    (hp : w.noNewPrivs = w0.noNewPrivs) {path method : Bytes} {r : HttpResponse}
    (h : Prescribed page a w path method r) : Prescribed page a w0 path method r := by
  cases h with
  | plain r h1 h2 => exact .plain r (h1.world hfs hp) h2
  | page r c h1 h2 h3 h4 => exact .page r c (h1.world hfs hp) h2 h3 (hfs ▸ h4)
  | noPage r h1 h2 h3 h4 => exact .noPage r (h1.world hfs hp) h2 h3 (hfs ▸ h4)

end Props

open Spec Props Sim

/-- C138, over a connection: `fs` are the frames of a client, `answers` what it reads as the answers (C131). The
answer to the request of the HEADERS frame `f` stands in the place of the request and is the prescribed one. -/
theorem C138_client (page : Page) (a : Args) (sgn : Bool) {w0 : World} {fs : List Frame}
    {calls : List (HttpRequest × HOut)} {answers : List (Nat × List Header × Bytes)} {T : Table}
    (h : Answered (progCfg page a sgn) w0 fs calls answers T) {ins more : List Frame} {f : Frame}
    (e : fs = ins ++ f :: more) {T0 T1 : Table} (hT : Readable ins T0) (ht : f.type = 1) {block : Bytes}
    {fields : List Header} (hb : FieldBlock f block) (hr : ReadsAs T0 block fields T1) {path method : Bytes}
    (hp : FirstField fields b!":path" path) (hm : FirstField fields b!":method" method) (hwf : w0.fs.WF) :
    ∃ before after out r, answers = before ++ (f.stream, out, r.body) :: after ∧ before.length = requests ins ∧
      ResponseFields r out ∧ Prescribed page a w0 path method r := by
  obtain ⟨before, after, out, r, o, w, w', k1, k2, k3, k4, k5, k6⟩ := answered_at h e hT ht hb hr hp hm
  have hfs := worldFrom_fs k3
  have hpriv : w.noNewPrivs = w0.noNewPrivs := by
    clear k4
    induction k3 with
    | start => rfl
    | call w path method req h ih => exact (privs_app page a path method req w).trans (ih (worldFrom_fs h))
  obtain ⟨r', w1, g1, -, g3⟩ := C138_answer page a path method ⟨method, path, fields⟩ w (hfs ▸ hwf)
  have h4 : (o, w') = (HOut.resp r', w1) := k4.symm.trans g1
  cases h4
  rcases k5 with k5 | ⟨k5, -⟩
  · cases k5
    exact ⟨before, after, out, _, k1, k2, k6, g3.world hfs hpriv⟩
  · cases k5

/-! ### Examples -/

/-- `/static/home?x` leads, through a link, to a file. -/
theorem exFound : Found Files.site b!"/static" b!"/srv/www" b!"/static/home?x" b!"hello" b!"/srv/www/index.html" :=
  ⟨b!"home", [b!"srv", b!"www"], _, ⟨true, [b!"srv", b!"www", b!"index.html"], false⟩, [b!"srv", b!"www", b!"index.html"],
    .given b!"/" b!"home" b!"?x" (.inl rfl) (by decide) (.inr ⟨_, rfl⟩) (by decide) (by decide), by decide +kernel,
    by decide +kernel, .below (by decide +kernel), .found (by decide +kernel), by decide, by decide +kernel,
    by decide +kernel, by decide +kernel⟩

/-- HEAD for that target gets the length and the type of the file. -/
example : ∃ r w', exArgs.getHandler exPage b!"/static/home?x" b!"HEAD" ⟨b!"HEAD", b!"/static/home?x", []⟩ exWorld =
      (.resp r, w') ∧ Prescribed exPage exArgs exWorld b!"/static/home?x" b!"HEAD" r ∧
      r = { status := 200, headers :=
        [⟨b!"content-length", b!"5"⟩, ⟨b!"content-type", b!"text/html; charset=utf-8"⟩] } := by
  obtain ⟨r, w', h1, -, h3⟩ := C138_answer exPage exArgs b!"/static/home?x" b!"HEAD"
    ⟨b!"HEAD", b!"/static/home?x", []⟩ exWorld Files.site_wf
  have h2 : respOf (exArgs.getHandler exPage b!"/static/home?x" b!"HEAD" ⟨b!"HEAD", b!"/static/home?x", []⟩ exWorld) =
      some { status := 200, headers :=
        [⟨b!"content-length", b!"5"⟩, ⟨b!"content-type", b!"text/html; charset=utf-8"⟩] } := by decide +kernel
  rw [h1] at h2
  exact ⟨r, w', h1, h3, Option.some.inj h2⟩

/-- POST to the same target gets the page for 404. -/
example : Prescribed exPage exArgs exWorld b!"/static/home?x" b!"POST"
    { status := 404, body := b!"hello", headers := [⟨b!"content-type", FileReader.getMimeType b!"/srv/www/index.html"⟩] } :=
  .page { status := 404 } _ (.none (by decide) (by decide)
      (fun _ _ _ _ => by decide)) rfl (by decide)
    ⟨[b!"srv", b!"www", b!"index.html"], by decide +kernel, by decide +kernel⟩

/-- What is prescribed for the target of a file is not 404. -/
example (r : HttpResponse) (h : Prescribed exPage exArgs exWorld b!"/static/home?x" b!"GET" r) : r.status = 200 := by
  have key : ∀ r, Plain exPage exArgs exWorld b!"/static/home?x" b!"GET" r → r.status = 200 := by
    intro r h
    cases h with
    | test r h1 h2 h3 =>
      obtain ⟨-, ⟨h, -⟩ | ⟨h, -⟩ | ⟨h, -⟩ | ⟨h, -⟩ | ⟨h, -⟩⟩ := h3 <;> exact absurd h (by decide)
    | status _ _ _ _ h1 h2 h3 => rfl
    | file pfx root r h1 h2 h3 h4 h5 h6 =>
      cases h3
      cases h6 with
      | get content name _ _ => rfl
      | head content name len _ h _ => rfl
      | none status hn _ => exact absurd exFound (hn _ _)
    | none h1 h2 h3 => exact absurd rfl (h3 b!"/static" b!"/srv/www" rfl ⟨b!"/home?x", rfl⟩).1
  cases h with
  | plain r h _ => exact key r h
  | page r c h h1 _ _ => exact absurd (h1.symm.trans (key r h)) (by decide)
  | noPage r h h1 _ _ => exact absurd (h1.symm.trans (key r h)) (by decide)

end Ion
