import Verif.Model.App
import Verif.Model.Signals
import Verif.Props.Router
import Verif.Props.StaticFiles
import Verif.Props.ConnAnswer

/-! # The application (C52, C68-C72, C76, C77) -/

namespace Ion
namespace Props

open FileReader StaticFileHandler

/-! ## The application's registrations -/

/-- What `run_server` registers. -/
def testOps : List (Op World) :=
  [.route b!"/_tests/ok" b!"GET" (constant { status := 200 }),
   .route b!"/_tests/no_content" b!"GET" (constant { status := 204 }),
   .route b!"/_tests/no_new_privs" b!"GET" (fun _ w => (.resp { status := if w.noNewPrivs then 200 else 500 }, w)),
   .route b!"/_tests/medium_body" b!"GET" (constant { status := 200, body := List.replicate (128 * 1024) 0x41 }),
   .route b!"/_tests/large_body" b!"GET" (constant { status := 200, body := List.replicate (2 * 1024 * 1024) 0x41 })]

def statusOps (page : Page) : List (Op World) :=
  [.middleware statsMiddleware, .route b!"/_ion/status" b!"GET" (statusHandler page)]

def staticOps : List Bytes → List (Op World)
  | [urlPrefix, root] => [.static ⟨urlPrefix, root⟩]
  | _ => []

def appOps (page : Page) (a : Args) : List (Op World) :=
  (if a.underTest then testOps else []) ++ (if a.statusPage then statusOps page else []) ++
  staticOps a.staticMap ++ (if a.status404FilePath ≠ [] then [.middleware (custom404 a.status404FilePath)] else [])

theorem router_eq (page : Page) (a : Args) : a.router page = build (appOps page a) := by
  have h1 : ∀ r : Router World, addTestRoutes r = testOps.foldl Op.apply r := fun r => rfl
  have h2 : ∀ r : Router World, addStatusPage page r = (statusOps page).foldl Op.apply r := fun r => rfl
  rw [Args.router, build, appOps, List.foldl_append, List.foldl_append, List.foldl_append]
  have e1 : (if a.underTest then addTestRoutes {} else ({} : Router World)) =
      (if a.underTest then testOps else []).foldl Op.apply {} := by
    split
    · exact h1 _
    · rfl
  show _ = _
  rw [e1]
  generalize (if a.underTest then testOps else []).foldl Op.apply ({} : Router World) = r
  have e2 : (if a.statusPage then addStatusPage page r else r) =
      (if a.statusPage then statusOps page else []).foldl Op.apply r := by
    split
    · exact h2 _
    · rfl
  rw [e2]
  generalize (if a.statusPage then statusOps page else []).foldl Op.apply r = r
  rcases a.staticMap with _ | ⟨x, _ | ⟨y, _ | ⟨z, l⟩⟩⟩ <;>
    by_cases h : a.status404FilePath = [] <;> simp [staticOps, h, Op.apply]

/-- The middleware of the application. -/
def appMiddlewares (a : Args) : List (Middleware World) :=
  (if a.statusPage then [statsMiddleware] else []) ++
  (if a.status404FilePath ≠ [] then [custom404 a.status404FilePath] else [])

theorem middlewares_append {W : Type} (x y : List (Op W)) : middlewares (x ++ y) = middlewares x ++ middlewares y := by
  induction x with
  | nil => rfl
  | cons o ops ih => cases o <;> simp [middlewares, ih]

theorem middlewares_app (page : Page) (a : Args) : middlewares (appOps page a) = appMiddlewares a := by
  simp only [appOps, middlewares_append, appMiddlewares]
  have h1 : middlewares (if a.underTest then testOps else []) = [] := by split <;> rfl
  have h2 : middlewares (if a.statusPage then statusOps page else []) =
      if a.statusPage then [statsMiddleware] else [] := by split <;> rfl
  have h3 : middlewares (staticOps a.staticMap) = [] := by
    unfold staticOps; split <;> rfl
  have h4 : middlewares (if a.status404FilePath ≠ [] then [Op.middleware (custom404 a.status404FilePath)] else []) =
      if a.status404FilePath ≠ [] then [custom404 a.status404FilePath] else [] := by split <;> rfl
  rw [h1, h2, h3, h4]; simp

/-- What is called inside the middleware; it does not depend on the 404 page. -/
def appTarget (page : Page) (a : Args) (path method : Bytes) : Handler World :=
  match Router.findRoute path method (opRoutes (appOps page a)) with
  | some h => h
  | none =>
    if method = b!"GET" ∨ method = b!"HEAD" then
      Router.pickStatic World.fs path method (opStatics (appOps page a)) Router.defaultHandler
    else Router.defaultHandler

theorem getHandler_app (page : Page) (a : Args) (path method : Bytes) :
    a.getHandler page path method = wrapped (appMiddlewares a) (appTarget page a path method) := by
  obtain ⟨h1, h2, h3⟩ := build_fields (appOps page a)
  rw [Args.getHandler, router_eq, Router.getHandler, h3, h1, h2, middlewares_app, appTarget]
  cases Router.findRoute path method (opRoutes (appOps page a)) <;> rfl

theorem appTarget_404 (page : Page) (a : Args) (f : Bytes) (path method : Bytes) :
    appTarget page { a with status404FilePath := f } path method = appTarget page a path method := by
  have h1 : ∀ f, opRoutes (appOps page { a with status404FilePath := f }) =
      opRoutes ((if a.underTest then testOps else []) ++ (if a.statusPage then statusOps page else []) ++
        staticOps a.staticMap) := by
    intro f
    simp only [appOps]
    rw [opRoutes_append _ (if f ≠ [] then [Op.middleware (custom404 f)] else [])]
    have : opRoutes (if f ≠ [] then [Op.middleware (custom404 f)] else []) = [] := by
      by_cases h : f = [] <;> simp [h, opRoutes]
    rw [this, List.append_nil]
  have h2 : ∀ f, opStatics (appOps page { a with status404FilePath := f }) =
      opStatics ((if a.underTest then testOps else []) ++ (if a.statusPage then statusOps page else []) ++
        staticOps a.staticMap) := by
    intro f
    simp only [appOps]
    rw [opStatics_append _ (if f ≠ [] then [Op.middleware (custom404 f)] else [])]
    have : opStatics (if f ≠ [] then [Op.middleware (custom404 f)] else []) = [] := by
      by_cases h : f = [] <;> simp [h, opStatics]
    rw [this, List.append_nil]
  have h3 := h1 a.status404FilePath
  have h4 := h2 a.status404FilePath
  rw [appTarget, appTarget, h1 f, h2 f]
  rw [← h3, ← h4]

/-- The handlers of the application return a response and leave the files alone. -/
def Tidy (h : Handler World) : Prop := ∀ req w, ∃ r w', h req w = (.resp r, w') ∧ w'.fs = w.fs

theorem target_cases (page : Page) (a : Args) (path method : Bytes) :
    (∃ h, Op.route path method h ∈ testOps ∧ a.underTest = true ∧ appTarget page a path method = h) ∨
    (path = b!"/_ion/status" ∧ method = b!"GET" ∧ a.statusPage = true ∧
      appTarget page a path method = statusHandler page) ∨
    ((∃ s root, a.staticMap = [s, root] ∧ s <+: path ∧ (method = b!"GET" ∨ method = b!"HEAD") ∧
      appTarget page a path method =
        fun _ w => (.resp (StaticFileHandler.handle ⟨s, root⟩ w.fs path (decide (method = b!"HEAD"))), w)) ∨
    (¬(∃ s root, a.staticMap = [s, root] ∧ s <+: path ∧ (method = b!"GET" ∨ method = b!"HEAD")) ∧
      appTarget page a path method = fun _ w => (.resp { status := 404 }, w))) := by
  have hr : ∀ h, Op.route path method h ∈ appOps page a →
      (Op.route path method h ∈ testOps ∧ a.underTest = true) ∨
      (path = b!"/_ion/status" ∧ method = b!"GET" ∧ a.statusPage = true ∧ h = statusHandler page) := by
    intro h hm
    simp only [appOps, List.mem_append] at hm
    rcases hm with ((hm | hm) | hm) | hm
    · split at hm
      · exact Or.inl ⟨hm, by assumption⟩
      · simp at hm
    · split at hm
      · simp [statusOps] at hm
        exact Or.inr ⟨hm.1, hm.2.1, by assumption, hm.2.2⟩
      · simp at hm
    · unfold staticOps at hm; split at hm <;> simp at hm
    · split at hm <;> simp at hm
  have hroute : ∀ h, Router.findRoute path method (opRoutes (appOps page a)) = some h →
      Op.route path method h ∈ appOps page a := by
    intro h
    generalize appOps page a = ops
    induction ops with
    | nil => intro h; simp [opRoutes, Router.findRoute] at h
    | cons o ops ih =>
      intro hf
      cases o with
      | route p m h0 =>
        rw [opRoutes, Router.findRoute] at hf
        split at hf
        · rename_i hpm
          simp only at hpm
          obtain ⟨rfl, rfl⟩ := hpm
          cases hf
          simp
        · exact List.mem_cons_of_mem _ (ih hf)
      | static s => exact List.mem_cons_of_mem _ (ih hf)
      | middleware mw => exact List.mem_cons_of_mem _ (ih hf)
  rw [appTarget]
  cases hf : Router.findRoute path method (opRoutes (appOps page a)) with
  | some h =>
    simp only
    rcases hr h (hroute h hf) with ⟨h1, h2⟩ | ⟨h1, h2, h3, rfl⟩
    · exact Or.inl ⟨h, h1, h2, rfl⟩
    · exact Or.inr (Or.inl ⟨h1, h2, h3, rfl⟩)
  | none =>
    simp only
    have hs : opStatics (appOps page a) = match a.staticMap with
        | [s, root] => [⟨s, root⟩]
        | _ => [] := by
      simp only [appOps, opStatics_append]
      have h1 : opStatics (if a.underTest then testOps else []) = [] := by split <;> rfl
      have h2 : opStatics (if a.statusPage then statusOps page else []) = [] := by split <;> rfl
      have h4 : opStatics (if a.status404FilePath ≠ [] then
        [Op.middleware (custom404 a.status404FilePath)] else []) = [] := by split <;> rfl
      rw [h1, h2, h4]
      unfold staticOps
      split <;> simp [opStatics]
    rw [hs]
    right; right
    split
    · rename_i hm
      split
      · rename_i s root hmap
        rw [Router.pickStatic, Router.pickStatic]
        split
        · rename_i hmt
          exact Or.inl ⟨s, root, hmap, (matches_iff _ _).mp hmt, hm, rfl⟩
        · rename_i hmt
          refine Or.inr ⟨?_, rfl⟩
          rintro ⟨s', root', h1, h2, -⟩
          rw [hmap] at h1
          cases h1
          exact hmt ((matches_iff _ _).mpr h2)
      · rename_i hmap
        exact Or.inr ⟨fun ⟨s', root', h1, _⟩ => hmap _ _ h1, rfl⟩
    · rename_i hm
      exact Or.inr ⟨fun ⟨_, _, _, _, h⟩ => hm h, rfl⟩

theorem tidy_target (page : Page) (a : Args) (path method : Bytes) : Tidy (appTarget page a path method) := by
  intro req w
  rcases target_cases page a path method with ⟨h, h1, _, h3⟩ | ⟨_, _, _, h⟩ | ⟨s, root, _, _, _, h⟩ | ⟨_, h⟩
  · rw [h3]
    simp only [testOps, List.mem_cons, Op.route.injEq, List.not_mem_nil, or_false] at h1
    rcases h1 with ⟨-, -, rfl⟩ | ⟨-, -, rfl⟩ | ⟨-, -, rfl⟩ | ⟨-, -, rfl⟩ | ⟨-, -, rfl⟩ <;>
      exact ⟨_, _, rfl, rfl⟩
  · rw [h]; exact ⟨_, _, rfl, rfl⟩
  · rw [h]; exact ⟨_, _, rfl, rfl⟩
  · rw [h]; exact ⟨_, _, rfl, rfl⟩

theorem tidy_custom404 (f : Bytes) {h : Handler World} (ht : Tidy h) : Tidy (custom404 f h) := by
  intro req w
  obtain ⟨r, w', h1, h2⟩ := ht req w
  rw [custom404, h1]
  simp only
  split
  · exact ⟨_, w', rfl, h2⟩
  · exact ⟨_, w', rfl, h2⟩

theorem stats_through {h : Handler World} (ht : Tidy h) (req : HttpRequest) (w : World) :
    ∃ w1 r w2 w3, w1.fs = w.fs ∧ h req w1 = (.resp r, w2) ∧ statsMiddleware h req w = (.resp r, w3) ∧
      w3.fs = w.fs := by
  obtain ⟨r, w', h1, h2⟩ := ht req { w with
    stats := { w.stats with total := w.stats.total + 1 }, tick := w.tick + 1 }
  have h3 : ∃ w3, statsMiddleware h req w = (.resp r, w3) ∧ w3.fs = w'.fs := by
    simp only [statsMiddleware, World.now]
    rw [h1]
    exact ⟨_, rfl, rfl⟩
  obtain ⟨w3, h3, h4⟩ := h3
  exact ⟨{ w with stats := { w.stats with total := w.stats.total + 1 }, tick := w.tick + 1 }, r, w', w3, rfl, h1, h3,
    h4.trans h2⟩

/-! ## C52: custom 404 page -/

/-- C52 for any handler: an answer other than 404 passes unchanged; 404 stays 404, and its content is
the configured file's if that can be read, empty otherwise; exceptions pass through. -/
theorem C52_any (f : Bytes) (next : Handler World) (req : HttpRequest) (w w' : World) :
    (∀ r, next req w = (.resp r, w') → r.status ≠ 404 → custom404 f next req w = (.resp r, w')) ∧
    (∀ r, next req w = (.resp r, w') → r.status = 404 → ∀ c, Opens w'.fs f c →
      custom404 f next req w =
        (.resp { status := 404, body := c, headers := [⟨b!"content-type", getMimeType f⟩] }, w')) ∧
    (∀ r, next req w = (.resp r, w') → r.status = 404 → (∀ c, ¬ Opens w'.fs f c) →
      custom404 f next req w = (.resp { status := 404 }, w')) ∧
    (∀ e, (∀ r, e ≠ .resp r) → next req w = (e, w') → custom404 f next req w = (e, w')) := by
  refine ⟨?_, ?_, ?_, ?_⟩
  · intro r h hs
    rw [custom404, h]
    simp only [hs, if_false]
  · intro r h hs c hc
    rw [custom404, h]
    simp only [hs, if_true, fileResponse, isReadable_iff.mpr ⟨c, hc⟩, Bool.not_true, Bool.false_eq_true,
      if_false, getResponse, readFile_of hc]
  · intro r h hs hno
    have : isReadable w'.fs f = false := by
      cases hr : isReadable w'.fs f with
      | false => rfl
      | true => obtain ⟨c, hc⟩ := isReadable_iff.mp hr; exact absurd hc (hno c)
    rw [custom404, h]
    simp only [hs, if_true, fileResponse, this, Bool.not_false]
  · intro e he h
    rw [custom404, h]
    cases e with
    | resp r => exact absurd rfl (he r)
    | stdExn => rfl
    | otherExn => rfl

/-- The response of a handler that returns one. -/
def respOf (o : HOut × World) : Option HttpResponse :=
  match o.1 with
  | .resp r => some r
  | _ => none

/-- C52 for the application: compared with the same application without the option, every request gets
the same response unless that is a 404; then it gets a 404 with the file's content. -/
theorem C52_app (page : Page) (a : Args) (f : Bytes) (hf : f ≠ []) (path method : Bytes) (req : HttpRequest)
    (w : World) : ∃ r r',
      respOf ({ a with status404FilePath := [] }.getHandler page path method req w) = some r ∧
      respOf ({ a with status404FilePath := f }.getHandler page path method req w) = some r' ∧
      (r.status ≠ 404 → r' = r) ∧
      (r.status = 404 → r'.status = 404 ∧ (∀ c, Opens w.fs f c → r'.body = c)) := by
  rw [getHandler_app, getHandler_app, appTarget_404 page a [], appTarget_404 page a f]
  have ht := tidy_target page a path method
  generalize appTarget page a path method = t at ht
  simp only [appMiddlewares, ne_eq, not_true_eq_false, if_false, List.append_nil, hf, not_false_eq_true, if_true]
  have key : ∀ w1 : World, w1.fs = w.fs → ∃ r r' w2, t req w1 = (.resp r, w2) ∧ custom404 f t req w1 = (.resp r', w2) ∧
      (r.status ≠ 404 → r' = r) ∧ (r.status = 404 → r'.status = 404 ∧ ∀ c, Opens w.fs f c → r'.body = c) := by
    intro w1 h1
    obtain ⟨r, w2, h2, h3⟩ := ht req w1
    obtain ⟨k1, k2, k3, _⟩ := C52_any f t req w1 w2
    by_cases hs : r.status = 404
    · by_cases ho : ∃ c, Opens w2.fs f c
      · obtain ⟨c, hc⟩ := ho
        refine ⟨r, _, w2, h2, k2 r h2 hs c hc, fun h => absurd hs h, fun _ => ⟨rfl, ?_⟩⟩
        intro c' hc'
        rw [← h1, ← h3] at hc'
        exact hc.unique hc'
      · refine ⟨r, _, w2, h2, k3 r h2 hs (fun c hc => ho ⟨c, hc⟩), fun h => absurd hs h, fun _ => ⟨rfl, ?_⟩⟩
        intro c' hc'
        rw [← h1, ← h3] at hc'
        exact absurd ⟨c', hc'⟩ ho
    · exact ⟨r, r, w2, h2, k1 r h2 hs, fun _ => rfl, fun h => absurd h hs⟩
  by_cases hp : a.statusPage = true
  · simp only [hp, if_true, List.cons_append, List.nil_append, wrapped]
    obtain ⟨r, r', w2, h1, h2, h3⟩ := key { w with
      stats := { w.stats with total := w.stats.total + 1 }, tick := w.tick + 1 } rfl
    refine ⟨r, r', ?_, ?_, h3⟩
    · simp only [statsMiddleware, World.now, h1, respOf]
    · simp only [statsMiddleware, World.now, h2, respOf]
  · simp only [hp, if_false, Bool.false_eq_true, List.nil_append, wrapped]
    obtain ⟨r, r', w2, h1, h2, h3⟩ := key w rfl
    exact ⟨r, r', by rw [h1]; rfl, by rw [h2]; rfl, h3⟩

/-- An application serving `Files.site` with a custom 404 page. -/
def exPage : Page := fun up _ _ _ => up
def exArgs : Args := { staticMap := [b!"/static", b!"/srv/www"], status404FilePath := b!"/srv/www/index.html",
                       statusPage := true, underTest := true }
def exWorld : World := { fs := Files.site }

example : respOf (exArgs.getHandler exPage b!"/nothing" b!"GET" ⟨[], [], []⟩ exWorld) =
    some { status := 404, body := b!"hello", headers := [⟨b!"content-type", b!"text/html; charset=utf-8"⟩] } := by
  decide +kernel
example : Opens Files.site b!"/srv/www/index.html" b!"hello" := by
  refine ⟨[b!"srv", b!"www", b!"index.html"], by decide +kernel, by decide +kernel⟩

/-! ## C68: statistics -/

/-- Handles requests one after the other. -/
def serve (h : Bytes → Bytes → Handler World) : List HttpRequest → World → List HOut × World
  | [], w => ([], w)
  | q :: qs, w =>
    let (o, w) := h q.path q.method q w
    let (os, w) := serve h qs w
    (o :: os, w)

/-- The count kept for a status code. -/
def countOf (code : UInt16) (s : Stats) : UInt64 := (s.codes.lookup code).getD 0

/-- Map keys are in order, each once. -/
def Ordered : List (UInt16 × UInt64) → Prop
  | [] => True
  | (k, _) :: rest => (∀ e ∈ rest, k < e.1) ∧ Ordered rest

theorem bump_mem {c : UInt16} : ∀ {m : List (UInt16 × UInt64)} {e}, e ∈ bump c m → e.1 = c ∨ ∃ n, (e.1, n) ∈ m := by
  intro m
  induction m with
  | nil => intro e h; simp [bump] at h; subst h; exact Or.inl rfl
  | cons x m ih =>
    obtain ⟨k, n⟩ := x
    intro e h
    rw [bump] at h
    split at h
    · rcases List.mem_cons.mp h with rfl | h
      · exact Or.inl rfl
      · exact Or.inr ⟨e.2, h⟩
    · split at h
      · rcases List.mem_cons.mp h with rfl | h
        · exact Or.inr ⟨n, by simp⟩
        · exact Or.inr ⟨e.2, by simp [h]⟩
      · rcases List.mem_cons.mp h with rfl | h
        · exact Or.inr ⟨n, by simp⟩
        · rcases ih h with h | ⟨n', h⟩
          · exact Or.inl h
          · exact Or.inr ⟨n', by simp [h]⟩

theorem bump_ordered (c : UInt16) : ∀ m, Ordered m → Ordered (bump c m) := by
  intro m
  induction m with
  | nil => intro _; simp [bump, Ordered]
  | cons x m ih =>
    obtain ⟨k, n⟩ := x
    intro ⟨h1, h2⟩
    rw [bump]
    split
    · rename_i hlt
      refine ⟨?_, h1, h2⟩
      intro e he
      rcases List.mem_cons.mp he with rfl | he
      · exact hlt
      · have := h1 e he
        exact UInt16.lt_trans hlt this
    · split
      · exact ⟨h1, h2⟩
      · rename_i hn hne
        refine ⟨?_, ih h2⟩
        intro e he
        rcases bump_mem he with h | ⟨n', h⟩
        · rw [h]
          rcases UInt16.lt_or_eq_of_le (UInt16.not_lt.mp hn) with h | h
          · exact h
          · exact absurd h.symm hne
        · exact h1 (e.1, n') h

theorem lookup_none_of_lt {k : UInt16} {m : List (UInt16 × UInt64)} (h : ∀ e ∈ m, k < e.1) : m.lookup k = none := by
  induction m with
  | nil => rfl
  | cons x m ih =>
    obtain ⟨k', n⟩ := x
    rw [List.lookup_cons]
    have h1 : k < k' := h (k', n) (by simp)
    have : (k == k') = false := by
      simp only [beq_eq_false_iff_ne, ne_eq]
      intro h'; subst h'; exact UInt16.lt_irrefl _ h1
    rw [this]
    exact ih (fun e he => h e (by simp [he]))

theorem bump_lookup (c k : UInt16) : ∀ m, Ordered m →
    ((bump c m).lookup k).getD 0 = (m.lookup k).getD 0 + (if k = c then 1 else 0) := by
  intro m
  induction m with
  | nil =>
    intro _
    simp only [bump, List.lookup_cons, List.lookup_nil, Option.getD_none]
    by_cases h : k = c
    · subst h; simp
    · have : (k == c) = false := by simpa using h
      rw [this, if_neg h]; rfl
  | cons x m ih =>
    obtain ⟨k0, n⟩ := x
    intro ho
    rw [bump]
    split
    · rename_i hlt
      rw [List.lookup_cons]
      by_cases h : k = c
      · subst h
        have hno : ((k0, n) :: m).lookup k = none := lookup_none_of_lt (by
          intro e he
          rcases List.mem_cons.mp he with rfl | he
          · exact hlt
          · exact UInt16.lt_trans hlt (ho.1 e he))
        rw [hno]
        simp
      · have : (k == c) = false := by simpa using h
        rw [this, if_neg h]
        simp
    · split
      · rename_i _ heq
        subst heq
        rw [List.lookup_cons, List.lookup_cons]
        by_cases h : k = c
        · subst h; simp
        · have : (k == c) = false := by simpa using h
          rw [this, if_neg h]
          simp
      · rename_i _ hne
        rw [List.lookup_cons, List.lookup_cons]
        by_cases h : k = k0
        · subst h
          rw [if_neg (fun h => hne h.symm)]
          simp
        · have : (k == k0) = false := by simpa using h
          rw [this]
          exact ih ho.2

def sumCodes : List (UInt16 × UInt64) → UInt64
  | [] => 0
  | (_, n) :: rest => n + sumCodes rest

theorem bump_sum (c : UInt16) : ∀ m, sumCodes (bump c m) = sumCodes m + 1 := by
  intro m
  induction m with
  | nil => rfl
  | cons x m ih =>
    obtain ⟨k, n⟩ := x
    rw [bump]
    split
    · simp only [sumCodes]; ac_rfl
    · split
      · simp only [sumCodes]; ac_rfl
      · simp only [sumCodes, ih]; ac_rfl

/-- A handler that leaves the statistics alone. -/
def LeavesStats (h : Handler World) : Prop := ∀ req w, (h req w).2.stats = w.stats

/-- One request through the statistics: it is counted in the total even if the handler throws; if it
returns, exactly its status code's count goes up. -/
theorem stats_step {h : Handler World} (hl : LeavesStats h) (req : HttpRequest) (w : World)
    (ho : Ordered w.stats.codes) :
    let out := statsMiddleware h req w
    out.2.stats.total = w.stats.total + 1 ∧ Ordered out.2.stats.codes ∧
    (∀ r, out.1 = .resp r → out.2.stats.codes = bump r.status w.stats.codes) ∧
    ((∀ r, out.1 ≠ .resp r) → out.2.stats.codes = w.stats.codes) := by
  have hl' := hl req { w with stats := { w.stats with total := w.stats.total + 1 }, tick := w.tick + 1 }
  simp only [statsMiddleware, World.now]
  generalize h req { w with stats := { w.stats with total := w.stats.total + 1 }, tick := w.tick + 1 } = x at hl'
  obtain ⟨o, w'⟩ := x
  simp only at hl'
  cases o with
  | resp r =>
    simp only [hl']
    refine ⟨trivial, bump_ordered _ _ ho, ?_, ?_⟩
    · intro r' hr; cases hr; rfl
    · intro h; exact absurd rfl (h r)
  | stdExn =>
    simp only [hl']
    simp [ho]
  | otherExn =>
    simp only [hl']
    simp [ho]

/-- How many of the results are responses, and how many have this status. -/
def completed : List HOut → Nat
  | [] => 0
  | .resp _ :: os => completed os + 1
  | _ :: os => completed os

def withStatus (k : UInt16) : List HOut → Nat
  | [] => 0
  | .resp r :: os => withStatus k os + (if r.status = k then 1 else 0)
  | _ :: os => withStatus k os

theorem ofNat_succ (n : Nat) : UInt64.ofNat (n + 1) = UInt64.ofNat n + 1 := UInt64.ofNat_add n 1

/-- C68. Whatever handlers run inside (as long as they do not touch the statistics themselves, may they
throw or not), after any sequence of requests the total has grown by their number, the counts together
by the number that completed, and each code's count by the number of responses with that code (all
counters are 64 bits wide). -/
theorem C68_counts (inner : Bytes → Bytes → Handler World) (hl : ∀ p m, LeavesStats (inner p m))
    (qs : List HttpRequest) : ∀ w : World, Ordered w.stats.codes →
    let res := serve (fun p m => statsMiddleware (inner p m)) qs w
    res.2.stats.total = w.stats.total + UInt64.ofNat qs.length ∧
    sumCodes res.2.stats.codes = sumCodes w.stats.codes + UInt64.ofNat (completed res.1) ∧
    (∀ k, countOf k res.2.stats = countOf k w.stats + UInt64.ofNat (withStatus k res.1)) := by
  induction qs with
  | nil => intro w _; simp [serve, completed, withStatus]
  | cons q qs ih =>
    intro w ho
    have hs := stats_step (hl q.path q.method) q w ho
    simp only [serve]
    generalize statsMiddleware (inner q.path q.method) q w = x at hs
    obtain ⟨o, w1⟩ := x
    simp only at hs ⊢
    obtain ⟨h1, h2, h3, h4⟩ := hs
    have ih := ih w1 h2
    generalize serve (fun p m => statsMiddleware (inner p m)) qs w1 = y at ih
    obtain ⟨os, w2⟩ := y
    simp only at ih ⊢
    obtain ⟨i1, i2, i3⟩ := ih
    refine ⟨?_, ?_, ?_⟩
    · rw [i1, h1, List.length_cons, ofNat_succ]; ac_rfl
    · rw [i2]
      cases o with
      | resp r => rw [h3 r rfl, bump_sum, completed, ofNat_succ]; ac_rfl
      | stdExn => rw [h4 (by simp)]; rfl
      | otherExn => rw [h4 (by simp)]; rfl
    · intro k
      rw [i3]
      cases o with
      | resp r =>
        simp only [countOf]
        rw [h3 r rfl, bump_lookup _ _ _ ho, withStatus]
        by_cases hk : r.status = k
        · rw [if_pos hk.symm, if_pos hk, ofNat_succ]; ac_rfl
        · rw [if_neg (fun h => hk h.symm), if_neg hk]; simp
      | stdExn => simp only [countOf, h4 (by simp), withStatus]
      | otherExn => simp only [countOf, h4 (by simp), withStatus]

theorem leaves_target (page : Page) (a : Args) (path method : Bytes) : LeavesStats (appTarget page a path method) := by
  intro req w
  rcases target_cases page a path method with ⟨h, h1, _, h3⟩ | ⟨_, _, _, h⟩ | ⟨s, root, _, _, _, h⟩ | ⟨_, h⟩
  · rw [h3]
    simp only [testOps, List.mem_cons, Op.route.injEq, List.not_mem_nil, or_false] at h1
    rcases h1 with ⟨-, -, rfl⟩ | ⟨-, -, rfl⟩ | ⟨-, -, rfl⟩ | ⟨-, -, rfl⟩ | ⟨-, -, rfl⟩ <;> rfl
  · rw [h]; rfl
  · rw [h]
  · rw [h]

theorem leaves_custom404 (f : Bytes) {h : Handler World} (hl : LeavesStats h) : LeavesStats (custom404 f h) := by
  intro req w
  have := hl req w
  rw [custom404]
  generalize h req w = x at this
  obtain ⟨o, w'⟩ := x
  cases o with
  | resp r => simp only; split <;> exact this
  | stdExn => exact this
  | otherExn => exact this

/-- C68 for the application with the status page: starting from zero, after any requests the total is
their number, and so is the sum of the counts (no handler of the application throws). -/
theorem C68_app (page : Page) (a : Args) (hp : a.statusPage = true) (qs : List HttpRequest) (w : World) (t0 : Nat)
    (hw : w.stats = { startTime := t0 }) :
    let res := serve (a.getHandler page) qs w
    res.2.stats.total = UInt64.ofNat qs.length ∧
    sumCodes res.2.stats.codes = UInt64.ofNat qs.length ∧
    (∀ k, countOf k res.2.stats = UInt64.ofNat (withStatus k res.1)) := by
  have h0 : w.stats.total = 0 := by rw [hw]
  have hc : w.stats.codes = [] := by rw [hw]
  let inner := fun p m => wrapped (if a.status404FilePath ≠ [] then [custom404 a.status404FilePath] else [])
    (appTarget page a p m)
  have hg : a.getHandler page = fun p m => statsMiddleware (inner p m) := by
    funext p m
    rw [getHandler_app, appMiddlewares, if_pos hp]
    rfl
  have hl : ∀ p m, LeavesStats (inner p m) := by
    intro p m
    show LeavesStats (wrapped _ _)
    split
    · exact leaves_custom404 _ (leaves_target page a p m)
    · exact leaves_target page a p m
  have ht : ∀ p m, Tidy (inner p m) := by
    intro p m
    show Tidy (wrapped _ _)
    split
    · exact tidy_custom404 _ (tidy_target page a p m)
    · exact tidy_target page a p m
  have hcomp : ∀ qs w, completed (serve (fun p m => statsMiddleware (inner p m)) qs w).1 = qs.length := by
    intro qs
    induction qs with
    | nil => intro w; rfl
    | cons q qs ih =>
      intro w
      obtain ⟨_, r, _, w3, _, _, h3, _⟩ := stats_through (ht q.path q.method) q w
      simp only [serve, h3, completed, ih, List.length_cons]
  have := C68_counts inner hl qs w (by rw [hc]; trivial)
  rw [hg]
  simp only at this ⊢
  rw [hcomp qs w] at this
  simpa [h0, hc, sumCodes, countOf] using this

example : (serve (exArgs.getHandler exPage)
    [⟨b!"GET", b!"/static/home", []⟩, ⟨b!"GET", b!"/x", []⟩, ⟨b!"GET", b!"/_ion/status", []⟩] exWorld).2.stats.codes =
      [(200, 2), (404, 1)] := by decide +kernel

/-! ## C69: uptime -/

/-- Reads digits followed by a unit letter, ignoring blanks. -/
def readDuration : Bytes → Nat → Nat → Nat
  | [], total, _ => total
  | b :: bs, total, n =>
    if b = 0x64 then readDuration bs (total + n * 86400) 0
    else if b = 0x68 then readDuration bs (total + n * 3600) 0
    else if b = 0x6d then readDuration bs (total + n * 60) 0
    else if b = 0x73 then readDuration bs (total + n) 0
    else if b = 0x20 then readDuration bs total n
    else readDuration bs total (n * 10 + (b.toNat - 48))

theorem readDuration_digits (ds rest : Bytes) (h : ∀ b ∈ ds, 48 ≤ b.toNat ∧ b.toNat ≤ 57) : ∀ total n,
    readDuration (ds ++ rest) total n =
      readDuration rest total (ds.foldl (fun v b => v * 10 + (b.toNat - 48)) n) := by
  induction ds with
  | nil => intro total n; rfl
  | cons b ds ih =>
    intro total n
    have hb := h b (by simp)
    have ne : ∀ c : UInt8, (c.toNat < 48 ∨ 57 < c.toNat) → b ≠ c := by
      intro c hc hbc; subst hbc; omega
    rw [List.cons_append, readDuration, if_neg (ne 0x64 (by decide)), if_neg (ne 0x68 (by decide)),
      if_neg (ne 0x6d (by decide)), if_neg (ne 0x73 (by decide)), if_neg (ne 0x20 (by decide)),
      ih (fun c hc => h c (by simp [hc]))]
    rfl

theorem readDuration_decimal (n : Nat) (rest : Bytes) (total : Nat) :
    readDuration (decimal n ++ rest) total 0 = readDuration rest total n := by
  obtain ⟨_, h2, h3, _⟩ := Sim.decimal_spec n
  rw [readDuration_digits _ _ h2, h3]

/-- C69. The text shows days, hours below 24, minutes below 60 and seconds below 60 that add up to the
duration, leaving out leading zero units only. -/
theorem C69_parts (t : UInt64) : ∃ d h m s : Nat, h < 24 ∧ m < 60 ∧ s < 60 ∧
    t.toNat = d * 86400 + h * 3600 + m * 60 + s ∧
    formatDuration t =
      (if d = 0 then [] else decimal d ++ b!"d ") ++
      (if d = 0 ∧ h = 0 then [] else decimal h ++ b!"h ") ++
      (if d = 0 ∧ h = 0 ∧ m = 0 then [] else decimal m ++ b!"m ") ++ decimal s ++ b!"s" := by
  refine ⟨t.toNat / 86400, t.toNat % 86400 / 3600, t.toNat % 86400 % 3600 / 60, t.toNat % 86400 % 3600 % 60,
    by omega, by omega, by omega, by omega, ?_⟩
  have pos : ∀ x : UInt64, x > 0 ↔ ¬ x.toNat = 0 := by
    intro x
    rw [gt_iff_lt, UInt64.lt_iff_toNat_lt]
    simp
    omega
  simp only [formatDuration, pos, UInt64.toNat_div, UInt64.toNat_mod]
  have e1 : (86400 : UInt64).toNat = 86400 := rfl
  have e2 : (3600 : UInt64).toNat = 3600 := rfl
  have e3 : (60 : UInt64).toNat = 60 := rfl
  rw [e1, e2, e3]
  generalize t.toNat / 86400 = d
  generalize t.toNat % 86400 / 3600 = h
  generalize t.toNat % 86400 % 3600 / 60 = m
  generalize t.toNat % 86400 % 3600 % 60 = s
  by_cases hd : d = 0 <;> by_cases hh : h = 0 <;> by_cases hm : m = 0 <;> simp [hd, hh, hm]

/-- C69, reading back: the text determines the duration. -/
theorem C69_readable (t : UInt64) : readDuration (formatDuration t) 0 0 = t.toNat := by
  obtain ⟨d, h, m, s, -, -, -, hsum, hf⟩ := C69_parts t
  rw [hf, hsum]
  have e1 : ∀ rest total, readDuration ((if d = 0 then [] else decimal d ++ b!"d ") ++ rest) total 0 =
      readDuration rest (total + d * 86400) 0 := by
    intro rest total
    split
    · rename_i h; subst h; simp
    · rw [List.append_assoc, readDuration_decimal]
      simp [readDuration]
  have e2 : ∀ rest total, readDuration ((if d = 0 ∧ h = 0 then [] else decimal h ++ b!"h ") ++ rest) total 0 =
      readDuration rest (total + h * 3600) 0 := by
    intro rest total
    split
    · rename_i hh; rw [hh.2]; simp
    · rw [List.append_assoc, readDuration_decimal]
      simp [readDuration]
  have e3 : ∀ rest total, readDuration ((if d = 0 ∧ h = 0 ∧ m = 0 then [] else decimal m ++ b!"m ") ++ rest) total 0 =
      readDuration rest (total + m * 60) 0 := by
    intro rest total
    split
    · rename_i hh; rw [hh.2.2]; simp
    · rw [List.append_assoc, readDuration_decimal]
      simp [readDuration]
  rw [List.append_assoc, List.append_assoc, List.append_assoc, e1, e2, e3, readDuration_decimal]
  simp [readDuration]

/-- C69, injectivity: different durations print differently. -/
theorem C69_injective (t u : UInt64) (h : formatDuration t = formatDuration u) : t = u := by
  have h1 := C69_readable t
  rw [h, C69_readable u] at h1
  exact (UInt64.toNat_inj.mp h1).symm

example : formatDuration 90061 = b!"1d 1h 1m 1s" ∧ formatDuration 86400 = b!"1d 0h 0m 0s" ∧
    formatDuration 59 = b!"59s" := by decide +kernel

/-! ## C70: configuration -/

/-- There is something the name of a file leads to. -/
def LeadsSomewhere (fs : FS) (path : Bytes) : Prop := ∃ loc, fs.statString path = .ok loc

theorem exists_iff (fs : FS) (path : Bytes) : fs.exists path = true ↔ LeadsSomewhere fs path := by
  rw [FS.exists, LeadsSomewhere]
  cases fs.statString path <;> simp

/-- C70. In cleartext the server is constructed whatever the paths; otherwise it is constructed exactly if
certificate and key were both given (not empty), both exist, and OpenSSL makes a context and accepts them.
Nothing is undefined. -/
theorem C70_start (fs : FS) (ssl : SslFiles) (a : Args) :
    (a.cleartext = true → constructServer fs ssl a.toServerConfig = .ok ()) ∧
    (a.cleartext = false → (constructServer fs ssl a.toServerConfig = .ok () ↔
      a.certPath ≠ [] ∧ a.keyPath ≠ [] ∧ LeadsSomewhere fs a.certPath ∧ LeadsSomewhere fs a.keyPath ∧
      ssl.ctxNew = true ∧ ssl.useCertificate a.certPath = true ∧ ssl.usePrivateKey a.keyPath = true ∧
      ssl.keyMatches a.certPath a.keyPath = true)) ∧
    (∀ u, constructServer fs ssl a.toServerConfig ≠ .ub u) := by
  simp only [← exists_iff]
  have hk : a.toServerConfig.keyPath = some a.keyPath := rfl
  have hc : a.toServerConfig.cleartext = a.cleartext := by
    simp only [Args.toServerConfig]; split <;> split <;> rfl
  have hcert : a.toServerConfig.certPath = if a.certPath = [] then none else some a.certPath := by
    simp only [Args.toServerConfig]
    by_cases h1 : a.certPath = [] <;> by_cases h2 : a.keyPath = [] <;> simp [h1, h2]
  have hempty : fs.exists [] = false := rfl
  refine ⟨?_, ?_, ?_⟩
  · intro h
    simp [constructServer, ServerConfiguration.validate, hc, h]
  · intro h
    refine ⟨fun hok => ?_, fun ⟨h1, _, c1, c2, c3, c4, c5, c6⟩ => by
      simp [constructServer, ServerConfiguration.validate, hc, h, hk, hcert, h1, tlsContext, c1, c2, c3, c4, c5, c6]⟩
    simp only [constructServer, ServerConfiguration.validate, hc, h, hk, hcert] at hok
    by_cases h1 : a.certPath = []
    · simp [h1] at hok
    · simp only [h1, if_false, Bool.not_false, if_true, Option.isNone_some, Bool.false_eq_true] at hok
      rw [tlsContext] at hok
      by_cases c1 : fs.exists a.certPath = true
      · by_cases c2 : fs.exists a.keyPath = true
        · by_cases c3 : ssl.ctxNew = true
          · by_cases c4 : ssl.useCertificate a.certPath = true
            · by_cases c5 : ssl.usePrivateKey a.keyPath = true
              · by_cases c6 : ssl.keyMatches a.certPath a.keyPath = true
                · refine ⟨h1, ?_, c1, c2, c3, c4, c5, c6⟩
                  intro h2; rw [h2, hempty] at c2; cases c2
                · simp [c1, c2, c3, c4, c5, c6] at hok
              · simp [c1, c2, c3, c4, c5] at hok
            · simp [c1, c2, c3, c4] at hok
          · simp [c1, c2, c3] at hok
        · simp [c1, c2] at hok
      · simp [c1] at hok
  · intro u
    by_cases h : a.cleartext = true
    · simp [constructServer, ServerConfiguration.validate, hc, h]
    simp only [constructServer, ServerConfiguration.validate, hc, h, hk, hcert]
    by_cases h1 : a.certPath = []
    · simp [h1]
    · simp only [h1, if_false, Bool.not_false, if_true, Option.isNone_some, Bool.false_eq_true]
      cases tlsContext fs ssl a.certPath a.keyPath <;> simp

/-- C70 for any configuration, also one not made from a command line: without cleartext a missing certificate and
then a missing key are reported as such; with both, starting succeeds exactly if OpenSSL takes them, and the
missing optional is never read. -/
theorem C70_any (fs : FS) (ssl : SslFiles) (c : ServerConfiguration) :
    (c.cleartext = true → constructServer fs ssl c = .ok ()) ∧
    (c.cleartext = false → c.certPath = none → constructServer fs ssl c = .err .certNotSet) ∧
    (∀ cert, c.cleartext = false → c.certPath = some cert → c.keyPath = none →
      constructServer fs ssl c = .err .keyNotSet) ∧
    (∀ cert key, c.cleartext = false → c.certPath = some cert → c.keyPath = some key →
      (constructServer fs ssl c = .ok () ↔ LeadsSomewhere fs cert ∧ LeadsSomewhere fs key ∧ ssl.ctxNew = true ∧
        ssl.useCertificate cert = true ∧ ssl.usePrivateKey key = true ∧ ssl.keyMatches cert key = true)) ∧
    (∀ u, constructServer fs ssl c ≠ .ub u) := by
  simp only [← exists_iff]
  refine ⟨?_, ?_, ?_, ?_, ?_⟩
  · intro h
    simp [constructServer, ServerConfiguration.validate, h]
  · intro h h1
    simp [constructServer, ServerConfiguration.validate, h, h1]
  · intro cert h h1 h2
    simp [constructServer, ServerConfiguration.validate, h, h1, h2]
  · intro cert key h h1 h2
    simp only [constructServer, ServerConfiguration.validate, h, h1, h2, tlsContext]
    cases fs.exists cert <;> cases fs.exists key <;> cases ssl.ctxNew <;> cases ssl.useCertificate cert <;>
      cases ssl.usePrivateKey key <;> cases ssl.keyMatches cert key <;> simp
  · intro u
    simp only [constructServer, ServerConfiguration.validate]
    cases c.cleartext <;> rcases c.certPath with _ | cert <;> rcases c.keyPath with _ | key <;> simp
    cases tlsContext fs ssl cert key <;> simp

/-- A configuration without a key. -/
example : constructServer Files.site ⟨true, fun _ => true, fun _ => true, fun _ _ => true⟩
    { certPath := some b!"/srv/www/index.html" } = .err .keyNotSet := by decide +kernel

/-- The key is never "not set" for the server, since the empty path is passed on; it is "not found"
instead, so the server still refuses to start. -/
example : constructServer Files.site ⟨true, fun _ => true, fun _ => true, fun _ _ => true⟩
      ({ certPath := b!"/srv/www/index.html" } : Args).toServerConfig = .err .keyNotFound ∧
    constructServer Files.site ⟨true, fun _ => true, fun _ => true, fun _ _ => true⟩
      ({ certPath := b!"/srv/www/index.html", keyPath := b!"/etc/passwd" } : Args).toServerConfig = .ok () := by
  decide +kernel

/-! ## C71: signals -/

/-- Operations on the signal handler: an attempt to set it up, its destruction, the arrival of a signal
(with whether stdout and stderr are broken). -/
inductive SigOp where
  | setup (server : Nat)
  | destroy
  | signal (s : Sig) (outBroken errBroken : Bool)
deriving DecidableEq, Repr

/-- A failed `setup` throws and changes nothing. -/
def SigOp.run (s : SigState) : SigOp → SigState
  | .setup server => (s.setup server).getD s
  | .destroy => s.destroy
  | .signal sig o e => s.deliver sig o e

/-- Which server is registered after these operations: the first `setup` since the last `destroy`. -/
def registered : List SigOp → Option Nat → Option Nat
  | [], r => r
  | .setup n :: ops, none => registered ops (some n)
  | .setup _ :: ops, some r => registered ops (some r)
  | .destroy :: ops, _ => registered ops none
  | .signal _ _ _ :: ops, r => registered ops r

/-- The handlers are installed exactly while a server is registered. -/
theorem sig_inv (ops : List SigOp) : ∀ s : SigState, s.installed = s.server.isSome →
    (ops.foldl SigOp.run s).installed = (ops.foldl SigOp.run s).server.isSome ∧
    (ops.foldl SigOp.run s).server = registered ops s.server := by
  induction ops with
  | nil => intro s h; exact ⟨h, rfl⟩
  | cons o ops ih =>
    intro s h
    rw [List.foldl_cons]
    cases o with
    | setup n =>
      cases hs : s.server with
      | none =>
        have : SigOp.run s (.setup n) = { s with server := some n, installed := true } := by
          simp [SigOp.run, SigState.setup, hs]
        rw [this]
        exact ih _ rfl
      | some r =>
        have : SigOp.run s (.setup n) = s := by simp [SigOp.run, SigState.setup, hs]
        rw [this]
        have := ih s h
        rw [hs] at this
        exact this
    | destroy => exact ih _ rfl
    | signal sig o e =>
      have h1 : (SigOp.run s (.signal sig o e)).installed = s.installed ∧
          (SigOp.run s (.signal sig o e)).server = s.server := by
        rcases s with ⟨sv, inst, st, k⟩
        simp only [SigOp.run, SigState.deliver]
        split
        · cases sig <;> cases o <;> cases e <;> cases sv <;> exact ⟨rfl, rfl⟩
        · exact ⟨rfl, rfl⟩
      have := ih (SigOp.run s (.signal sig o e)) (by rw [h1.1, h1.2]; exact h)
      rw [h1.2] at this
      exact this

/-- C71. After any history: at most one server is registered (a second `setup` throws and changes
nothing); SIGINT and SIGTERM stop that server with reason "signal"; SIGPIPE stops it only if stdout or
stderr is broken, so a broken client socket alone has no effect; no signal ends the process while a server
is registered, and any does while none is; nothing else calls `stop`. -/
theorem C71_signals (ops : List SigOp) (s : SigState) (hs : s = ops.foldl SigOp.run {}) :
    s.server = registered ops none ∧
    (∀ n m, s.server = some n → s.setup m = none) ∧
    (∀ n, s.server = some n → ∀ o e, (s.deliver .int o e).stops = (n, .signal) :: s.stops ∧
      (s.deliver .term o e).stops = (n, .signal) :: s.stops) ∧
    (∀ n, s.server = some n → s.deliver .pipe false false = s) ∧
    (∀ n, s.server = some n →
      (s.deliver .pipe true false).stops = (n, .stdOutPipeBroken) :: s.stops ∧
      (s.deliver .pipe false true).stops = (n, .stdErrPipeBroken) :: s.stops ∧
      (s.deliver .pipe true true).stops = (n, .stdErrPipeBroken) :: (n, .stdOutPipeBroken) :: s.stops) ∧
    (∀ n, s.server = some n → ∀ sig o e, (s.deliver sig o e).killed = s.killed) ∧
    (s.server = none → ∀ sig o e, (s.deliver sig o e).killed = true ∧ (s.deliver sig o e).stops = s.stops) ∧
    (∀ m, ((s.setup m).getD s).stops = s.stops) ∧ s.destroy.stops = s.stops := by
  obtain ⟨h1, h2⟩ := sig_inv ops {} rfl
  rw [← hs] at h1 h2
  clear hs
  rcases s with ⟨sv, inst, st, k⟩
  simp only at h1 h2
  refine ⟨h2, ?_, ?_, ?_, ?_, ?_, ?_, ?_, rfl⟩
  · intro n m hn
    simp only at hn
    subst hn
    rfl
  · intro n hn o e
    simp only at hn; subst hn; simp at h1; subst h1
    exact ⟨rfl, rfl⟩
  · intro n hn
    simp only at hn; subst hn; simp at h1; subst h1
    rfl
  · intro n hn
    simp only at hn; subst hn; simp at h1; subst h1
    exact ⟨rfl, rfl, rfl⟩
  · intro n hn sig o e
    simp only at hn; subst hn; simp at h1; subst h1
    cases sig <;> cases o <;> cases e <;> rfl
  · intro hn sig o e
    simp only at hn; subst hn; simp at h1; subst h1
    exact ⟨rfl, rfl⟩
  · intro m
    cases sv <;> rfl

theorem killed_iff (ops : List SigOp) : ∀ s : SigState, s.installed = s.server.isSome →
    ((ops.foldl SigOp.run s).killed = true ↔ s.killed = true ∨
      ∃ pre sig o e post, ops = pre ++ .signal sig o e :: post ∧ registered pre s.server = none) := by
  induction ops with
  | nil => intro s _; simp
  | cons x ops ih =>
    intro s hi
    obtain ⟨h1, h2⟩ := sig_inv [x] s hi
    simp only [List.foldl_cons, List.foldl_nil] at h1 h2
    have hr : ∀ pre, registered pre (SigOp.run s x).server = registered (x :: pre) s.server := by
      intro pre
      rw [h2]
      cases x <;> cases s.server <;> simp [registered]
    have hk : (SigOp.run s x).killed = true ↔ s.killed = true ∨ ((∃ sig o e, x = .signal sig o e) ∧ s.server = none) := by
      rcases s with ⟨sv, inst, st, k⟩
      simp only at hi
      subst hi
      cases x with
      | setup n => cases sv <;> simp [SigOp.run, SigState.setup]
      | destroy => simp [SigOp.run, SigState.destroy]
      | signal sig o e =>
        cases sv with
        | none => simp [SigOp.run, SigState.deliver]
        | some n => cases sig <;> cases o <;> cases e <;> simp [SigOp.run, SigState.deliver, SigState.onSignal, SigState.onPipe, SigState.stopServer]
    rw [List.foldl_cons, ih _ h1, hk]
    constructor
    · rintro ((h | ⟨⟨sig, o, e, rfl⟩, h⟩) | ⟨pre, sig, o, e, post, rfl, h⟩)
      · exact .inl h
      · exact .inr ⟨[], sig, o, e, ops, rfl, h⟩
      · exact .inr ⟨x :: pre, sig, o, e, post, rfl, by rw [← hr]; exact h⟩
    · rintro (h | ⟨pre, sig, o, e, post, h, hg⟩)
      · exact .inl (.inl h)
      · cases pre with
        | nil =>
          rw [List.nil_append] at h
          obtain ⟨rfl, rfl⟩ := List.cons.inj h
          exact .inl (.inr ⟨⟨sig, o, e, rfl⟩, hg⟩)
        | cons y pre =>
          rw [List.cons_append] at h
          obtain ⟨rfl, rfl⟩ := List.cons.inj h
          exact .inr ⟨pre, sig, o, e, post, rfl, by rw [hr]; exact hg⟩

/-- C71: a signal has ended the process exactly if one arrived while no server was registered. -/
theorem C71_killed (ops : List SigOp) : (ops.foldl SigOp.run {}).killed = true ↔
    ∃ pre sig o e post, ops = pre ++ .signal sig o e :: post ∧ registered pre none = none := by
  rw [killed_iff ops {} rfl]
  simp

/-- After the server is gone, a signal ends the process. -/
example : ([SigOp.setup 1, .signal .term false false, .destroy, .signal .int false false].foldl SigOp.run {}).killed = true ∧
    ([SigOp.setup 1, .signal .term false false, .destroy].foldl SigOp.run {}).killed = false := by decide

example : ([SigOp.setup 1, .setup 2, .signal .pipe false false, .signal .term false false, .destroy, .setup 3,
    .signal .pipe true true].foldl SigOp.run {}).stops =
    [(3, .stdErrPipeBroken), (3, .stdOutPipeBroken), (1, .signal)] := by decide

/-! ## C72: built-in routes -/

/-- The built-in test routes' paths. -/
def testPaths : List Bytes :=
  [b!"/_tests/ok", b!"/_tests/no_content", b!"/_tests/no_new_privs", b!"/_tests/medium_body", b!"/_tests/large_body"]

/-- What the test routes answer; `p` says whether the process runs without new privileges. -/
def TestAnswer (p : Bool) (path : Bytes) (r : HttpResponse) : Prop :=
  r.headers = [] ∧
  (path = b!"/_tests/ok" ∧ r.status = 200 ∧ r.body = [] ∨
   path = b!"/_tests/no_content" ∧ r.status = 204 ∧ r.body = [] ∨
   path = b!"/_tests/no_new_privs" ∧ r.status = (if p then 200 else 500) ∧ r.body = [] ∨
   path = b!"/_tests/medium_body" ∧ r.status = 200 ∧ r.body = List.replicate (128 * 1024) 0x41 ∨
   path = b!"/_tests/large_body" ∧ r.status = 200 ∧ r.body = List.replicate (2 * 1024 * 1024) 0x41)

theorem target_routes (page : Page) (a : Args) (path method : Bytes) :
    let test := a.underTest = true ∧ method = b!"GET" ∧ path ∈ testPaths
    let status := a.statusPage = true ∧ method = b!"GET" ∧ path = b!"/_ion/status"
    (test → ∀ req w, ∃ r, appTarget page a path method req w = (.resp r, w) ∧ TestAnswer w.noNewPrivs path r) ∧
    (status → appTarget page a path method = statusHandler page) ∧
    (¬ test → ¬ status →
      (∃ s root, a.staticMap = [s, root] ∧ s <+: path ∧ (method = b!"GET" ∨ method = b!"HEAD") ∧
        appTarget page a path method =
          fun _ w => (.resp (StaticFileHandler.handle ⟨s, root⟩ w.fs path (decide (method = b!"HEAD"))), w)) ∨
      (¬(∃ s root, a.staticMap = [s, root] ∧ s <+: path ∧ (method = b!"GET" ∨ method = b!"HEAD")) ∧
        appTarget page a path method = fun _ w => (.resp { status := 404 }, w))) := by
  have hin : ∀ h, Op.route path method h ∈ testOps → method = b!"GET" ∧ path ∈ testPaths := by
    intro h hm
    simp only [testOps, List.mem_cons, Op.route.injEq, List.not_mem_nil, or_false] at hm
    rcases hm with ⟨rfl, rfl, -⟩ | ⟨rfl, rfl, -⟩ | ⟨rfl, rfl, -⟩ | ⟨rfl, rfl, -⟩ | ⟨rfl, rfl, -⟩ <;>
      exact ⟨rfl, by decide⟩
  have hfind : ∀ rest, path ∈ testPaths → method = b!"GET" →
      ∃ h, Op.route path method h ∈ testOps ∧ Router.findRoute path method (opRoutes (testOps ++ rest)) = some h := by
    intro rest hp hm
    subst hm
    simp only [testPaths, List.mem_cons, List.not_mem_nil, or_false] at hp
    rcases hp with rfl | rfl | rfl | rfl | rfl
    · exact ⟨_, .head _, rfl⟩
    · exact ⟨_, .tail _ (.head _), rfl⟩
    · exact ⟨_, .tail _ (.tail _ (.head _)), rfl⟩
    · exact ⟨_, .tail _ (.tail _ (.tail _ (.head _))), rfl⟩
    · exact ⟨_, .tail _ (.tail _ (.tail _ (.tail _ (.head _)))), rfl⟩
  refine ⟨?_, ?_, ?_⟩
  · rintro ⟨h1, h2, h3⟩ req w
    have happ : ∃ rest, appOps page a = testOps ++ rest := by
      refine ⟨(if a.statusPage then statusOps page else []) ++ staticOps a.staticMap ++
        (if a.status404FilePath ≠ [] then [.middleware (custom404 a.status404FilePath)] else []), ?_⟩
      rw [appOps, if_pos h1]; simp [List.append_assoc]
    obtain ⟨rest, happ⟩ := happ
    obtain ⟨h, hm, hf⟩ := hfind rest h3 h2
    rw [appTarget, happ, hf]
    simp only
    simp only [testOps, List.mem_cons, Op.route.injEq, List.not_mem_nil, or_false] at hm
    rcases hm with ⟨rfl, -, rfl⟩ | ⟨rfl, -, rfl⟩ | ⟨rfl, -, rfl⟩ | ⟨rfl, -, rfl⟩ | ⟨rfl, -, rfl⟩
    · exact ⟨_, rfl, rfl, Or.inl ⟨rfl, rfl, rfl⟩⟩
    · exact ⟨_, rfl, rfl, Or.inr (Or.inl ⟨rfl, rfl, rfl⟩)⟩
    · exact ⟨_, rfl, rfl, Or.inr (Or.inr (Or.inl ⟨rfl, rfl, rfl⟩))⟩
    · exact ⟨_, rfl, rfl, Or.inr (Or.inr (Or.inr (Or.inl ⟨rfl, rfl, rfl⟩)))⟩
    · exact ⟨_, rfl, rfl, Or.inr (Or.inr (Or.inr (Or.inr ⟨rfl, rfl, rfl⟩)))⟩
  · rintro ⟨h1, h2, h3⟩
    rw [appTarget]
    have hno : ∀ h', Op.route path method h' ∉ (if a.underTest then testOps else []) := by
      intro h' hm
      split at hm
      · have := (hin h' hm).2
        rw [h3] at this
        revert this; decide
      · simp at hm
    rw [appOps, if_pos h1, List.append_assoc, List.append_assoc, opRoutes_append, findRoute_append,
      findRoute_none hno, statusOps]
    simp only [List.cons_append, opRoutes, List.nil_append, Router.findRoute]
    rw [if_pos ⟨h3.symm, h2.symm⟩]
    rfl
  · intro h1 h2
    rcases target_cases page a path method with ⟨h, k1, k2, _⟩ | ⟨k1, k2, k3, _⟩ | h
    · exact absurd ⟨k2, hin h k1⟩ h1
    · exact absurd ⟨k3, k2, k1⟩ h2
    · exact h

/-- C72. A request reaches a test route exactly if `--under-test` is given and it is a GET for one of the
five paths; it reaches the status page exactly if `--status-page` is given and it is a GET for
`/_ion/status`; every other request is handled as if there were no built-in routes: by the static handler
if its prefix fits and the method is GET or HEAD, and with 404 otherwise. Around all this are the
middlewares that were asked for. -/
theorem C72_routes (page : Page) (a : Args) (path method : Bytes) : ∃ target : Handler World,
    let test := a.underTest = true ∧ method = b!"GET" ∧ path ∈ testPaths
    let status := a.statusPage = true ∧ method = b!"GET" ∧ path = b!"/_ion/status"
    let static := fun s root => a.staticMap = [s, root] ∧ s <+: path ∧ (method = b!"GET" ∨ method = b!"HEAD")
    a.getHandler page path method =
      wrapped ((if a.statusPage = true then [statsMiddleware] else []) ++
        (if a.status404FilePath = [] then [] else [custom404 a.status404FilePath])) target ∧
    (test → ∀ req w, ∃ r, target req w = (.resp r, w) ∧ TestAnswer w.noNewPrivs path r) ∧
    (status → target = statusHandler page) ∧
    (¬ test → ¬ status → ∀ s root, static s root → target =
      fun _ w => (.resp (StaticFileHandler.handle ⟨s, root⟩ w.fs path (decide (method = b!"HEAD"))), w)) ∧
    (¬ test → ¬ status → (¬ ∃ s root, static s root) → target = fun _ w => (.resp { status := 404 }, w)) := by
  obtain ⟨h1, h2, h3⟩ := target_routes page a path method
  refine ⟨appTarget page a path method, ?_, h1, h2, ?_, ?_⟩
  · rw [getHandler_app, appMiddlewares]
    by_cases h : a.status404FilePath = [] <;> simp [h]
  · rintro k1 k2 s root ⟨e1, e2, e3⟩
    rcases h3 k1 k2 with ⟨s', root', e, -, -, h⟩ | ⟨h, -⟩
    · rw [e1] at e
      cases e
      exact h
    · exact absurd ⟨s, root, e1, e2, e3⟩ h
  · intro k1 k2 k3
    rcases h3 k1 k2 with ⟨s, root, e1, e2, e3, -⟩ | ⟨-, h⟩
    · exact absurd ⟨s, root, e1, e2, e3⟩ k3
    · exact h

example : respOf (exArgs.getHandler exPage b!"/_tests/no_content" b!"GET" ⟨[], [], []⟩ exWorld) =
    some { status := 204 } ∧
    (respOf ({ exArgs with underTest := false }.getHandler exPage b!"/_tests/no_content" b!"GET" ⟨[], [], []⟩
      exWorld)).map HttpResponse.status = some 404 := by decide +kernel

/-! ## C76: HEAD -/

/-- C76 as stated fails: with a custom 404 page a HEAD request for a missing file gets a body. -/
theorem C76_refuted : ∃ (page : Page) (a : Args) (w : World) (r : HttpResponse),
    respOf (a.getHandler page b!"/nothing" b!"HEAD" ⟨b!"HEAD", b!"/nothing", []⟩ w) = some r ∧ r.body ≠ [] := by
  refine ⟨exPage, exArgs, exWorld, { status := 404, body := b!"hello", headers :=
    [⟨b!"content-type", b!"text/html; charset=utf-8"⟩] }, by decide +kernel, by decide⟩

/-- C76, what holds: without a custom 404 page no response to HEAD has a body. -/
theorem C76_head_partial (page : Page) (a : Args) (h404 : a.status404FilePath = []) (path : Bytes)
    (req : HttpRequest) (w : World) :
    ∃ r, respOf (a.getHandler page path b!"HEAD" req w) = some r ∧ r.body = [] := by
  have key : ∀ w1 : World, ∃ r w2, appTarget page a path b!"HEAD" req w1 = (.resp r, w2) ∧ r.body = [] := by
    intro w1
    rcases target_cases page a path b!"HEAD" with ⟨h, h1, _, _⟩ | ⟨_, h1, _⟩ | ⟨s, root, _, _, _, h⟩ | ⟨_, h⟩
    · simp only [testOps, List.mem_cons, Op.route.injEq, List.not_mem_nil, or_false] at h1
      rcases h1 with ⟨-, h1, -⟩ | ⟨-, h1, -⟩ | ⟨-, h1, -⟩ | ⟨-, h1, -⟩ | ⟨-, h1, -⟩ <;>
        exact absurd h1 (by decide)
    · exact absurd h1 (by decide)
    · rw [h]
      exact ⟨_, _, rfl, (C55_head ⟨s, root⟩ w1.fs path).2.1⟩
    · rw [h]; exact ⟨_, _, rfl, rfl⟩
  rw [getHandler_app, appMiddlewares]
  simp only [h404, ne_eq, not_true_eq_false, if_false, List.append_nil]
  by_cases hp : a.statusPage = true
  · simp only [hp, if_true, wrapped]
    obtain ⟨r, w2, h1, h2⟩ := key { w with
      stats := { w.stats with total := w.stats.total + 1 }, tick := w.tick + 1 }
    exact ⟨r, by simp only [statsMiddleware, World.now, h1, respOf], h2⟩
  · simp only [hp, if_false, Bool.false_eq_true, wrapped]
    obtain ⟨r, w2, h1, h2⟩ := key w
    exact ⟨r, by rw [h1]; rfl, h2⟩

example : respOf ({ exArgs with status404FilePath := [] }.getHandler exPage b!"/static/css/a.css" b!"HEAD" ⟨[], [], []⟩
    exWorld) = some { status := 200, headers :=
      [⟨b!"content-length", b!"6"⟩, ⟨b!"content-type", b!"text/css; charset=utf-8"⟩] } := by decide +kernel

/-! ## C77: log levels -/

/-- The levels of spdlog, from the most to the least verbose. -/
def spdlogLevels : List Bytes := [b!"trace", b!"debug", b!"info", b!"warn", b!"error", b!"critical", b!"off"]

/-- An ASCII capital letter. -/
def Capital (b : UInt8) : Prop := 65 ≤ b.toNat ∧ b.toNat ≤ 90

/-- The same octet, or the same letter, one capital and one not. -/
def SameLetter (x y : UInt8) : Prop :=
  x = y ∨ (Capital x ∧ y.toNat = x.toNat + 32) ∨ (Capital y ∧ x.toNat = y.toNat + 32)

/-- Equal but for the case of ASCII letters. -/
inductive SameButCase : Bytes → Bytes → Prop where
  | nil : SameButCase [] []
  | cons {x y xs ys} : SameLetter x y → SameButCase xs ys → SameButCase (x :: xs) (y :: ys)

/-- The letter "Z" is "z", but "[" is not "{" and "@" is not a grave accent. -/
example : SameLetter 0x5a 0x7a ∧ SameLetter 0x41 0x61 ∧ ¬ SameLetter 0x5b 0x7b ∧ ¬ SameLetter 0x40 0x60 := by
  unfold SameLetter Capital
  decide

theorem toLower_iff (a b : Bytes) : toLower a = toLower b ↔ SameButCase a b := by
  have key : ∀ x y : UInt8, (if 0x41 ≤ x && x ≤ 0x5a then x + 0x20 else x) =
      (if 0x41 ≤ y && y ≤ 0x5a then y + 0x20 else y) ↔ SameLetter x y := by
    intro x y
    have hx := x.toNat_lt
    have hy := y.toNat_lt
    have e1 : (x + 0x20).toNat = (x.toNat + 32) % 256 := by rw [UInt8.toNat_add]; rfl
    have e2 : (y + 0x20).toNat = (y.toNat + 32) % 256 := by rw [UInt8.toNat_add]; rfl
    have c : ∀ z : UInt8, (decide (0x41 ≤ z) && decide (z ≤ 0x5a)) = true ↔ 65 ≤ z.toNat ∧ z.toNat ≤ 90 := by
      intro z
      simp only [Bool.and_eq_true, decide_eq_true_eq, UInt8.le_iff_toNat_le]
      exact Iff.rfl
    simp only [SameLetter, Capital, ← UInt8.toNat_inj]
    by_cases h1 : (decide (0x41 ≤ x) && decide (x ≤ 0x5a)) = true <;>
      by_cases h2 : (decide (0x41 ≤ y) && decide (y ≤ 0x5a)) = true <;>
      simp only [h1, h2, if_true, if_false, Bool.false_eq_true, e1, e2] <;> rw [c] at h1 h2 <;> omega
  induction a generalizing b with
  | nil =>
    cases b with
    | nil => exact ⟨fun _ => .nil, fun _ => rfl⟩
    | cons y ys => exact ⟨fun h => by simp [toLower] at h, fun h => nomatch h⟩
  | cons x xs ih =>
    cases b with
    | nil => exact ⟨fun h => by simp [toLower] at h, fun h => nomatch h⟩
    | cons y ys =>
      have hc : toLower (x :: xs) = toLower (y :: ys) ↔ SameLetter x y ∧ toLower xs = toLower ys := by
        rw [← key x y]
        exact List.cons.injEq _ _ _ _ ▸ Iff.rfl
      exact hc.trans ⟨fun ⟨h1, h2⟩ => .cons h1 ((ih ys).mp h2), fun h => by
        cases h with | cons h1 h2 => exact ⟨h1, (ih ys).mpr h2⟩⟩

/-- C77: the check accepts exactly the names of spdlog's levels in any case. -/
theorem C77_check (level : Bytes) :
    Args.levelAccepted level = true ↔ ∃ n ∈ spdlogLevels, SameButCase n level := by
  rw [Args.levelAccepted, List.any_eq_true]
  simp only [decide_eq_true_eq, toLower_iff]
  exact Iff.rfl

/-- A level understood is spdlog's level of exactly that name, at its place in the order. -/
theorem C77_enum (a : Args) (i : Nat) : a.logLevelEnum = some i ↔ spdlogLevels[i]? = some a.logLevel := by
  have hn : ∀ i, i < 7 → ∀ j, j < 7 → spdlogLevels[i]? = spdlogLevels[j]? → i = j := by decide +kernel
  rw [Args.logLevelEnum, List.findIdx?_eq_some_iff_getElem]
  constructor
  · rintro ⟨hi, hx, -⟩
    simp only [decide_eq_true_eq] at hx
    rw [← hx]
    exact List.getElem?_eq_getElem hi
  · intro h
    obtain ⟨hi, hx⟩ := List.getElem?_eq_some_iff.mp h
    refine ⟨hi, decide_eq_true hx, fun j hj => ?_⟩
    simp only [decide_eq_true_eq]
    intro he
    have h1 : spdlogLevels[j]? = some a.logLevel := by rw [← he]; exact List.getElem?_eq_getElem (by omega)
    have := hn i hi j (Nat.lt_trans hj hi) (by rw [h, h1])
    omega

/-- C77 as stated fails: "INFO" passes the command-line check, which ignores case, but `log_level_enum`
throws (outside any `try`). -/
theorem C77_refuted : ∃ a : Args, Args.levelAccepted a.logLevel = true ∧ a.logLevelEnum = none :=
  ⟨{ logLevel := b!"INFO" }, by decide +kernel, by decide +kernel⟩

theorem SameButCase.eq {a b : Bytes} (h : SameButCase a b) (ha : ∀ x ∈ a, ¬ Capital x) (hb : ∀ x ∈ b, ¬ Capital x) :
    a = b := by
  induction h with
  | nil => rfl
  | @cons x y xs ys h1 _ ih =>
    have e1 := ha x (by simp)
    have e2 := hb y (by simp)
    have : x = y := by
      rcases h1 with h | ⟨h, -⟩ | ⟨h, -⟩
      · exact h
      · exact absurd h e1
      · exact absurd h e2
    rw [this, ih (fun x hx => ha x (by simp [hx])) (fun x hx => hb x (by simp [hx]))]

/-- C77, what holds: a level that passes the check makes the program throw exactly if it has a capital letter;
if it has none, it is understood as spdlog's level of that name. Missing: the other spellings the check lets pass. -/
theorem C77_lower_partial (a : Args) (h : Args.levelAccepted a.logLevel = true) :
    (a.logLevelEnum = none ↔ ∃ b ∈ a.logLevel, Capital b) ∧
    ((∀ b ∈ a.logLevel, ¬ Capital b) → ∃ i, a.logLevelEnum = some i ∧ spdlogLevels[i]? = some a.logLevel) := by
  have hlow : ∀ n ∈ spdlogLevels, ∀ b ∈ n, ¬ Capital b := by unfold Capital; decide +kernel
  have h2 : (∀ b ∈ a.logLevel, ¬ Capital b) → ∃ i, a.logLevelEnum = some i ∧ spdlogLevels[i]? = some a.logLevel := by
    intro hc
    obtain ⟨n, hm, he⟩ := (C77_check _).mp h
    have := he.eq (hlow n hm) hc
    subst this
    obtain ⟨i, hi, hx⟩ := List.getElem_of_mem hm
    have hx : spdlogLevels[i]? = some a.logLevel := by rw [List.getElem?_eq_getElem hi, hx]
    exact ⟨i, (C77_enum a i).mpr hx, hx⟩
  refine ⟨⟨fun hn => ?_, fun ⟨b, hb, hcap⟩ => ?_⟩, h2⟩
  · refine Classical.byContradiction fun hno => ?_
    obtain ⟨i, hi, -⟩ := h2 (fun b hb hcap => hno ⟨b, hb, hcap⟩)
    rw [hn] at hi; cases hi
  · cases hf : a.logLevelEnum with
    | none => rfl
    | some i => exact absurd hcap (hlow _ (List.mem_of_getElem? ((C77_enum a i).mp hf)) b hb)

example : Args.levelAccepted b!"warn" = true ∧ Args.levelAccepted b!"Warn" = true ∧ Args.levelAccepted b!"warning" = false := by
  decide +kernel

end Props
end Ion
