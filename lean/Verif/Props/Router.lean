import Verif.Model.Router

/-! # Routing (C49-C51)

Every history of registrations is covered: `build ops` is the router after them. -/

namespace Ion
namespace Props

open Router

variable {W : Type}

/-- A registration. -/
inductive Op (W : Type) where
  | route (path method : Bytes) (h : Handler W)
  | static (h : StaticFileHandler)
  | middleware (mw : Middleware W)

/-- The router's method for a registration. -/
def Op.apply (r : Router W) : Op W → Router W
  | .route p m h => r.addRoute p m h
  | .static h => r.addStaticHandler h
  | .middleware mw => r.addMiddleware mw

/-- The router after a history of registrations. -/
def build (ops : List (Op W)) : Router W := ops.foldl Op.apply {}

/-- The middleware registered, in order. -/
def middlewares : List (Op W) → List (Middleware W)
  | [] => []
  | .middleware mw :: ops => mw :: middlewares ops
  | .route _ _ _ :: ops => middlewares ops
  | .static _ :: ops => middlewares ops

/-- The first registered is outermost. -/
def wrapped : List (Middleware W) → Handler W → Handler W
  | [], h => h
  | mw :: rest, h => mw (wrapped rest h)

/-! ## What registrations leave behind -/

def opRoutes : List (Op W) → List (Route W)
  | [] => []
  | .route p m h :: ops => ⟨p, m, h⟩ :: opRoutes ops
  | .static _ :: ops => opRoutes ops
  | .middleware _ :: ops => opRoutes ops

def opStatics : List (Op W) → List StaticFileHandler
  | [] => []
  | .static h :: ops => h :: opStatics ops
  | .route _ _ _ :: ops => opStatics ops
  | .middleware _ :: ops => opStatics ops

theorem foldl_fields (ops : List (Op W)) : ∀ r : Router W,
    (ops.foldl Op.apply r).routes = r.routes ++ opRoutes ops ∧
    (ops.foldl Op.apply r).statics = r.statics ++ opStatics ops ∧
    ∀ h, (ops.foldl Op.apply r).chain h = r.chain (wrapped (middlewares ops) h) := by
  induction ops with
  | nil => intro r; simp [opRoutes, opStatics, middlewares, wrapped]
  | cons o ops ih =>
    intro r
    obtain ⟨h1, h2, h3⟩ := ih (o.apply r)
    rw [List.foldl_cons, h1, h2]
    refine ⟨?_, ?_, fun h => (h3 h).trans ?_⟩ <;> cases o <;>
      simp [Op.apply, opRoutes, opStatics, middlewares, wrapped, addRoute, addStaticHandler, addMiddleware]

theorem build_fields (ops : List (Op W)) : (build ops).routes = opRoutes ops ∧
    (build ops).statics = opStatics ops ∧ ∀ h, (build ops).chain h = wrapped (middlewares ops) h := by
  have := foldl_fields ops {}
  simpa [build] using this

theorem findRoute_append (p m : Bytes) (a b : List (Route W)) :
    findRoute p m (a ++ b) = (findRoute p m a).or (findRoute p m b) := by
  induction a with
  | nil => simp [findRoute]
  | cons r rs ih =>
    rw [List.cons_append, findRoute, findRoute]
    split <;> simp [ih]

theorem opRoutes_append (a b : List (Op W)) : opRoutes (a ++ b) = opRoutes a ++ opRoutes b := by
  induction a with
  | nil => rfl
  | cons o ops ih => cases o <;> simp [opRoutes, ih]

theorem opStatics_append (a b : List (Op W)) : opStatics (a ++ b) = opStatics a ++ opStatics b := by
  induction a with
  | nil => rfl
  | cons o ops ih => cases o <;> simp [opStatics, ih]

theorem mem_opStatics {s : StaticFileHandler} {ops : List (Op W)} : s ∈ opStatics ops ↔ Op.static s ∈ ops := by
  induction ops with
  | nil => simp [opStatics]
  | cons o ops ih => cases o <;> simp [opStatics, ih]

theorem findRoute_none {p m : Bytes} {ops : List (Op W)} (h : ∀ h', Op.route p m h' ∉ ops) :
    findRoute p m (opRoutes ops) = none := by
  induction ops with
  | nil => rfl
  | cons o ops ih =>
    have ih := ih (fun h' hm => h h' (by simp [hm]))
    cases o with
    | route p' m' h0 =>
      rw [opRoutes, findRoute, if_neg, ih]
      rintro ⟨h1, h2⟩
      simp only at h1 h2
      subst h1; subst h2
      exact h h0 (by simp)
    | static s => exact ih
    | middleware mw => exact ih

theorem matches_iff (s : StaticFileHandler) (p : Bytes) : s.matches p = true ↔ s.urlPrefix <+: p := by
  rw [StaticFileHandler.matches, List.isPrefixOf_iff_prefix]

theorem pickStatic_none (fsOf : W → FS) (p m : Bytes) (hs : List StaticFileHandler) (t : Handler W)
    (h : ∀ s ∈ hs, ¬ s.urlPrefix <+: p) : pickStatic fsOf p m hs t = t := by
  induction hs generalizing t with
  | nil => rfl
  | cons s hs ih =>
    rw [pickStatic, if_neg (by rw [matches_iff]; exact h s (by simp))]
    exact ih t (fun s' hs' => h s' (by simp [hs']))

theorem pickStatic_append (fsOf : W → FS) (p m : Bytes) (a b : List StaticFileHandler) (t : Handler W) :
    pickStatic fsOf p m (a ++ b) t = pickStatic fsOf p m b (pickStatic fsOf p m a t) := by
  induction a generalizing t with
  | nil => rfl
  | cons s hs ih => rw [List.cons_append, pickStatic, pickStatic, ih]

/-! ## C49 -/

/-- C49. After any registrations, the handler for a path and method is the one of the first route
registered for exactly that path and method, inside the middleware. -/
theorem C49_route (fsOf : W → FS) (p m : Bytes) (h : Handler W) (before after : List (Op W))
    (hfirst : ∀ h', Op.route p m h' ∉ before) :
    (build (before ++ Op.route p m h :: after)).getHandler fsOf p m =
      wrapped (middlewares (before ++ Op.route p m h :: after)) h := by
  obtain ⟨h1, _, h3⟩ := build_fields (before ++ Op.route p m h :: after)
  rw [getHandler, h3, h1, opRoutes_append, findRoute_append, findRoute_none hfirst, opRoutes, findRoute, if_pos ⟨rfl, rfl⟩]
  rfl

/-- C49, otherwise: no such route, and the method is neither GET nor HEAD or no static prefix fits:
the answer is a bare 404, inside the middleware. -/
theorem C49_none (fsOf : W → FS) (p m : Bytes) (ops : List (Op W)) (hno : ∀ h, Op.route p m h ∉ ops)
    (hs : (m ≠ b!"GET" ∧ m ≠ b!"HEAD") ∨ ∀ s, Op.static s ∈ ops → ¬ s.urlPrefix <+: p) :
    (build ops).getHandler fsOf p m =
      wrapped (middlewares ops) (fun _ w => (.resp { status := 404 }, w)) := by
  obtain ⟨h1, h2, h3⟩ := build_fields ops
  rw [getHandler, h3, h1, findRoute_none hno]
  simp only
  split
  · rename_i hm
    rcases hs with ⟨ha, hb⟩ | hs
    · rcases hm with hm | hm
      · exact absurd hm ha
      · exact absurd hm hb
    · rw [h2, pickStatic_none fsOf p m _ _ (fun s hm => hs s (mem_opStatics.mp hm))]
      rfl
  · rfl

/-! ## C50 -/

/-- C50. With no such route, for GET and HEAD the last registered static handler whose prefix fits is
used, and told whether the method is HEAD. -/
theorem C50_static (fsOf : W → FS) (p m : Bytes) (s : StaticFileHandler) (before after : List (Op W))
    (hno : ∀ h, Op.route p m h ∉ before ++ Op.static s :: after)
    (hm : m = b!"GET" ∨ m = b!"HEAD") (hs : s.urlPrefix <+: p)
    (hlast : ∀ s', Op.static s' ∈ after → ¬ s'.urlPrefix <+: p) :
    (build (before ++ Op.static s :: after)).getHandler fsOf p m =
      wrapped (middlewares (before ++ Op.static s :: after))
        (fun _ w => (.resp (s.handle (fsOf w) p (decide (m = b!"HEAD"))), w)) := by
  obtain ⟨h1, h2, h3⟩ := build_fields (before ++ Op.static s :: after)
  rw [getHandler, h3, h1, findRoute_none hno]
  simp only
  rw [if_pos hm, h2, opStatics_append, opStatics, pickStatic_append, pickStatic,
    if_pos ((matches_iff s p).mpr hs),
    pickStatic_none fsOf p m _ _ (fun s' hs' => hlast s' (mem_opStatics.mp hs'))]
  rfl

/-- The three cases are all there are. -/
theorem C50_cases (p m : Bytes) (ops : List (Op W)) :
    (∃ before h after, ops = before ++ Op.route p m h :: after ∧ ∀ h', Op.route p m h' ∉ before) ∨
    ((∀ h, Op.route p m h ∉ ops) ∧ (m = b!"GET" ∨ m = b!"HEAD") ∧ ∃ before s after,
      ops = before ++ Op.static s :: after ∧ s.urlPrefix <+: p ∧
      ∀ s', Op.static s' ∈ after → ¬ s'.urlPrefix <+: p) ∨
    ((∀ h, Op.route p m h ∉ ops) ∧
      ((m ≠ b!"GET" ∧ m ≠ b!"HEAD") ∨ ∀ s, Op.static s ∈ ops → ¬ s.urlPrefix <+: p)) := by
  have hroute : (∃ before h after, ops = before ++ Op.route p m h :: after ∧ ∀ h', Op.route p m h' ∉ before) ∨
      (∀ h, Op.route p m h ∉ ops) := by
    induction ops with
    | nil => right; simp
    | cons o ops ih =>
      by_cases ho : ∃ h, o = Op.route p m h
      · obtain ⟨h, rfl⟩ := ho
        exact Or.inl ⟨[], h, ops, rfl, by simp⟩
      · rcases ih with ⟨b, h, a, rfl, hb⟩ | hn
        · refine Or.inl ⟨o :: b, h, a, rfl, ?_⟩
          intro h' hm
          rcases List.mem_cons.mp hm with hm | hm
          · exact ho ⟨h', hm.symm⟩
          · exact hb h' hm
        · refine Or.inr ?_
          intro h' hm
          rcases List.mem_cons.mp hm with hm | hm
          · exact ho ⟨h', hm.symm⟩
          · exact hn h' hm
  have hstatic : (∃ before s after, ops = before ++ Op.static s :: after ∧ s.urlPrefix <+: p ∧
      ∀ s', Op.static s' ∈ after → ¬ s'.urlPrefix <+: p) ∨ ∀ s, Op.static s ∈ ops → ¬ s.urlPrefix <+: p := by
    clear hroute
    induction ops with
    | nil => right; simp
    | cons o ops ih =>
      rcases ih with ⟨b, s, a, rfl, hs, ha⟩ | hn
      · exact Or.inl ⟨o :: b, s, a, rfl, hs, ha⟩
      · by_cases ho : ∃ s, o = Op.static s ∧ s.urlPrefix <+: p
        · obtain ⟨s, rfl, hs⟩ := ho
          exact Or.inl ⟨[], s, ops, rfl, hs, hn⟩
        · refine Or.inr ?_
          intro s hm hp
          rcases List.mem_cons.mp hm with hm | hm
          · exact ho ⟨s, hm.symm, hp⟩
          · exact hn s hm hp
  rcases hroute with h | hno
  · exact Or.inl h
  · rcases hstatic with h | h
    · by_cases hm : m = b!"GET" ∨ m = b!"HEAD"
      · exact Or.inr (Or.inl ⟨hno, hm, h⟩)
      · exact Or.inr (Or.inr ⟨hno, Or.inl (by simpa using hm)⟩)
    · exact Or.inr (Or.inr ⟨hno, Or.inr h⟩)

/-! ## C51 -/

/-- C51. Whatever the request, the handler returned is some handler wrapped in all the middleware, the
first registered outermost. -/
theorem C51_always (fsOf : W → FS) (ops : List (Op W)) (p m : Bytes) :
    ∃ target, (build ops).getHandler fsOf p m = wrapped (middlewares ops) target := by
  obtain ⟨_, _, h3⟩ := build_fields ops
  exact ⟨_, h3 _⟩

/-- Middleware that records when it is entered and left. -/
def recording (enter leave : Nat → W → W) (i : Nat) : Middleware W := fun next req w =>
  let (o, w) := next req (enter i w)
  (o, leave i w)

/-- C51, seen from the outside: with recording middleware registered as `ids`, in this order, a request
enters each exactly once in that order, then reaches the target, then leaves them in reverse order. -/
theorem C51_order (ids : List Nat) (target : Handler (List (Bool × Nat))) (req : HttpRequest)
    (log : List (Bool × Nat)) :
    wrapped (ids.map (recording (fun i l => l ++ [(true, i)]) (fun i l => l ++ [(false, i)]))) target req log =
      ((target req (log ++ ids.map (fun i => (true, i)))).1,
       (target req (log ++ ids.map (fun i => (true, i)))).2 ++ ids.reverse.map (fun i => (false, i))) := by
  induction ids generalizing log with
  | nil => simp [wrapped]
  | cons i ids ih =>
    simp only [List.map_cons, wrapped, recording, ih]
    simp [List.append_assoc]

/-! ## Examples -/

section Examples

def exHandler (n : UInt16) : Handler Unit := fun _ w => (.resp { status := n }, w)
def exFs : Unit → FS := fun _ => { node := fun _ => none }
def exOps : List (Op Unit) :=
  [.route b!"/a" b!"POST" (exHandler 201), .static ⟨b!"/", b!"/x"⟩, .middleware (fun h => h),
   .route b!"/a" b!"GET" (exHandler 200), .route b!"/a" b!"GET" (exHandler 202), .static ⟨b!"/s", b!"/y"⟩]

/-- The first of two equal routes; a path that is only a prefix falls through to the static handler
(here an absent directory, hence 403); other methods get 404. -/
example : ((build exOps).getHandler exFs b!"/a" b!"GET" ⟨[], [], []⟩ ()).1 = .resp { status := 200 } ∧
    ((build exOps).getHandler exFs b!"/a/" b!"GET" ⟨[], [], []⟩ ()).1 = .resp { status := 403 } ∧
    ((build exOps).getHandler exFs b!"/a/" b!"PUT" ⟨[], [], []⟩ ()).1 = .resp { status := 404 } := by
  decide +kernel

/-- The hypotheses of `C49_route` and `C50_static` on this history. -/
example : (∀ h', Op.route b!"/a" b!"GET" h' ∉ exOps.take 3) ∧
    (∀ h, Op.route b!"/s/x" b!"HEAD" h ∉ exOps) ∧ b!"/s" <+: b!"/s/x" := by
  refine ⟨by intro h'; simp [exOps], by intro h; simp [exOps], by decide⟩

end Examples

end Props
end Ion
