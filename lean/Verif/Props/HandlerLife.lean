import Verif.Model.HandlerLife
import Verif.Props.Router

/-! # How long a handler can be used (C145) -/

namespace Ion
namespace HandlerLife

variable {W : Type}

/-- The method string and the static handlers are left alone. -/
def Harmless (method : Nat) : Op W → Prop
  | .set i _ => i ≠ method
  | .destroy i => i ≠ method
  | .addStatic _ => False
  | _ => True

theorem pick_spec (fsOf : W → FS) (o : Objects W) (chain : Middleware W) (path m : Bytes) (method : Nat)
    (hm : o.strings method = some m) : ∀ (hs pre : List StaticFileHandler) (t : Target W) (h : Handler W),
    o.router.statics = pre ++ hs → Got.call fsOf o ⟨chain, t⟩ = .ok (chain h) →
    Got.call fsOf o ⟨chain, pick o.alloc path method pre.length hs t⟩ =
      .ok (chain (Router.pickStatic fsOf path m hs h)) := by
  intro hs
  induction hs with
  | nil => intro pre t h _ ht; exact ht
  | cons x xs ih =>
    intro pre t h hs ht
    rw [pick, Router.pickStatic]
    have := ih (pre ++ [x]) (if x.matches path then .static o.alloc pre.length path method else t)
      (if x.matches path then Router.staticTarget fsOf x path m else h) (by rw [hs]; simp) ?_
    · rwa [List.length_append, List.length_singleton] at this
    · split
      · simp [Got.call, hs, hm]
      · exact ht

/-- What is called at once is what the router has for the path and method. -/
theorem get_call (fsOf : W → FS) (o : Objects W) (path : Bytes) (method : Nat) (m : Bytes)
    (hm : o.strings method = some m) :
    ∃ g, get o path method = .ok g ∧ g.call fsOf o = .ok (o.router.getHandler fsOf path m) := by
  simp only [get, hm, Router.getHandler]
  refine ⟨_, rfl, ?_⟩
  cases Router.findRoute path m o.router.routes with
  | some h => rfl
  | none =>
    simp only
    split
    · exact pick_spec fsOf o o.router.chain path m method hm o.router.statics [] _ _ rfl rfl
    · rfl

theorem pick_refers (alloc : Nat) (path : Bytes) (method : Nat) : ∀ (hs : List StaticFileHandler) (i : Nat) (t : Target W),
    (∀ a j p n, t = .static a j p n → n = method) →
    ∀ a j p n, pick alloc path method i hs t = .static a j p n → n = method := by
  intro hs
  induction hs with
  | nil => intro i t h; exact h
  | cons x xs ih =>
    intro i t h
    rw [pick]
    refine ih _ _ ?_
    intro a j p n e
    split at e
    · cases e; rfl
    · exact h a j p n e

/-- A handler refers to no string but the method it was asked for with. -/
theorem get_refers {o : Objects W} {path : Bytes} {method : Nat} {g : Got W} (hg : get o path method = .ok g) :
    ∀ a j p n, g.target = .static a j p n → n = method := by
  simp only [get] at hg
  split at hg
  · cases hg
  · cases hg
    simp only
    split
    · intro a j p n e; cases e
    · split
      · exact pick_refers _ _ _ _ _ _ (by intro a j p n e; cases e)
      · intro a j p n e; cases e

theorem harmless_call (fsOf : W → FS) (g : Got W) (method : Nat) (hg : ∀ a j p n, g.target = .static a j p n → n = method)
    (op : Op W) (h : Harmless method op) (o : Objects W) : g.call fsOf (op.apply o) = g.call fsOf o := by
  obtain ⟨c, t⟩ := g
  cases t with
  | own x => rfl
  | static a j p n =>
    obtain rfl := hg a j p n rfl
    cases op with
    | set i v => simp only [Got.call, Op.apply, if_neg (Ne.symm h)]
    | destroy i => simp only [Got.call, Op.apply, if_neg (Ne.symm h)]
    | addRoute p m x => rfl
    | addStatic x => exact h.elim
    | addMiddleware mw => rfl

/-- C145, what is true of it: a handler can be called, and is the one the router had for the path and method when it
was asked for, as long as the string with the method was not changed or destroyed and no static handler was added
since; routes, middleware and other strings may come and go. Missing: changes of those two, see `C145_refuted`. -/
theorem C145_usable_partial (fsOf : W → FS) (o : Objects W) (path : Bytes) (method : Nat) (m : Bytes)
    (hm : o.strings method = some m) :
    ∃ g, get o path method = .ok g ∧ ∀ later : List (Op W), (∀ op ∈ later, Harmless method op) →
      g.call fsOf (after later o) = .ok (o.router.getHandler fsOf path m) := by
  obtain ⟨g, h1, h2⟩ := get_call fsOf o path method m hm
  refine ⟨g, h1, ?_⟩
  have hg := get_refers h1
  intro later
  rw [← h2]
  generalize o = o'
  induction later generalizing o' with
  | nil => intro _; rfl
  | cons op later ih =>
    intro h
    show g.call fsOf (after later (op.apply o')) = _
    rw [ih (op.apply o') (fun x hx => h x (by simp [hx])), harmless_call fsOf g method hg op (h op (by simp))]

/-- C145 for handlers of routes and of unknown targets: they can be used whatever happens later. -/
theorem C145_owned (fsOf : W → FS) (o : Objects W) (path : Bytes) (method : Nat) (m : Bytes)
    (hm : o.strings method = some m)
    (hr : (∃ r ∈ o.router.routes, r.path = path ∧ r.method = m) ∨ (m ≠ b!"GET" ∧ m ≠ b!"HEAD") ∨
      ∀ s ∈ o.router.statics, ¬ s.urlPrefix <+: path) :
    ∃ g, get o path method = .ok g ∧ ∀ later : List (Op W),
      g.call fsOf (after later o) = .ok (o.router.getHandler fsOf path m) := by
  obtain ⟨g, h1, h2⟩ := get_call fsOf o path method m hm
  refine ⟨g, h1, ?_⟩
  have : ∃ h, g.target = .own h := by
    simp only [get, hm] at h1
    cases h1
    simp only
    cases hf : Router.findRoute path m o.router.routes with
    | some h => exact ⟨h, rfl⟩
    | none =>
      simp only
      split
      · rename_i hgm
        have hn : ∀ s ∈ o.router.statics, ¬ s.urlPrefix <+: path := by
          rcases hr with ⟨r, hr, h3, h4⟩ | h | h
          · exfalso
            have key : ∀ l : List (Route W), r ∈ l → Router.findRoute path m l ≠ none := by
              intro l
              induction l with
              | nil => intro h; cases h
              | cons x xs ih =>
                intro h
                rw [Router.findRoute]
                split
                · simp
                · rename_i hx
                  rcases List.mem_cons.mp h with rfl | h
                  · exact absurd ⟨h3, h4⟩ hx
                  · exact ih h
            exact key _ hr hf
          · rcases hgm with e | e
            · exact absurd e h.1
            · exact absurd e h.2
          · exact h
        have key : ∀ (l : List StaticFileHandler) (i : Nat) (t : Target W), (∀ s ∈ l, ¬ s.urlPrefix <+: path) →
            pick o.alloc path method i l t = t := by
          intro l
          induction l with
          | nil => intro i t _; rfl
          | cons x xs ih =>
            intro i t h
            rw [pick, if_neg (by rw [Props.matches_iff]; exact h x (by simp)), ih _ _ (fun s hs => h s (by simp [hs]))]
        exact ⟨_, key _ _ _ hn⟩
      · exact ⟨_, rfl⟩
  obtain ⟨h, ht⟩ := this
  intro later
  rw [← h2]
  simp only [Got.call, ht]

/-- C145 for connections: every request is handled by what the router has for its path and method, and nothing that
is gone is used. -/
theorem C145_request (fsOf : W → FS) (o : Objects W) (s : Nat) (path method : Bytes) :
    request fsOf o s path method = .ok (o.router.getHandler fsOf path method) := by
  obtain ⟨g, h1, h2⟩ := get_call fsOf (Op.apply o (.set s method)) path s method (by simp [Op.apply])
  simp only [request, h1, h2]
  rfl

/-- A file below a prefix. -/
def exObjects : Objects FS := after [.addStatic ⟨b!"/static", b!"/srv"⟩, .set 0 b!"GET"]

/-- C145 is false: (1) the handler for a static file, made for a method string that is then destroyed (as that of
`get_handler("/static/a", "GET")` is, at the end of the expression), is undefined when called; (2) so it is after
another static handler was added; (3) if the string is changed, the answer changes. -/
theorem C145_refuted : ∃ g, get exObjects b!"/static/a" 0 = .ok g ∧
    g.call id (after [.destroy 0] exObjects) = .ub .dangling ∧
    g.call id (after [.addStatic ⟨b!"/x", b!"/x"⟩] exObjects) = .ub .dangling ∧
    ∃ (fs : FS) (h h' : Handler FS) (req : HttpRequest) (r r' : HttpResponse), g.call id exObjects = .ok h ∧
      g.call id (after [.set 0 b!"HEAD"] exObjects) = .ok h' ∧ (h req fs).1 = .resp r ∧ (h' req fs).1 = .resp r' ∧
      r.body = b!"hello" ∧ r'.body = [] := by
  refine ⟨_, rfl, rfl, rfl, { node := fun l => match l with
      | [] => some .dir
      | [x] => if x = b!"srv" then some .dir else none
      | [x, y] => if x = b!"srv" ∧ y = b!"a" then some (.file b!"hello" true) else none
      | _ => none }, _, _, ⟨b!"GET", b!"/static/a", []⟩, _, _, rfl, rfl, rfl, rfl, ?_, ?_⟩
  · decide +kernel
  · decide +kernel

/-- Harmless: a route is added, another string comes and goes; the handler is for a static file. -/
example : exObjects.strings 0 = some b!"GET" ∧
    (∀ op ∈ [Op.set 1 b!"HEAD", .addRoute b!"/static/a" b!"GET" Router.defaultHandler, .destroy 1], Harmless (W := FS) 0 op) ∧
    ∃ g, get exObjects b!"/static/a" 0 = .ok g ∧ ∃ p n, g.target = .static 1 0 p n :=
  ⟨rfl, by simp [Harmless], _, rfl, _, _, rfl⟩

end HandlerLife
end Ion
