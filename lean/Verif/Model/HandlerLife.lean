import Verif.Model.Router

/-!
# What the handlers of `lib/router.cpp` refer to

`get_handler` returns a function object. That for a static handler refers to the caller's method string and to an
element of the router's vector (`&method`, `&handler`, lib/router.cpp:27); the other ones own what they use. The
objects here are those whose lifetimes matter: strings and the allocation in which the vector keeps its elements.
-/

namespace Ion
namespace HandlerLife

variable {W : Type}

/-- A router, the allocation that holds the elements of `static_handlers_` (lib/router.h:32) and for how many it has
room, and the strings that exist. -/
structure Objects (W : Type) where
  router : Router W := {}
  alloc : Nat := 0
  room : Nat := 0
  strings : Nat → Option Bytes := fun _ => none

/-- The `target` of `get_handler`: a copy of a `std::function` (lib/router.cpp:12,17), or the lambda of
lib/router.cpp:27-29 with a reference to an element of the vector, the path, and a reference to the method. -/
inductive Target (W : Type) where
  | own (h : Handler W)
  | static (alloc index : Nat) (path : Bytes) (method : Nat)

/-- What `get_handler` returns: the target inside the middleware of that time (lib/router.cpp:35). -/
structure Got (W : Type) where
  chain : Middleware W
  target : Target W

/-- The loop of lib/router.cpp:25-31. -/
def pick (alloc : Nat) (path : Bytes) (method : Nat) : Nat → List StaticFileHandler → Target W → Target W
  | _, [], target => target
  | i, h :: hs, target =>
    pick alloc path method (i + 1) hs (if h.matches path then .static alloc i path method else target)

/-- `get_handler(path, method)` (lib/router.cpp:11-36), called with a reference to a string. -/
def get (o : Objects W) (path : Bytes) (method : Nat) : Outcome Unit (Got W) :=
  match o.strings method with
  | none => .ub .dangling
  | some m => .ok ⟨o.router.chain,
      match Router.findRoute path m o.router.routes with
      | some h => .own h
      | none =>
        if m = b!"GET" ∨ m = b!"HEAD" then pick o.alloc path method 0 o.router.statics (.own Router.defaultHandler)
        else .own Router.defaultHandler⟩

/-- Calling what `get_handler` returned: the function it is, unless an object it refers to is gone. (A middleware that
does not call on would not notice; that is not distinguished.) -/
def Got.call (fsOf : W → FS) (o : Objects W) (g : Got W) : Outcome Unit (Handler W) :=
  match g.target with
  | .own h => .ok (g.chain h)
  | .static alloc index path method =>
    if alloc ≠ o.alloc then .ub .dangling else
    match o.router.statics[index]?, o.strings method with
    | some h, some m => .ok (g.chain (Router.staticTarget fsOf h path m))
    | _, _ => .ub .dangling

/-- What the program may do in between. -/
inductive Op (W : Type) where
  | set (string : Nat) (value : Bytes)
  | destroy (string : Nat)
  | addRoute (path method : Bytes) (h : Handler W)
  | addStatic (h : StaticFileHandler)
  | addMiddleware (mw : Middleware W)

/-- Their effects. `push_back` moves the elements if there is no room (lib/router.cpp:38-53). -/
def Op.apply (o : Objects W) : Op W → Objects W
  | .set i v => { o with strings := fun j => if j = i then some v else o.strings j }
  | .destroy i => { o with strings := fun j => if j = i then none else o.strings j }
  | .addRoute p m h => { o with router := o.router.addRoute p m h }
  | .addStatic h =>
    let o := if o.router.statics.length < o.room then o else { o with alloc := o.alloc + 1, room := 2 * o.room + 1 }
    { o with router := o.router.addStaticHandler h }
  | .addMiddleware mw => { o with router := o.router.addMiddleware mw }

/-- The program from its start. -/
def after (ops : List (Op W)) (o : Objects W := {}) : Objects W := ops.foldl Op.apply o

/-- How a connection uses the router (lib/http2_conn.cpp:445-462): the method is a string of its own, which lives
until the handler has returned. -/
def request (fsOf : W → FS) (o : Objects W) (local_ : Nat) (path method : Bytes) : Outcome Unit (Handler W) :=
  let o := Op.apply o (.set local_ method)
  match get o path local_ with
  | .ok g => g.call fsOf o
  | .err e => .err e
  | .ub u => .ub u

end HandlerLife
end Ion
