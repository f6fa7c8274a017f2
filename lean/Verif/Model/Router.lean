import Verif.Model.StaticFiles

/-!
# `lib/router.cpp`

The handlers' shared state `W` contains the file system, found by `fsOf`.
-/

namespace Ion

variable {W : Type}

/-- A `Middleware` (lib/router.h:13). -/
abbrev Middleware (W : Type) := Handler W → Handler W

/-- `Route` (lib/router.h:15-19). -/
structure Route (W : Type) where
  path : Bytes
  method : Bytes
  handler : Handler W

/-- `Router` (lib/router.h:21-35). -/
structure Router (W : Type) where
  routes : List (Route W) := []
  statics : List StaticFileHandler := []
  chain : Middleware W := fun h => h

namespace Router

/-- `default_handler_` (lib/router.cpp:7-9). -/
def defaultHandler : Handler W := fun _ w => (.resp { status := 404 }, w)

/-- The lambda of lib/router.cpp:27-29. -/
def staticTarget (fsOf : W → FS) (h : StaticFileHandler) (path method : Bytes) : Handler W :=
  fun _ w => (.resp (h.handle (fsOf w) path (method = b!"HEAD")), w)

/-- The loop of lib/router.cpp:15-21: the handler of the first route with this path and method. -/
def findRoute (path method : Bytes) : List (Route W) → Option (Handler W)
  | [] => none
  | r :: rs => if r.path = path ∧ r.method = method then some r.handler else findRoute path method rs

/-- The loop of lib/router.cpp:25-31: every matching static handler replaces the target. -/
def pickStatic (fsOf : W → FS) (path method : Bytes) : List StaticFileHandler → Handler W → Handler W
  | [], target => target
  | h :: hs, target =>
    pickStatic fsOf path method hs (if h.matches path then staticTarget fsOf h path method else target)

/-- `get_handler` (lib/router.cpp:11-36). -/
def getHandler (fsOf : W → FS) (r : Router W) (path method : Bytes) : Handler W :=
  let target :=
    match findRoute path method r.routes with
    | some h => h
    | none =>
      if method = b!"GET" ∨ method = b!"HEAD" then pickStatic fsOf path method r.statics defaultHandler
      else defaultHandler
  r.chain target

/-- `add_route` (lib/router.cpp:38-42). -/
def addRoute (r : Router W) (path method : Bytes) (handler : Handler W) : Router W :=
  { r with routes := r.routes ++ [⟨path, method, handler⟩] }

/-- `add_static_handler` (lib/router.cpp:44-46). -/
def addStaticHandler (r : Router W) (h : StaticFileHandler) : Router W :=
  { r with statics := r.statics ++ [h] }

/-- `add_middleware` (lib/router.cpp:48-53). -/
def addMiddleware (r : Router W) (mw : Middleware W) : Router W :=
  let current := r.chain
  { r with chain := fun h => current (mw h) }

end Router
end Ion
