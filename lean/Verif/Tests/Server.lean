import Verif.Props.AppFetch

/-!
# The project's router, file and server tests, run against the model

These are tests, not proofs. Router, middleware and `sanitize_path` are the unit tests; the server and static-file
tests are the integration tests, from the request to the fields the response ends with; of the system tests
(test/system), those that ask for something the model computes.
-/

namespace Ion
namespace Tests

open Server Sim Props FileReader

/-- The status of what a handler returns for an empty request. -/
def statusOf (h : Handler World) (w : World := { fs := Files.ofList [] }) : Option UInt16 :=
  match h ⟨[], [], []⟩ w with
  | (.resp r, _) => some r.status
  | _ => none

/-- A route that answers with that status. -/
def answers (code : UInt16) : Handler World := constant { status := code }

/-! ## test/unit/test_router.cpp -/

/-- return default handler if no handlers defined -/
example : statusOf (({} : Router World).getHandler World.fs b!"/" b!"GET") = some 404 := by decide +kernel

/-- return default handler if non-matched -/
example : statusOf ((({} : Router World).addRoute b!"/foo" b!"GET" (answers 200)).getHandler World.fs b!"/" b!"GET") =
    some 404 := by decide +kernel

/-- return matched handler -/
example : statusOf (((((({} : Router World).addRoute b!"/foo" b!"GET" (answers 200)).addRoute b!"/bar" b!"POST"
      (answers 201)).addRoute b!"/bar" b!"GET" (answers 202)).addRoute b!"/baz" b!"GET" (answers 203)).getHandler
      World.fs b!"/bar" b!"GET") = some 202 := by decide +kernel

/-! ## test/unit/test_router_middleware.cpp -/

/-- The middleware of the tests: 404 becomes something else. -/
def instead (code : UInt16) : Middleware World := fun next req w =>
  match next req w with
  | (.resp r, w) => (.resp (if r.status = 404 then { r with status := code } else r), w)
  | x => x

/-- manipulates added route; manipulates default handler -/
example : statusOf (((({} : Router World).addRoute b!"/foo" b!"GET" (answers 404)).addMiddleware (instead 202)).getHandler
      World.fs b!"/bar" b!"GET") = some 202 ∧
    statusOf ((({} : Router World).addMiddleware (instead 201)).getHandler World.fs b!"/bar" b!"GET") = some 201 := by
  decide +kernel

/-! ## test/unit/test_file_reader.cpp -/

/-- The directories of the test. -/
def tmp : FS := Files.ofList
  [([b!"tmp"], .dir), ([b!"tmp", b!"ion"], .dir), ([b!"tmp", b!"ion", b!"sub"], .dir)]

/-- valid relative file inside base; traversal; absolute path; non-existent base -/
example : sanitizePath tmp b!"/tmp/ion" b!"sub/file.txt" = some b!"/tmp/ion/sub/file.txt" ∧
    sanitizePath tmp b!"/tmp/ion" b!"sub/../..//secret.txt" = none ∧
    sanitizePath tmp b!"/tmp/ion" b!"/etc/passwd" = none ∧
    sanitizePath tmp b!"/tmp/no_such_base_dir_for_ion_tests" b!"index.html" = none := by decide +kernel

/-! ## test/integration/test_server.cpp -/

/-- A request for the path, and the response as it goes to the encoder. -/
def ask (r : Router World) (w : World) (path : Bytes) (method : Bytes := b!"GET") : Option HttpResponse :=
  match processRequest ⟨r.getHandler World.fs, true⟩ (Sim.init w 0) [⟨b!":method", method⟩, ⟨b!":path", path⟩] with
  | .ok (r, _) => some r
  | _ => none

/-- No files. -/
def bare : World := { fs := Files.ofList [] }

/-- returns x-powered-by header -/
example : ask {} bare b!"/" = some { status := 404, headers :=
    [⟨b!":status", b!"404"⟩, ⟨b!"server", b!"ion"⟩, ⟨b!"x-powered-by", b!"ion"⟩] } := by decide +kernel

/-- returns status code; catches any exceptions thrown in handlers -/
example : (ask (({} : Router World).addRoute b!"/" b!"GET" (answers 200)) bare b!"/").map (·.headers.head?) =
      some (some ⟨b!":status", b!"200"⟩) ∧
    (ask (({} : Router World).addRoute b!"/" b!"GET" (fun _ w => (.stdExn, w))) bare b!"/").map (·.headers.head?) =
      some (some ⟨b!":status", b!"500"⟩) := by decide +kernel

/-- returns custom headers: three besides the status -/
example : (ask (({} : Router World).addRoute b!"/hdrs" b!"GET"
      (constant { status := 200, headers := [⟨b!"x-foo", b!"bar"⟩] })) bare b!"/hdrs").map (·.headers) =
    some [⟨b!":status", b!"200"⟩, ⟨b!"x-foo", b!"bar"⟩, ⟨b!"server", b!"ion"⟩, ⟨b!"x-powered-by", b!"ion"⟩] := by
  decide +kernel

/-- returns body -/
example : ask (({} : Router World).addRoute b!"/body" b!"GET"
      (constant { status := 200, body := b!"hello", headers := [⟨b!"content-type", b!"text/plain"⟩] })) bare b!"/body" =
    some { status := 200, body := b!"hello",
           headers := [⟨b!":status", b!"200"⟩, ⟨b!"content-type", b!"text/plain"⟩, ⟨b!"content-length", b!"5"⟩,
             ⟨b!"server", b!"ion"⟩, ⟨b!"x-powered-by", b!"ion"⟩] } := by decide +kernel

/-- The certificate and the key of the tests. -/
def pem : FS := Files.ofList [([b!"cert.pem"], .file b!"c" true), ([b!"key.pem"], .file b!"k" true)]

/-- An OpenSSL that takes them. -/
def ssl : SslFiles := { useCertificate := fun _ => true, usePrivateKey := fun _ => true, keyMatches := fun _ _ => true }

/-- validates configuration -/
example : constructServer pem ssl {} = .err .certNotSet ∧
    constructServer pem ssl { certPath := some b!"cert.pem", keyPath := some b!"key.pem" } = .ok () ∧
    constructServer pem ssl { cleartext := true } = .ok () := by decide +kernel

/-! ## test/integration/test_static.cpp -/

/-- The directory test/system/static, in a checkout. -/
def checkout : World := { fs := { Files.ofList
  [([b!"ion"], .dir), ([b!"ion", b!"test"], .dir), ([b!"ion", b!"test", b!"system"], .dir),
   ([b!"ion", b!"test", b!"system", b!"static"], .dir),
   ([b!"ion", b!"test", b!"system", b!"static", b!"index.html"], .file b!"Hello from static" true),
   ([b!"ion", b!"test", b!"system", b!"static", b!"404.html"], .file b!"not here" true)] with cwd := [b!"ion"] } }

/-- The router of "basic static file mapping". -/
def mapping : Router World :=
  (({} : Router World).addStaticHandler ⟨b!"/static", b!"./test/system/static"⟩).addRoute b!"/static/some-route" b!"GET"
    (answers 204)

/-- Status, content type and body of the answer. -/
def brief (r : Option HttpResponse) : Option (UInt16 × Option Bytes × Bytes) :=
  r.map fun r => (r.status, getHeader r.headers b!"content-type", r.body)

/-- serves index.html explicitly; maps /static and /static/ to index.html; strips query
string -/
example : [b!"/static/index.html", b!"/static", b!"/static/", b!"/static/index.html?v=1"].map
      (fun p => brief (ask mapping checkout p)) =
    List.replicate 4 (some (200, some b!"text/html; charset=utf-8", b!"Hello from static")) := by decide +kernel

/-- supports HEAD requests -/
example : brief (ask mapping checkout b!"/static/index.html" b!"HEAD") =
    some (200, some b!"text/html; charset=utf-8", []) := by decide +kernel

/-- returns 404 for missing file; blocks directory traversal attempts; prioritises explicit routes -/
example : brief (ask mapping checkout b!"/static/missing.txt") = some (404, none, []) ∧
    brief (ask mapping checkout b!"/static/../secret.txt") = some (403, none, []) ∧
    brief (ask mapping checkout b!"/static/some-route") = some (204, none, []) := by decide +kernel

/-- intercepts static file not found error -/
example : brief (ask ((({} : Router World).addMiddleware (instead 202)).addStaticHandler
    ⟨b!"/static", b!"./test/system/static"⟩) checkout b!"/static/missing.txt") = some (202, none, []) := by
  decide +kernel

/-! ## test/system -/

/-- The router of the program. -/
def app (a : Args) : Router World := a.router (fun _ _ _ _ => b!"page")

/-- test_curl.py, test_security.py: the test routes, with and without `--under-test` -/
example : [b!"/_tests/ok", b!"/_tests/no_content", b!"/_tests/no_new_privs"].map
      (fun p => (ask (app { underTest := true }) bare p).map (·.status)) = [some 200, some 204, some 200] ∧
    (ask (app {}) bare b!"/_tests/ok").map (·.status) = some 404 := by decide +kernel

/-- test_httpx.py: the body of 128 KiB; test_curl.py: the body of 2 MiB -/
example : (∃ r w, (app { underTest := true }).getHandler World.fs b!"/_tests/medium_body" b!"GET" ⟨[], [], []⟩ bare =
      (.resp r, w) ∧ r.body.length = 128 * 1024) ∧
    (∃ r w, (app { underTest := true }).getHandler World.fs b!"/_tests/large_body" b!"GET" ⟨[], [], []⟩ bare =
      (.resp r, w) ∧ r.body.length = 2 * 1024 * 1024) :=
  ⟨⟨{ status := 200, body := List.replicate (128 * 1024) 0x41 }, bare, by
      have : Router.findRoute b!"/_tests/medium_body" b!"GET" (app { underTest := true }).routes =
        some (constant { status := 200, body := List.replicate (128 * 1024) 0x41 }) := rfl
      simp only [Router.getHandler, this]
      rfl, List.length_replicate⟩,
   ⟨{ status := 200, body := List.replicate (2 * 1024 * 1024) 0x41 }, bare, by
      have : Router.findRoute b!"/_tests/large_body" b!"GET" (app { underTest := true }).routes =
        some (constant { status := 200, body := List.replicate (2 * 1024 * 1024) 0x41 }) := rfl
      simp only [Router.getHandler, this]
      rfl, List.length_replicate⟩⟩

/-- the custom page for 404, and the status page -/
example : brief (ask (app { status404FilePath := b!"./test/system/static/404.html" }) checkout b!"/no") =
      some (404, some b!"text/html; charset=utf-8", b!"not here") ∧
    (ask (app { statusPage := true }) bare b!"/_ion/status").map
      (fun r => (r.status, getHeader r.headers b!"content-type", getHeader r.headers b!"cache-control")) =
      some (200, some b!"text/html; charset=utf-8", some b!"no-store") := by decide +kernel

/-- How many connections are left after these events. -/
def open_ (cfg : Cfg World) (evs : List PollEv) : Option Nat :=
  match handleEvents cfg evs (begin bare 3 true false) with
  | .ok s => some s.conns.length
  | _ => none

/-- test_curl.py, test_drops_http1_connections -/
example : open_ hiCfg [exAccept 5, exRead 5 (exEnv b!"GET /_tests/ok HTTP/1.1\x0d\x0aHost: localhost:8080\x0d\x0a\x0d\x0a" [])] =
    some 0 := by decide +kernel

/-- test_hyperh2.py, test_server_rejects_oversized_frame_header: 256 KiB announced -/
example : open_ hiCfg [exAccept 5, exRead 5 (exEnv (Spec.preface ++ [0x04, 0, 0, 0, 0, 0, 0, 0, 1]) [27])] = some 0 := by
  decide +kernel

/-- test_hyperh2.py, test_server_connection_limit: of 130 connections 128 are kept -/
example : open_ hiCfg ((List.range 130).map fun i => exAccept (i + 5)) = some 128 := by decide +kernel

end Tests
end Ion
