import Verif.Model.Router

/-!
# The application: `app/main.cpp`, `app/args.cpp`, `app/test_routes.cpp`, `app/status_page.cpp`,
`app/server_stats.cpp`, `lib/access_log.cpp`, `lib/server_config.cpp`

Not modelled: the command-line library (its result is the `Args`), telemetry, log output other than the
access log's line, the HTML around the numbers of the status page (a parameter), the random server id.
-/

namespace Ion

/-! ## Configuration -/

/-- `Args` (app/args.h:12-29), as parsed. -/
structure Args where
  port : UInt16 := 8443
  logLevel : Bytes := b!"info"
  staticMap : List Bytes := []
  accessLogPath : Bytes := []
  cleartext : Bool := false
  certPath : Bytes := []
  keyPath : Bytes := []
  underTest : Bool := false
  status404FilePath : Bytes := []
  statusPage : Bool := false
deriving DecidableEq, Repr

/-- `ServerConfiguration` (lib/server_config.h:9-16). -/
structure ServerConfiguration where
  certPath : Option Bytes := none
  keyPath : Option Bytes := none
  cleartext : Bool := false
deriving DecidableEq, Repr

namespace Args

/-- `to_server_config` (app/args.cpp:60-71); the last assignment overrides the one before it. -/
def toServerConfig (a : Args) : ServerConfiguration :=
  let c : ServerConfiguration := { cleartext := a.cleartext }
  let c := if a.certPath ≠ [] then { c with certPath := some a.certPath } else c
  let c := if a.keyPath ≠ [] then { c with keyPath := some a.keyPath } else c
  { c with keyPath := some a.keyPath }

/-- The names `log_level_enum` knows (app/args.cpp:47-52). -/
def levelNames : List Bytes :=
  [b!"trace", b!"debug", b!"info", b!"warn", b!"error", b!"critical", b!"off"]

/-- `log_level_enum` (app/args.cpp:47-58): `none` means that it throws. The result is the position in
`levelNames`. -/
def logLevelEnum (a : Args) : Option Nat := levelNames.findIdx? (fun n => n = a.logLevel)

end Args

/-- ASCII lower case, as `CLI::ignore_case` compares. -/
def toLower (s : Bytes) : Bytes := s.map (fun b => if 0x41 ≤ b && b ≤ 0x5a then b + 0x20 else b)

/-- The check of `--log-level` (app/args.cpp:17-18). -/
def Args.levelAccepted (level : Bytes) : Bool := Args.levelNames.any (fun n => toLower n = toLower level)

/-- What OpenSSL answers when asked for a context, to load the two files, and whether they belong
together. -/
structure SslFiles where
  ctxNew : Bool := true
  useCertificate : Bytes → Bool
  usePrivateKey : Bytes → Bool
  keyMatches : Bytes → Bytes → Bool

/-- Why a server does not come up: the messages of `validate` (lib/server_config.cpp:5-14) and of the
`TlsContext` constructor (lib/transports/tls_context.cpp:10-38). -/
inductive StartError where
  | certNotSet
  | keyNotSet
  | certNotFound
  | keyNotFound
  | ctxFailed
  | certNotLoaded
  | keyNotLoaded
  | keyMismatch
deriving DecidableEq, Repr

/-- `ServerConfiguration::validate` (lib/server_config.cpp:5-14). -/
def ServerConfiguration.validate (c : ServerConfiguration) : Except StartError Unit :=
  if !c.cleartext then
    if c.certPath.isNone then .error .certNotSet
    else if c.keyPath.isNone then .error .keyNotSet
    else .ok ()
  else .ok ()

/-- `std::filesystem::exists`; where it would throw, the answer is "no", which also ends in an
exception here. -/
def FS.exists (fs : FS) (path : Bytes) : Bool :=
  match fs.statString path with
  | .ok _ => true
  | .error _ => false

/-- The `TlsContext` constructor (lib/transports/tls_context.cpp:10-38). -/
def tlsContext (fs : FS) (ssl : SslFiles) (cert key : Bytes) : Except StartError Unit :=
  if !fs.exists cert then .error .certNotFound
  else if !fs.exists key then .error .keyNotFound
  else if !ssl.ctxNew then .error .ctxFailed
  else if !ssl.useCertificate cert then .error .certNotLoaded
  else if !ssl.usePrivateKey key then .error .keyNotLoaded
  else if !ssl.keyMatches cert key then .error .keyMismatch
  else .ok ()

/-- The `Http2Server` constructor (lib/http2_server.cpp:19-24). Dereferencing an empty optional would be
undefined; `validate` has excluded it. -/
def constructServer (fs : FS) (ssl : SslFiles) (c : ServerConfiguration) : Outcome StartError Unit :=
  match c.validate with
  | .error e => .err e
  | .ok () =>
    if !c.cleartext then
      match c.certPath, c.keyPath with
      | some cert, some key =>
        match tlsContext fs ssl cert key with
        | .error e => .err e
        | .ok () => .ok ()
      | _, _ => .ub .index
    else .ok ()

/-! ## State the handlers share -/

/-- `ServerStats` (app/server_stats.h:9-13); `codes` is the `std::map`, in key order. -/
structure Stats where
  startTime : Nat := 0
  total : UInt64 := 0
  codes : List (UInt16 × UInt64) := []
  durationUs : Int := 0
deriving DecidableEq, Repr

/-- The state handlers of the application read and change: files, the process flag, the clock (in
microseconds, `clock i` being the `i`-th reading) and the statistics. -/
structure World where
  fs : FS
  noNewPrivs : Bool := true
  clock : Nat → Nat := fun _ => 0
  tick : Nat := 0
  stats : Stats := {}

/-- `steady_clock::now()`. -/
def World.now (w : World) : Nat × World := (w.clock w.tick, { w with tick := w.tick + 1 })

/-- `codes[code]++` on the map. -/
def bump (code : UInt16) : List (UInt16 × UInt64) → List (UInt16 × UInt64)
  | [] => [(code, 1)]
  | (k, n) :: rest =>
    if code < k then (code, 1) :: (k, n) :: rest
    else if code = k then (k, n + 1) :: rest
    else (k, n) :: bump code rest

/-- `ServerStats::middleware` (app/server_stats.cpp:16-33). The signed microsecond total is unbounded
here; it would overflow after 292 thousand years of handler time. -/
def statsMiddleware : Middleware World := fun next req w =>
  let w := { w with stats := { w.stats with total := w.stats.total + 1 } }
  let (start, w) := w.now
  match next req w with
  | (.resp res, w) =>
    let (stop, w) := w.now
    let stats := { w.stats with
      durationUs := w.stats.durationUs + ((stop : Int) - start)
      codes := bump res.status w.stats.codes }
    (.resp res, { w with stats })
  | (out, w) => (out, w)

/-! ## Routes -/

/-- `format_duration` (app/status_page.cpp:13-31). -/
def formatDuration (totalSeconds : UInt64) : Bytes :=
  let days := totalSeconds / 86400
  let totalSeconds := totalSeconds % 86400
  let hours := totalSeconds / 3600
  let totalSeconds := totalSeconds % 3600
  let minutes := totalSeconds / 60
  let seconds := totalSeconds % 60
  (if days > 0 then decimal days.toNat ++ b!"d " else []) ++
  (if hours > 0 ∨ days > 0 then decimal hours.toNat ++ b!"h " else []) ++
  (if minutes > 0 ∨ hours > 0 ∨ days > 0 then decimal minutes.toNat ++ b!"m " else []) ++
  decimal seconds.toNat ++ b!"s"

/-- The HTML of the status page as a function of what it shows: uptime, number of requests, total
handler time, counts per status code (app/status_page.cpp:48-237). -/
abbrev Page := Bytes → UInt64 → Int → List (UInt16 × UInt64) → Bytes

/-- The route handler of the status page (app/status_page.cpp:39-246). -/
def statusHandler (page : Page) : Handler World := fun _ w =>
  let (now, w) := w.now
  let uptime := formatDuration (UInt64.ofNat ((now - w.stats.startTime) / 1000000))
  (.resp { status := 200, body := page uptime w.stats.total w.stats.durationUs w.stats.codes,
           headers := [⟨b!"content-type", b!"text/html; charset=utf-8"⟩, ⟨b!"cache-control", b!"no-store"⟩] }, w)

/-- `add_status_page` (app/status_page.cpp:33-247). -/
def addStatusPage (page : Page) (r : Router World) : Router World :=
  (r.addMiddleware statsMiddleware).addRoute b!"/_ion/status" b!"GET" (statusHandler page)

/-- A handler that always gives the same response. -/
def constant (res : HttpResponse) : Handler World := fun _ w => (.resp res, w)

/-- `add_test_routes` (app/test_routes.cpp:7-36). -/
def addTestRoutes (r : Router World) : Router World :=
  let r := r.addRoute b!"/_tests/ok" b!"GET" (constant { status := 200 })
  let r := r.addRoute b!"/_tests/no_content" b!"GET" (constant { status := 204 })
  let r := r.addRoute b!"/_tests/no_new_privs" b!"GET"
    (fun _ w => (.resp { status := if w.noNewPrivs then 200 else 500 }, w))
  let r := r.addRoute b!"/_tests/medium_body" b!"GET"
    (constant { status := 200, body := List.replicate (128 * 1024) 0x41 })
  r.addRoute b!"/_tests/large_body" b!"GET"
    (constant { status := 200, body := List.replicate (2 * 1024 * 1024) 0x41 })

/-- The middleware for a custom 404 page (app/main.cpp:44-56). -/
def custom404 (filePath : Bytes) : Middleware World := fun next req w =>
  match next req w with
  | (.resp res, w) =>
    if res.status = 404 then
      (.resp { StaticFileHandler.fileResponse w.fs filePath false with status := 404 }, w)
    else (.resp res, w)
  | (out, w) => (out, w)

/-- The router `run_server` sets up (app/main.cpp:22-57). -/
def Args.router (page : Page) (a : Args) : Router World :=
  let r : Router World := {}
  let r := if a.underTest then addTestRoutes r else r
  let r := if a.statusPage then addStatusPage page r else r
  let r :=
    match a.staticMap with
    | [urlPrefix, root] => r.addStaticHandler ⟨urlPrefix, root⟩
    | _ => r
  if a.status404FilePath ≠ [] then r.addMiddleware (custom404 a.status404FilePath) else r

/-- The application's handler for a path and method. -/
def Args.getHandler (page : Page) (a : Args) (path method : Bytes) : Handler World :=
  (a.router page).getHandler World.fs path method

/-! ## Access log -/

/-- The loop of `log_request` (lib/access_log.cpp:18-36): the last header of that name, or "-". -/
def lastHeader (name : Bytes) : List Header → Bytes → Bytes
  | [], v => v
  | h :: hs, v => lastHeader name hs (if h.name = name then h.value else v)

/-- The entry of `AccessLog::log_request` (lib/access_log.cpp:11-42) at a given timestamp. -/
def logEntry (headers : List Header) (status : UInt16) (contentLength : Nat) (clientIp timestamp : Bytes) : Bytes :=
  (if clientIp = [] then b!"-" else clientIp) ++ b!" - - " ++ timestamp ++ b!" \"" ++
  lastHeader b!":method" headers b!"-" ++ b!" " ++ lastHeader b!":path" headers b!"-" ++ b!" HTTP/2\" " ++
  decimal status.toNat ++ b!" " ++ decimal contentLength ++ b!" \"" ++
  lastHeader b!"referer" headers b!"-" ++ b!"\" \"" ++ lastHeader b!"user-agent" headers b!"-" ++ b!"\""

end Ion
