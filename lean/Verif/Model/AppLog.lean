import Verif.Model.App
import Verif.Model.ConnLog
import Verif.Model.StaticLog

/-!
# What the application's handlers and the transports log during a call of `process()`

`Args.handlerLines` follows `Args.getHandler` of `Model/App.lean`: the only handlers that log are the static file handler
and the one that serves the custom 404 page. `TcpOps` and `TlsOps` give the system calls of one call of `process()`, what
the connection sees of them, and what the transport logs.
-/

namespace Ion

/-! ## Handlers -/

namespace Router

/-- The loop of lib/router.cpp:25-31, beside `pickStatic`: what the handler that is picked logs when it is called. -/
def pickStaticLines (why : Bytes) (fs : FS) (path method : Bytes) : List StaticFileHandler → List Line → List Line
  | [], lines => lines
  | h :: hs, lines =>
    pickStaticLines why fs path method hs
      (if h.matches path then h.handleLines why fs path (method = b!"HEAD") else lines)

/-- The handler that `get_handler` finds (lib/router.cpp:11-34), without middleware. None of the routes of the
application logs anything when it is called (app/status_page.cpp:39-246, app/test_routes.cpp:7-36). -/
def targetLines (why : Bytes) (r : Router World) (req : HttpRequest) (w : World) : List Line :=
  match findRoute req.path req.method r.routes with
  | some _ => []
  | none =>
    if req.method = b!"GET" ∨ req.method = b!"HEAD" then pickStaticLines why w.fs req.path req.method r.statics []
    else []

end Router

/-- The middleware for a custom 404 page (app/main.cpp:44-56), beside `custom404`. -/
def custom404Lines (why filePath : Bytes) (next : Handler World) (nextLines : HttpRequest → World → List Line)
    (req : HttpRequest) (w : World) : List Line :=
  nextLines req w ++
    match next req w with
    | (.resp res, w) => if res.status = 404 then StaticFileHandler.fileResponseLines why w.fs filePath false else []
    | _ => []

/-- `ServerStats::middleware` (app/server_stats.cpp:16-33), beside `statsMiddleware`. -/
def statsMiddlewareLines (nextLines : HttpRequest → World → List Line) (req : HttpRequest) (w : World) : List Line :=
  let w := { w with stats := { w.stats with total := w.stats.total + 1 } }
  nextLines req w.now.2

/-- The application's handler for a request (app/main.cpp:22-57), beside `Args.getHandler`. `why` is the text of errors of
the file system. -/
def Args.handlerLines (page : Page) (a : Args) (why : Bytes) (req : HttpRequest) (w : World) : List Line :=
  let r := a.router page
  let target := { r with chain := fun h => h }.getHandler World.fs req.path req.method
  let lines := r.targetLines why
  let lines := if a.status404FilePath ≠ [] then custom404Lines why a.status404FilePath target lines else lines
  (if a.statusPage then statsMiddlewareLines lines else lines) req w

/-! ## Transports -/

/-- The system calls that `TcpTransport` makes during one call of `process()` (lib/transports/tcp_transport.cpp:25-69): each
read and write with the text of its error and the time afterwards, each write with the number of octets, and the error of
`shutdown(2)`. -/
structure TcpOps where
  hs : Nat := 0
  reads : List (SysRead × Bytes × Nat) := []
  writes : List (SysWrite × Nat × Bytes × Nat) := []
  shutdown : Option Bytes := none

/-- What the connection sees of them (lib/transports/tcp_transport.cpp:25-73). -/
def TcpOps.env (c : TcpOps) : Env :=
  ⟨tcpHandshake c.hs, c.reads.map fun x => tcpRead x.1 x.2.2, c.writes.map fun x => tcpWrite x.2.1 x.1 x.2.2.2⟩

/-- What is logged for them (lib/transports/tcp_transport.cpp:25-69). The number of results left tells which call it is;
after the last one calls return `EAGAIN`. -/
def TcpOps.net (c : TcpOps) : NetLog where
  handshake _ := []
  read rs :=
    match c.reads[c.reads.length - rs.length]? with
    | some x => tcpReadLines x.2.1 x.1
    | none => tcpReadLines [] .again
  write a ws :=
    match c.writes[c.writes.length - ws.length]? with
    | some x => tcpWriteLines x.2.2.1 a.length x.1
    | none => tcpWriteLines [] a.length .again
  shutdown := tcpShutdownLines c.shutdown

/-- The calls of OpenSSL that `TlsTransport` makes during one call of `process()` (lib/transports/tls_transport.cpp:40-147):
each with the number `SSL_get_error` returns and the time afterwards, the handshake also with the text of its error, each
write with the number of octets; `twice` says that the first `SSL_shutdown` returned 0. -/
structure TlsOps where
  hs : Option SslError × Nat × Bytes × Nat := (some .wantRead, 0, [], 0)
  reads : List (SslRead × Nat × Nat) := []
  writes : List (SslWrite × Nat × Nat × Nat) := []
  twice : Bool := false

/-- What the connection sees of them (lib/transports/tls_transport.cpp:40-147). -/
def TlsOps.env (c : TlsOps) : Env :=
  ⟨tlsHandshake c.hs.1 c.hs.2.2.2, c.reads.map fun x => tlsRead x.1 x.2.2,
    c.writes.map fun x => tlsWrite x.2.1 x.1 x.2.2.2⟩

/-- What is logged for them (lib/transports/tls_transport.cpp:40-147). After the last call that is given OpenSSL wants to
read or write. -/
def TlsOps.net (c : TlsOps) : NetLog where
  handshake _ := tlsHandshakeLines c.hs.2.1 c.hs.2.2.1 c.hs.1
  read rs :=
    match c.reads[c.reads.length - rs.length]? with
    | some x => tlsReadLines x.2.1 x.1
    | none => tlsReadLines 0 (.failed .wantRead)
  write a ws :=
    match c.writes[c.writes.length - ws.length]? with
    | some x => tlsWriteLines x.2.2.1 a.length x.1
    | none => tlsWriteLines 0 a.length (.failed .wantWrite)
  shutdown := tlsShutdownLines c.twice

end Ion
