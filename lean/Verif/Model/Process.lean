import Verif.Model.App
import Verif.Model.Server

/-!
# The process: `app/main.cpp`, the listening socket (`lib/tcp_listener.cpp`), exceptions and destructors

Results of system calls are inputs. Not modelled: the command-line library (`main` is given what parsing
yields), telemetry, `prctl`, the access log's file, and log lines other than those after which the process
can end because standard output is a broken pipe.
-/

namespace Ion

/-! ## The listening socket -/

/-- `htons`: exchanges the octets on a little-endian machine. -/
def htons (little : Bool) (v : UInt16) : UInt16 := if little then v <<< 8 ||| v >>> 8 else v

/-- A 16-bit number in memory. -/
def octets16 (little : Bool) (v : UInt16) : Bytes :=
  let low := v.toUInt8
  let high := (v >>> 8).toUInt8
  if little then [low, high] else [high, low]

/-- What the calls that set up the listening socket return: a descriptor (or none), its flags (or none),
and whether the others succeed. -/
structure ListenEnv where
  socket : Option Nat
  getfl : Option UInt32
  setfl : Bool
  reuse : Bool
  bind : Bool
  listen : Bool
deriving DecidableEq, Repr

/-- The call an exception comes from. -/
inductive ListenError where
  | socket
  | getfl
  | setfl
  | reuse
  | bind
  | listen
deriving DecidableEq, Repr

/-- The kernel's view of the listening socket: descriptor, file status flags, `SO_REUSEADDR`, the address it
is bound to (`s_addr` and the octets of `sin_port`), and the length of the queue if it listens. -/
structure ListenSock where
  fd : Nat
  flags : UInt32 := 0
  reuse : Bool := false
  bound : Option (UInt32 × Bytes) := none
  backlog : Option Nat := none
deriving DecidableEq, Repr

/-- `O_NONBLOCK` on Linux. -/
def oNonblock : UInt32 := 0x800

/-- `SOMAXCONN` on Linux. -/
def somaxconn : Nat := 4096

namespace ListenSock

/-- `set_nonblocking_socket` (lib/tcp_listener.cpp:29-37). -/
def setNonblocking (env : ListenEnv) (s : ListenSock) : Except ListenError ListenSock :=
  match env.getfl with
  | none => .error .getfl
  | some flags => if env.setfl then .ok { s with flags := flags ||| oNonblock } else .error .setfl

/-- `set_reusable_addr` (lib/tcp_listener.cpp:39-43). -/
def setReusable (env : ListenEnv) (s : ListenSock) : Except ListenError ListenSock :=
  if env.reuse then .ok { s with reuse := true } else .error .reuse

/-- `bind_socket` (lib/tcp_listener.cpp:45-54); `INADDR_ANY` is zero. -/
def bindSocket (little : Bool) (port : UInt16) (env : ListenEnv) (s : ListenSock) :
    Except ListenError ListenSock :=
  if env.bind then .ok { s with bound := some (0, octets16 little (htons little port)) } else .error .bind

/-- `listen` (lib/tcp_listener.cpp:67-71). -/
def startListening (env : ListenEnv) (s : ListenSock) : Except ListenError ListenSock :=
  if env.listen then .ok { s with backlog := some somaxconn } else .error .listen

/-- The constructor (lib/tcp_listener.cpp:56-65) after the descriptor is owned by `server_fd_`, and
`listen`. -/
def configure (little : Bool) (port : UInt16) (env : ListenEnv) (s : ListenSock) :
    Except ListenError ListenSock := do
  let s ← s.setNonblocking env
  let s ← s.setReusable env
  let s ← s.bindSocket little port env
  s.startListening env

/-- The beginning of `start` (lib/http2_server.cpp:120-122). If an exception leaves the constructor, the
member `server_fd_` is destroyed; if it leaves `listen`, the listener is. -/
def make (little : Bool) (port : UInt16) (env : ListenEnv) (os : Os) : Except ListenError ListenSock × Os :=
  match env.socket with
  | none => (.error .socket, os)
  | some fd =>
    let os := os.install fd
    match configure little port env { fd } with
    | .ok s => (.ok s, os)
    | .error e => (.error e, os.close fd)

end ListenSock

/-! ## What is left when `start` is left -/

namespace Server
variable {W : Type}

/-- The server as an exception finds it that leaves the handling of an event (lib/http2_server.cpp:33-118).
If the accepted socket cannot be made non-blocking, its `SocketFd` is destroyed (lib/tcp_listener.cpp:89);
if the transport cannot be created, the transport's member or the optional is
(lib/http2_server.cpp:42). An exception out of `process()` finds the connection still in the map. -/
def eventLeft (s : Server W) (ev : PollEv) : Server W :=
  if ev.fd = s.listener then
    match ev.accept with
    | .client fd nonblocking transport _ =>
      if s.os.files.has fd then s
      else if !nonblocking || !transport then { s with os := (s.os.install fd).close fd }
      else s
    | _ => s
  else if hasEvent ev.events .write then s.pollSet ev.fd .read ev.ctlFails1
  else s

/-- The same for the events of a batch (lib/http2_server.cpp:136-142). -/
def eventsLeft (cfg : Cfg W) : List PollEv → Server W → Server W
  | [], s => s
  | ev :: evs, s =>
    match s.handleEvent cfg ev with
    | .ok s => eventsLeft cfg evs s
    | _ => s.eventLeft ev

/-- The same for an iteration (lib/http2_server.cpp:130-142). -/
def iterationLeft (cfg : Cfg W) (s : Server W) (it : Iter) : Server W :=
  let s := s.reapIdle it.now
  if s.poller.created then eventsLeft cfg (it.poll.getD []) s else s

/-- The server when `start` is left, by returning or by an exception (lib/http2_server.cpp:129-143). -/
def runLeft (cfg : Cfg W) : List Iter → Server W → Server W
  | its, s =>
    if s.terminated then s
    else
      match its with
      | [] => s
      | it :: its =>
        match s.iteration cfg it with
        | .ok s => runLeft cfg its s
        | _ => s.iterationLeft cfg it

/-- The destructors: the listener's when `start` is left, the connections' when `run_server` is
(lib/http2_server.h:39, app/main.cpp:20). -/
def destroyed (s : Server W) : Os := s.conns.foldl (fun os e => os.close e.1) (s.os.close s.listener)

end Server

/-! ## `main` -/

/-- How a process ends: with an exit status, by `SIGPIPE`, by `std::terminate`; or it does not. -/
inductive Exit where
  | status (n : Nat)
  | sigpipe
  | terminate
  | undefined
  | running
deriving DecidableEq, Repr

/-- What `main` is given. `outStart`, `outEnd`: standard output is a broken pipe when the first log line,
the last one is written. `stops`: calls of `stop` between the installation of the signal handlers and the
loop. -/
structure ProcEnv (W : Type) where
  parse : Except Nat Args
  fs : FS
  ssl : SslFiles
  little : Bool := true
  listen : ListenEnv
  cfg : Args → Cfg W
  world : W
  pollerCreated : Bool := true
  ctlFails : Bool := false
  stops : List StopReason := []
  iters : List Iter
  outStart : Bool := false
  outEnd : Bool := false

/-- A log line on standard output, of a level in the numbering of `levelNames`, while `SIGPIPE` has its
default action; `k` is what happens afterwards. -/
def logLine (enabled level : Nat) (broken : Bool) (k : Exit) : Exit :=
  if enabled ≤ level && broken then .sigpipe else k

/-- The handler of exceptions in `main` (app/main.cpp:116-119). -/
def fatal (level : Nat) (broken : Bool) : Exit := logLine level 5 broken (.status 1)

/-- `run_server` (app/main.cpp:19-60) and the end of the `try` block (app/main.cpp:113-119). Exceptions of
the standard library are caught there, others are not. -/
def runServer {W : Type} (env : ProcEnv W) (args : Args) (level : Nat) : Exit :=
  match constructServer env.fs env.ssl args.toServerConfig with
  | .err _ => fatal level env.outEnd
  | .ub _ => .undefined
  | .ok () =>
    match ListenSock.make env.little args.port env.listen {} with
    | (.error _, _) => fatal level env.outEnd
    | (.ok sock, _) =>
      let s := Server.begin env.world sock.fd env.pollerCreated env.ctlFails
      match Server.run (env.cfg args) env.iters (env.stops.foldl Server.stop s) with
      | .returned _ _ => logLine level 2 env.outEnd (.status 0)
      | .threw (.process .escaped) => .terminate
      | .threw _ => fatal level env.outEnd
      | .ub _ => .undefined
      | .running _ => .running

/-- `main` (app/main.cpp:92-120). -/
def mainExit {W : Type} (env : ProcEnv W) : Exit :=
  match env.parse with
  | .error code => .status code
  | .ok args =>
    match args.logLevelEnum with
    | none => .terminate
    | some level => logLine level 2 env.outStart (runServer env args level)

/-! ## `SIGPIPE` -/

/-- What the kernel does with an empty `write` to a broken pipe, of which POSIX leaves the result
unspecified: it succeeds (Linux), or fails with `EPIPE`, in which case `SIGPIPE` is sent. -/
inductive NullWrite where
  | succeeds
  | fails
deriving DecidableEq, Repr

/-- One run of `sigpipe_handler` (app/signal_handler.cpp:39-47), `SIGPIPE` being blocked meanwhile, with
whether it is pending afterwards. -/
def SigState.pipeHandler (k : NullWrite) (outBroken errBroken : Bool) (s : SigState) : SigState × Bool :=
  let out := outBroken && k = .fails
  let err := errBroken && k = .fails
  (s.onPipe out err, out || err)

/-- The handler runs as long as `SIGPIPE` is pending, at most `n` times: the state, and whether the program
goes on where it was interrupted. -/
def SigState.pipeRuns (k : NullWrite) (outBroken errBroken : Bool) : Nat → SigState → SigState × Bool
  | 0, s => (s, false)
  | n + 1, s =>
    match s.pipeHandler k outBroken errBroken with
    | (s, true) => pipeRuns k outBroken errBroken n s
    | (s, false) => (s, true)

end Ion
