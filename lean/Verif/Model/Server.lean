import Verif.Model.Connection
import Verif.Model.Poller
import Verif.Model.Signals

/-!
# `lib/http2_server.cpp`, `lib/tcp_listener.cpp`

Each loop iteration is given what the system calls in it return. The connections share the world the
handlers work on. An exception leaves `start`, which ends the server.

Not modelled: logging (for that see `Model/ServerLog.lean`), the client address (it is only logged), setting up the listening socket (it has
happened, or `start` has thrown before anything else), `TCP_NODELAY`, the order of connections with the
same fate in `reap_idle_connections` (it is the order of descriptors here and there).
-/

namespace Ion

/-- What `accept` and the calls after it do: a client on descriptor `fd`, with whether the socket could
be made non-blocking, whether the transport could be created, and the clock value when the connection
object was; nothing to accept (`EAGAIN`, `EINTR`); or another error. -/
inductive AcceptRes where
  | client (fd : Nat) (nonblocking transport : Bool) (now : Nat)
  | again
  | fail
deriving DecidableEq, Repr

/-- An event reported by `poll`, with what happens while it is handled: the result of `accept` for the
listener; the transport's behaviour for a connection; and whether the two possible `epoll_ctl` calls
fail. -/
structure PollEv where
  fd : Nat
  events : PollEvents
  accept : AcceptRes := .again
  env : Env := {}
  ctlFails1 : Bool := false
  ctlFails2 : Bool := false
deriving DecidableEq, Repr

/-- One iteration of the loop: the clock when each connection is asked whether it has timed out; what
`poll` returns (`none` for a timeout, a signal or an error); calls of `stop` during the iteration. -/
structure Iter where
  now : Nat → Nat := fun _ => 0
  poll : Option (List PollEv) := none
  stops : List StopReason := []

/-- An `Http2Connection` in the server: the file its transport owns, and its state. -/
structure Conn (W : Type) where
  file : Nat
  sim : Sim W

/-- Exceptions that leave `start`; `impossible` is not one, but marks inputs no kernel produces: `accept`
returning a descriptor that is in use. -/
inductive ServerExn where
  | accept
  | fcntl
  | transport
  | process (e : Stop)
  | impossible
deriving DecidableEq, Repr

/-- `Http2Server` (lib/http2_server.h:18-44), the poller, the kernel, and the shared world. -/
structure Server (W : Type) where
  listener : Nat
  conns : Assoc (Conn W) := []
  terminated : Bool := false
  reason : StopReason := .other
  poller : EPoll := {}
  os : Os := {}
  world : W

namespace Server
variable {W : Type}

/-- `poller.set`. -/
def pollSet (s : Server W) (fd : Nat) (events : PollEvents) (fails : Bool) : Server W :=
  let (poller, os) := s.poller.set s.os fd events fails
  { s with poller, os }

/-- `poller.remove`. -/
def pollRemove (s : Server W) (fd : Nat) : Server W :=
  let (poller, os) := s.poller.remove s.os fd
  { s with poller, os }

/-- `connections_.erase`: the connection's destructor closes its socket (lib/socket_fd.cpp:28-30 through
the transport). -/
def erase (s : Server W) (fd : Nat) : Server W :=
  { s with conns := s.conns.del fd, os := s.os.close fd }

/-- `try_accept` (lib/tcp_listener.cpp:83-100): `none` if there is nothing to accept. If the socket cannot
be made non-blocking it is closed by its destructor, and the exception goes on. -/
def tryAccept (s : Server W) : AcceptRes → Outcome ServerExn (Option (Nat × Server W))
  | .again => .ok none
  | .fail => .err .accept
  | .client fd nonblocking _ _ =>
    if s.os.files.has fd then .err .impossible
    else if !nonblocking then .err .fcntl
    else .ok (some (fd, { s with os := s.os.install fd }))

/-- `establish_conn` (lib/http2_server.cpp:33-53). -/
def establishConn (s : Server W) (ev : PollEv) : Outcome ServerExn (Server W) := do
  match ← s.tryAccept ev.accept with
  | none => .ok s
  | some (fd, s) =>
    match ev.accept with
    | .client _ _ transport now =>
      if !transport then .err .transport
      else
        let conn : Conn W := ⟨s.os.next - 1, Sim.init s.world now⟩
        let s := { s with conns := s.conns.put fd conn }
        .ok (s.pollSet fd .read ev.ctlFails1)
    | _ => .ok s

/-- The body of the loop of `reap_idle_connections` (lib/http2_server.cpp:57-64). -/
def reapOne (now : Nat → Nat) (s : Server W) (e : Nat × Conn W) : Server W :=
  if e.2.sim.hasTimedOut (now e.1) then (s.pollRemove e.1).erase e.1 else s

/-- `reap_idle_connections` (lib/http2_server.cpp:55-66). -/
def reapIdle (s : Server W) (now : Nat → Nat) : Server W := s.conns.foldl (reapOne now) s

/-- `MAX_CONNECTIONS` (lib/http2_server.cpp:16). -/
def maxConnections : Nat := 128

/-- `handle_incoming_connection` (lib/http2_server.cpp:68-78); in the second case the socket is closed
when `overflow` goes out of scope. -/
def handleIncoming (s : Server W) (ev : PollEv) : Outcome ServerExn (Server W) :=
  if s.conns.length < maxConnections then s.establishConn ev
  else do
    match ← s.tryAccept ev.accept with
    | none => .ok s
    | some (fd, s) => .ok { s with os := s.os.close fd }

/-- `handle_connection_events` (lib/http2_server.cpp:80-118). -/
def handleConnection (cfg : Cfg W) (s : Server W) (ev : PollEv) : Outcome ServerExn (Server W) :=
  match s.conns.get ev.fd with
  | none => .ok s
  | some conn =>
    if hasEvent ev.events .error || hasEvent ev.events .hangup then
      .ok ((s.erase ev.fd).pollRemove ev.fd)
    else if !hasEvent ev.events .read && !hasEvent ev.events .write then .ok s
    else
      let s := if hasEvent ev.events .write then s.pollSet ev.fd .read ev.ctlFails1 else s
      match ({ conn.sim with world := s.world } : Sim W).process cfg ev.env with
      | .err e => .err (.process e)
      | .ub u => .ub u
      | .ok (r, sim) =>
        let s := { s with conns := s.conns.put ev.fd { conn with sim }, world := sim.world }
        match r with
        | .wantWrite => .ok (s.pollSet ev.fd (.read ||| .write) ev.ctlFails2)
        | .wantRead => .ok s
        | .discard => .ok ((s.pollRemove ev.fd).erase ev.fd)

/-- The body of the event loop (lib/http2_server.cpp:137-141). -/
def handleEvent (cfg : Cfg W) (s : Server W) (ev : PollEv) : Outcome ServerExn (Server W) :=
  if ev.fd = s.listener then s.handleIncoming ev else s.handleConnection cfg ev

/-- The event loop (lib/http2_server.cpp:136-142). -/
def handleEvents (cfg : Cfg W) : List PollEv → Server W → Outcome ServerExn (Server W)
  | [], s => .ok s
  | ev :: evs, s => do
    let s ← s.handleEvent cfg ev
    handleEvents cfg evs s

/-- `stop` (lib/http2_server.cpp:148-151). -/
def stop (s : Server W) (reason : StopReason) : Server W := { s with reason, terminated := true }

/-- One iteration (lib/http2_server.cpp:130-142). Nothing in it reads what `stop` sets, so it does not
matter when during the iteration `stop` is called. Without an epoll instance `poll` fails. -/
def iteration (cfg : Cfg W) (s : Server W) (it : Iter) : Outcome ServerExn (Server W) := do
  let s := s.reapIdle it.now
  let s ←
    match (if s.poller.created then it.poll else none) with
    | none => .ok s
    | some evs => handleEvents cfg evs s
  .ok (it.stops.foldl stop s)

/-- How `start` goes: it returned in some state (with the iterations it did not begin), an exception left
it, behaviour was undefined, or it is still running when the given iterations are over. -/
inductive Run (W : Type) where
  | returned (s : Server W) (unused : List Iter)
  | threw (e : ServerExn)
  | ub (u : UB)
  | running (s : Server W)

/-- The loop of `start` (lib/http2_server.cpp:129-143). -/
def run (cfg : Cfg W) : List Iter → Server W → Run W
  | its, s =>
    if s.terminated then .returned s its
    else
      match its with
      | [] => .running s
      | it :: its =>
        match s.iteration cfg it with
        | .ok s => run cfg its s
        | .err e => .threw e
        | .ub u => .ub u

/-- The state in which the loop starts (lib/http2_server.cpp:120-127), in a server that was just
constructed: the listener has a descriptor, the poller exists if `epoll_create1` succeeded, and the
listener is registered unless `epoll_ctl` failed. -/
def begin (world : W) (listener : Nat) (created ctlFails : Bool) : Server W :=
  let s : Server W :=
    { listener, world, poller := { created }, os := Os.install {} listener }
  s.pollSet listener .read ctlFails

end Server
end Ion
