import Verif.Model.FrameLog
import Verif.Model.Restart
import Verif.Model.Clock

/-!
# What the server logs: `lib/http2_server.cpp`, `lib/pollers/epoll_poller.cpp`, `lib/tcp_listener.cpp`, `lib/socket_fd.cpp`

As in `Model/FrameLog.lean`, a function `…Lines` follows the function it is named after. The texts that come from the
system are parameters. Not modelled: what connections and transports log themselves, and what other threads log in
between.
-/

namespace Ion

/-- Why `epoll_ctl` failed, as far as the model of the kernel tells. -/
inductive CtlErr where
  | badf | exist | noent | other
deriving DecidableEq, Repr

/-- What is logged but comes from the system: the texts of `strerror`, the address of the client with some descriptor
or why there is none (the error of `getpeername`, the family), and the error, if any, of setting `TCP_NODELAY` for
it. -/
structure SysLog where
  strerror : CtlErr → Bytes
  peer : Nat → PeerName
  peerError : Nat → Bytes
  family : Nat → Nat
  noDelay : Nat → Option Bytes

/-- Why `epoll_ctl` failed if it did (as in `Os.ctl`). -/
def ctlError (created : Bool) (os : Os) (op : CtlOp) (fd : Nat) : CtlErr :=
  if !created || !os.files.has fd then .badf
  else
    match op with
    | .add => if os.interest.has fd then .exist else .other
    | .mod => if !os.interest.has fd then .noent else .other
    | .del => .noent

/-- `EPollPoller::set` (lib/pollers/epoll_poller.cpp:51-63). -/
def EPoll.setLines (sys : SysLog) (p : EPoll) (os : Os) (fd : Nat) (events : PollEvents) (fails : Bool) : List Line :=
  let op := if p.table.has fd then CtlOp.mod else .add
  match (if p.created then os.ctl op fd (toEpoll events) fails else (false, os)) with
  | (true, _) => []
  | (false, _) =>
    [(.warn, b!"epoll_ctl: failed (fd: " ++ decimal fd ++ b!"): " ++ sys.strerror (ctlError p.created os op fd))]

/-- `EPollPoller::remove` (lib/pollers/epoll_poller.cpp:65-70). -/
def EPoll.removeLines (sys : SysLog) (p : EPoll) (os : Os) (fd : Nat) : List Line :=
  match (if p.created then os.ctl .del fd 0 false else (false, os)) with
  | (true, _) => []
  | (false, _) =>
    [(.warn, b!"epoll_ctl: DEL failed (fd: " ++ decimal fd ++ b!"): " ++ sys.strerror (ctlError p.created os .del fd))]

/-- `SocketFd::close` of an open socket (lib/socket_fd.cpp:59-65). -/
def closeLines (fd : Nat) : List Line := [(.trace, b!"closing socket fd " ++ decimal fd)]

/-- `SocketFd::client_ip` (lib/socket_fd.cpp:32-53). -/
def SysLog.peerLines (sys : SysLog) (fd : Nat) : List Line :=
  match sys.peer fd with
  | .failed => [(.err, b!"getpeername failed: " ++ sys.peerError fd)]
  | .unknown => [(.err, b!"unknown ss_family: " ++ decimal (sys.family fd))]
  | _ => []

/-- `client_ip().value_or(...)` (lib/http2_server.cpp:38-39,75). -/
def SysLog.peerText (sys : SysLog) (fd : Nat) (unknown : Bytes) : Bytes := (sys.peer fd).clientIp.getD unknown

namespace Server
variable {W : Type}

/-- `poller.set`. -/
def setLines (sys : SysLog) (s : Server W) (fd : Nat) (events : PollEvents) (fails : Bool) : List Line :=
  s.poller.setLines sys s.os fd events fails

/-- `poller.remove`. -/
def removeLines (sys : SysLog) (s : Server W) (fd : Nat) : List Line := s.poller.removeLines sys s.os fd

/-- `try_accept` (lib/tcp_listener.cpp:83-100, with `set_tcp_no_delay`, 77-81). -/
def tryAcceptLines (sys : SysLog) (s : Server W) : AcceptRes → List Line
  | .client fd nonblocking _ _ =>
    if s.os.files.has fd then []
    else if !nonblocking then closeLines fd
    else
      match sys.noDelay fd with
      | some why => [(.warn, b!"failed to set TCP_NODELAY on client fd: " ++ why)]
      | none => []
  | _ => []

/-- `establish_conn` (lib/http2_server.cpp:33-53). -/
def establishLines (sys : SysLog) (s : Server W) (ev : PollEv) : List Line :=
  s.tryAcceptLines sys ev.accept ++
    match s.tryAccept ev.accept with
    | .ok (some (fd, s)) =>
      sys.peerLines fd ++
        (.info, b!"client connected (ip: " ++ sys.peerText fd b!"unknown" ++ b!")") ::
        match ev.accept with
        | .client _ _ transport now =>
          if !transport then closeLines fd
          else
            let conn : Conn W := ⟨s.os.next - 1, Sim.init s.world now⟩
            let s := { s with conns := s.conns.put fd conn }
            (.info, b!"HTTP connection established. total = " ++ decimal s.conns.length) ::
              s.setLines sys fd .read ev.ctlFails1
        | _ => []
    | _ => []

/-- The body of the loop of `reap_idle_connections` (lib/http2_server.cpp:57-64). -/
def reapOneLines (sys : SysLog) (now : Nat → Nat) (s : Server W) (e : Nat × Conn W) : List Line :=
  if e.2.sim.hasTimedOut (now e.1) then
    (.warn, b!"closing connection due to inactivity (fd: " ++ decimal e.1 ++ b!")") ::
      (s.removeLines sys e.1 ++ closeLines e.1)
  else []

/-- The loop of `reap_idle_connections` over the rest of the connections. -/
def reapFoldLines (sys : SysLog) (now : Nat → Nat) : Assoc (Conn W) → Server W → List Line
  | [], _ => []
  | e :: l, s => reapOneLines sys now s e ++ reapFoldLines sys now l (reapOne now s e)

/-- `reap_idle_connections` (lib/http2_server.cpp:55-66). -/
def reapLines (sys : SysLog) (s : Server W) (now : Nat → Nat) : List Line := reapFoldLines sys now s.conns s

/-- `handle_incoming_connection` (lib/http2_server.cpp:68-78). -/
def incomingLines (sys : SysLog) (s : Server W) (ev : PollEv) : List Line :=
  if s.conns.length < maxConnections then s.establishLines sys ev
  else
    s.tryAcceptLines sys ev.accept ++
      match s.tryAccept ev.accept with
      | .ok (some (fd, _)) =>
        sys.peerLines fd ++
          (.warn, b!"server at capacity. rejecting new connection from " ++ sys.peerText fd b!"unknown IP") ::
          closeLines fd
      | _ => []

/-- `handle_connection_events` (lib/http2_server.cpp:80-118). -/
def connectionLines (cfg : Cfg W) (sys : SysLog) (s : Server W) (ev : PollEv) : List Line :=
  match s.conns.get ev.fd with
  | none => []
  | some conn =>
    if hasEvent ev.events .error || hasEvent ev.events .hangup then
      (.debug, b!"poll indicated connection closed") :: (closeLines ev.fd ++ (s.erase ev.fd).removeLines sys ev.fd)
    else if !hasEvent ev.events .read && !hasEvent ev.events .write then []
    else
      (if hasEvent ev.events .write then s.setLines sys ev.fd .read ev.ctlFails1 else []) ++
      let s := if hasEvent ev.events .write then s.pollSet ev.fd .read ev.ctlFails1 else s
      match ({ conn.sim with world := s.world } : Sim W).process cfg ev.env with
      | .ok (.wantWrite, _) =>
        (.trace, b!"will poll write events for fd " ++ decimal ev.fd) ::
          s.setLines sys ev.fd (.read ||| .write) ev.ctlFails2
      | .ok (.discard, _) => (.info, b!"closing connection") :: (s.removeLines sys ev.fd ++ closeLines ev.fd)
      | _ => []

/-- The body of the event loop (lib/http2_server.cpp:137-141). -/
def eventLines (cfg : Cfg W) (sys : SysLog) (s : Server W) (ev : PollEv) : List Line :=
  if ev.fd = s.listener then s.incomingLines sys ev else s.connectionLines cfg sys ev

/-- The event loop (lib/http2_server.cpp:136-142). -/
def eventsLines (cfg : Cfg W) (sys : SysLog) : List PollEv → Server W → List Line
  | [], _ => []
  | ev :: evs, s =>
    s.eventLines cfg sys ev ++
      match s.handleEvent cfg ev with
      | .ok s => eventsLines cfg sys evs s
      | _ => []

/-- One iteration (lib/http2_server.cpp:130-142). -/
def iterationLines (cfg : Cfg W) (sys : SysLog) (s : Server W) (it : Iter) : List Line :=
  s.reapLines sys it.now ++
    let s := s.reapIdle it.now
    match (if s.poller.created then it.poll else none) with
    | none => []
    | some evs => eventsLines cfg sys evs s

/-- The loop of `start` and what follows it (lib/http2_server.cpp:129-145). -/
def runLines (cfg : Cfg W) (sys : SysLog) : List Iter → Server W → List Line
  | its, s =>
    if s.terminated then [(.info, s.shutdownLine)]
    else
      match its with
      | [] => []
      | it :: its =>
        s.iterationLines cfg sys it ++
          match s.iteration cfg it with
          | .ok s => runLines cfg sys its s
          | _ => []

/-- What `start` logs before the loop (lib/http2_server.cpp:121-127, lib/pollers/epoll_poller.cpp:10-15). -/
def beginLines (sys : SysLog) (world : W) (listener port : Nat) (created ctlFails : Bool) (why : Bytes) : List Line :=
  (.info, b!"listening on port " ++ decimal port) ::
    ((if created then [] else [(.err, b!"epoll_create1: failed: " ++ why)]) ++
      setLines sys ({ listener, world, poller := { created }, os := Os.install {} listener } : Server W) listener .read
        ctlFails)

end Server
end Ion
