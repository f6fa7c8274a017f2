import Verif.Model.Server

/-!
# `lib/http2_server.cpp` with the poller for other systems

`Poller::create` (lib/pollers/poller.cpp:11-17) makes a `PollPoller` where there is no epoll. The server's
code is the same and calls the poller through its interface; what `Server` says of it is said here again
with `PPoll`. The poller makes no system call when a descriptor is set or removed.

Not modelled: as in `Server`.
-/

namespace Ion

/-- `Http2Server` over a `PollPoller`. Of `core` everything counts but `core.poller` and
`core.os.interest`, which belong to epoll and are never used. -/
structure PollServer (W : Type) where
  core : Server W
  poller : PPoll := {}

/-- One iteration of the loop: the clock when each connection is asked whether it has timed out; what
`::poll` returns (whether it was interrupted, if it failed; otherwise the number of descriptors with events,
and the bits for each descriptor); the order in which the `unordered_map` `fd_events_` is walked
(lib/pollers/poll_poller.h:20); what `accept` does if it is called; the transport of each connection; calls
of `stop` during the iteration. -/
structure PollIter where
  now : Nat → Nat := fun _ => 0
  poll : Except Bool (Nat × (Nat → UInt32)) := .ok (0, fun _ => 0)
  order : List (Nat × PollEvents) → List (Nat × PollEvents) := id
  perm : ∀ l, (order l).Perm l := by exact fun l => List.Perm.refl l
  accept : AcceptRes := .again
  env : Nat → Env := fun _ => {}
  stops : List StopReason := []

namespace PollServer
variable {W : Type}

/-- `poller.set` (lib/pollers/poll_poller.cpp:68-70). -/
def pollSet (p : PollServer W) (fd : Nat) (events : PollEvents) : PollServer W :=
  { p with poller := p.poller.set fd events }

/-- `poller.remove` (lib/pollers/poll_poller.cpp:72-74). -/
def pollRemove (p : PollServer W) (fd : Nat) : PollServer W := { p with poller := p.poller.remove fd }

/-- `connections_.erase`, as `Server.erase`. -/
def erase (p : PollServer W) (fd : Nat) : PollServer W := { p with core := p.core.erase fd }

/-- `establish_conn` (lib/http2_server.cpp:33-53). -/
def establishConn (p : PollServer W) (ev : PollEv) : Outcome ServerExn (PollServer W) := do
  match ← p.core.tryAccept ev.accept with
  | none => .ok p
  | some (fd, s) =>
    match ev.accept with
    | .client _ _ transport now =>
      if !transport then .err .transport
      else
        let conn : Conn W := ⟨s.os.next - 1, Sim.init s.world now⟩
        let p := { p with core := { s with conns := s.conns.put fd conn } }
        .ok (p.pollSet fd .read)
    | _ => .ok { p with core := s }

/-- The body of the loop of `reap_idle_connections` (lib/http2_server.cpp:57-64). -/
def reapOne (now : Nat → Nat) (p : PollServer W) (e : Nat × Conn W) : PollServer W :=
  if e.2.sim.hasTimedOut (now e.1) then (p.pollRemove e.1).erase e.1 else p

/-- `reap_idle_connections` (lib/http2_server.cpp:55-66). -/
def reapIdle (p : PollServer W) (now : Nat → Nat) : PollServer W :=
  p.core.conns.foldl (reapOne now) p

/-- `handle_incoming_connection` (lib/http2_server.cpp:68-78). -/
def handleIncoming (p : PollServer W) (ev : PollEv) : Outcome ServerExn (PollServer W) :=
  if p.core.conns.length < Server.maxConnections then p.establishConn ev
  else do
    match ← p.core.tryAccept ev.accept with
    | none => .ok p
    | some (fd, s) => .ok { p with core := { s with os := s.os.close fd } }

/-- `handle_connection_events` (lib/http2_server.cpp:80-118). -/
def handleConnection (cfg : Cfg W) (p : PollServer W) (ev : PollEv) :
    Outcome ServerExn (PollServer W) :=
  match p.core.conns.get ev.fd with
  | none => .ok p
  | some conn =>
    if hasEvent ev.events .error || hasEvent ev.events .hangup then
      .ok ((p.erase ev.fd).pollRemove ev.fd)
    else if !hasEvent ev.events .read && !hasEvent ev.events .write then .ok p
    else
      let p := if hasEvent ev.events .write then p.pollSet ev.fd .read else p
      match ({ conn.sim with world := p.core.world } : Sim W).process cfg ev.env with
      | .err e => .err (.process e)
      | .ub u => .ub u
      | .ok (r, sim) =>
        let p := { p with core :=
          { p.core with conns := p.core.conns.put ev.fd { conn with sim }, world := sim.world } }
        match r with
        | .wantWrite => .ok (p.pollSet ev.fd (.read ||| .write))
        | .wantRead => .ok p
        | .discard => .ok ((p.pollRemove ev.fd).erase ev.fd)

/-- The body of the event loop (lib/http2_server.cpp:137-141). -/
def handleEvent (cfg : Cfg W) (p : PollServer W) (ev : PollEv) : Outcome ServerExn (PollServer W) :=
  if ev.fd = p.core.listener then p.handleIncoming ev else p.handleConnection cfg ev

/-- The event loop (lib/http2_server.cpp:136-142). -/
def handleEvents (cfg : Cfg W) : List PollEv → PollServer W → Outcome ServerExn (PollServer W)
  | [], p => .ok p
  | ev :: evs, p => do
    let p ← p.handleEvent cfg ev
    handleEvents cfg evs p

/-- `stop` (lib/http2_server.cpp:148-151). -/
def stop (p : PollServer W) (reason : StopReason) : PollServer W := { p with core := p.core.stop reason }

/-- The events `poll` reports (lib/pollers/poll_poller.cpp:60-65), with what happens while each is
handled: one for every descriptor of the table, also for those nothing happened on. -/
def reported (it : PollIter) (l : List (Nat × PollEvents)) : List PollEv :=
  (it.order l).map fun e => { fd := e.1, events := e.2, accept := it.accept, env := it.env e.1 }

/-- One iteration (lib/http2_server.cpp:130-142); `stop` as in `Server.iteration`. -/
def iteration (cfg : Cfg W) (p : PollServer W) (it : PollIter) : Outcome ServerExn (PollServer W) := do
  let p := p.reapIdle it.now
  let p ←
    match p.poller.poll it.poll with
    | .error _ => .ok p
    | .ok l => handleEvents cfg (reported it l) p
  .ok (it.stops.foldl stop p)

/-- How `start` goes, as `Server.Run`. -/
inductive Run (W : Type) where
  | returned (p : PollServer W) (unused : List PollIter)
  | threw (e : ServerExn)
  | ub (u : UB)
  | running (p : PollServer W)

/-- The loop of `start` (lib/http2_server.cpp:129-143). -/
def run (cfg : Cfg W) : List PollIter → PollServer W → Run W
  | its, p =>
    if p.core.terminated then .returned p its
    else
      match its with
      | [] => .running p
      | it :: its =>
        match p.iteration cfg it with
        | .ok p => run cfg its p
        | .err e => .threw e
        | .ub u => .ub u

/-- The state in which the loop starts (lib/http2_server.cpp:120-127), in a server that was just
constructed. -/
def begin (world : W) (listener : Nat) : PollServer W :=
  let p : PollServer W := { core := { listener, world, os := Os.install {} listener } }
  p.pollSet listener .read

end PollServer
end Ion
