import Verif.Model.Base
import Verif.Model.Os

/-!
# `lib/pollers/`

The interest list of the epoll instance is part of the kernel (`Os`); here is what the poller itself
does. Not modelled: the file descriptor of the epoll instance (only whether there is one).
-/

namespace Ion

/-- `PollEventType` (lib/pollers/poller.h:11): a set of bits. -/
abbrev PollEvents := UInt32

namespace PollEvents
/-- `None` -/
def none : PollEvents := 0
/-- `Read` -/
def read : PollEvents := 1
/-- `Write` -/
def write : PollEvents := 2
/-- `Hangup` -/
def hangup : PollEvents := 4
/-- `Error` -/
def error : PollEvents := 8
end PollEvents

/-- `has_event` (lib/pollers/poller.h:30-32). -/
def hasEvent (events check : PollEvents) : Bool := events &&& check != 0

/-- `EPOLLIN`, as `POLLIN`. -/
def epollIn : UInt32 := 0x001
/-- `EPOLLOUT`, as `POLLOUT`. -/
def epollOut : UInt32 := 0x004
/-- `EPOLLERR`, as `POLLERR`. -/
def epollErr : UInt32 := 0x008
/-- `EPOLLHUP`, as `POLLHUP`. -/
def epollHup : UInt32 := 0x010

/-- `to_epoll_events` (lib/pollers/epoll_poller.cpp:23-32) and `event_from_poll_event`
(lib/pollers/poll_poller.cpp:9-18), which does the same. -/
def toEpoll (events : PollEvents) : UInt32 :=
  let result : UInt32 := 0
  let result := if hasEvent events .read then result ||| epollIn else result
  if hasEvent events .write then result ||| epollOut else result

/-- `from_epoll_events` (lib/pollers/epoll_poller.cpp:34-49) and `event_to_poll_event`
(lib/pollers/poll_poller.cpp:20-35). -/
def fromEpoll (events : UInt32) : PollEvents :=
  let result : PollEvents := .none
  let result := if events &&& epollIn != 0 then result ||| .read else result
  let result := if events &&& epollOut != 0 then result ||| .write else result
  let result := if events &&& epollHup != 0 then result ||| .hangup else result
  if events &&& epollErr != 0 then result ||| .error else result

/-- `PollError` (lib/pollers/poller.h:9). -/
inductive PollError where
  | error
  | interruptedBySignal
  | timeout
deriving DecidableEq, Repr

/-- What `epoll_wait` or `poll` returns: an error (`EINTR` or another), or descriptors with bits. -/
inductive WaitRes where
  | fail (eintr : Bool)
  | ready (events : List (Nat × UInt32))
deriving DecidableEq, Repr

/-- `EPollPoller` (lib/pollers/epoll_poller.h:13-31): whether `epoll_create1` succeeded,
`registered_fds_`, and the size of `events_buffer_` (64 at first, lib/pollers/epoll_poller.cpp:10). -/
structure EPoll where
  created : Bool := true
  table : Assoc PollEvents := []
  buffer : Nat := 64
deriving DecidableEq, Repr

namespace EPoll

/-- `set` (lib/pollers/epoll_poller.cpp:51-63). -/
def set (p : EPoll) (os : Os) (fd : Nat) (events : PollEvents) (fails : Bool) : EPoll × Os :=
  let op := if p.table.has fd then CtlOp.mod else .add
  match (if p.created then os.ctl op fd (toEpoll events) fails else (false, os)) with
  | (true, os) => ({ p with table := p.table.put fd events }, os)
  | (false, os) => (p, os)

/-- `remove` (lib/pollers/epoll_poller.cpp:65-70); a failure is only logged. -/
def remove (p : EPoll) (os : Os) (fd : Nat) : EPoll × Os :=
  let (_, os) := if p.created then os.ctl .del fd 0 false else (false, os)
  ({ p with table := p.table.del fd }, os)

/-- `poll` (lib/pollers/epoll_poller.cpp:72-100), given what `epoll_wait` returns. Reading past the buffer
would be undefined. -/
def poll (p : EPoll) (r : WaitRes) :
    Outcome Empty (Except PollError (List (Nat × PollEvents)) × EPoll) :=
  match r with
  | .fail eintr => .ok (.error (if eintr then .interruptedBySignal else .error), p)
  | .ready events =>
    if events.length = 0 then .ok (.error .timeout, p)
    else if events.length > p.buffer then .ub .index
    else
      .ok (.ok (events.map fun e => (e.1, fromEpoll e.2)),
        if events.length = p.buffer then { p with buffer := p.buffer * 2 } else p)

end EPoll

/-- `PollPoller` (lib/pollers/poll_poller.h:9-24), used where there is no epoll. -/
structure PPoll where
  table : Assoc PollEvents := []
deriving DecidableEq, Repr

namespace PPoll

/-- `set` (lib/pollers/poll_poller.cpp:68-70). -/
def set (p : PPoll) (fd : Nat) (events : PollEvents) : PPoll := { table := p.table.put fd events }

/-- `remove` (lib/pollers/poll_poller.cpp:72-74). -/
def remove (p : PPoll) (fd : Nat) : PPoll := { table := p.table.del fd }

/-- The array given to `::poll` (lib/pollers/poll_poller.cpp:39-44). -/
def request (p : PPoll) : List (Nat × UInt32) := p.table.map fun e => (e.1, toEpoll e.2)

/-- `poll` (lib/pollers/poll_poller.cpp:37-66): `eintr` for a failed call, otherwise the bits for each
descriptor and the number of descriptors with any. -/
def poll (p : PPoll) (r : Except Bool (Nat × (Nat → UInt32))) :
    Except PollError (List (Nat × PollEvents)) :=
  match r with
  | .error eintr => .error (if eintr then .interruptedBySignal else .error)
  | .ok (n, revents) =>
    if n = 0 then .error .timeout
    else .ok (p.request.map fun e => (e.1, fromEpoll (revents e.1)))

end PPoll
end Ion
