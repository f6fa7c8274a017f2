import Verif.Model.Server

/-!
# The arguments of `epoll_wait` and `poll`: `lib/pollers/*.cpp`, `lib/tcp_listener.cpp`

`Model/Server.lean` takes what the poller reports as given; here are the numbers with which the kernel is called, and the
buffer of the epoll poller beside the loop of the server.
-/

namespace Ion

/-- `static_cast<int>` of a 64-bit number: since C++20 the number of that residue modulo 2^32 that an `int` can hold. -/
def castInt (n : Int) : Int :=
  let r := n % 4294967296
  if r < 2147483648 then r else r - 4294967296

/-- `maxevents` and `timeout` of `epoll_wait` in `EPollPoller::poll` (lib/pollers/epoll_poller.cpp:74-76). -/
def EPoll.waitArgs (p : EPoll) (timeout : Int) : Int × Int := (castInt p.buffer, castInt timeout)

/-- `nfds` and `timeout` of `::poll` in `PollPoller::poll` (lib/pollers/poll_poller.cpp:46). `nfds_t` is unsigned and holds
64 bits on Linux, so that the size is passed as it is. -/
def PPoll.waitArgs (p : PPoll) (timeout : Int) : Nat × Int := (p.request.length, castInt timeout)

/-- `to_poll_timeout_ms` (lib/tcp_listener.cpp:19-27). It is not called. -/
def toPollTimeoutMs (timeout : Int) : Int :=
  if timeout < 0 then -1
  else if timeout > 2147483647 then 2147483647
  else castInt timeout

/-- `POLL_TIMEOUT` (lib/http2_server.cpp:17), in milliseconds. -/
def pollTimeoutMs : Int := 25

/-- The epoll poller after `poll` in one iteration (lib/http2_server.cpp:132, lib/pollers/epoll_poller.cpp:72-100), which
reported `reported`: only the number of events matters for the buffer. -/
def EPoll.afterPoll (p : EPoll) (reported : Option (List PollEv)) : EPoll :=
  match reported with
  | none => p
  | some evs =>
    match p.poll (.ready (evs.map fun ev => (ev.fd, toEpoll ev.events))) with
    | .ok (_, p) => p
    | _ => p

end Ion
