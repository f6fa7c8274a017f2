import Verif.Model.Os

/-!
# `lib/socket_fd.cpp`

Objects are at addresses; `none` is the descriptor -1. Not modelled: `client_ip` (it only reads).
-/

namespace Ion

/-- Live `SocketFd` objects and the kernel. -/
structure Sockets where
  objs : Assoc (Option Nat) := []
  os : Os := {}
deriving DecidableEq, Repr

namespace Sockets

/-- `SocketFd::close` (lib/socket_fd.cpp:59-65). -/
def close (s : Sockets) (a : Nat) : Sockets :=
  match s.objs.get a with
  | some (some fd) => { objs := s.objs.put a none, os := s.os.close fd }
  | _ => s

/-- `SocketFd(int fd)` (lib/socket_fd.cpp:13) at address `a`, for a descriptor the kernel has just
handed out, or -1. -/
def construct (s : Sockets) (a : Nat) (fd : Option Nat) : Sockets :=
  match fd with
  | some fd => { objs := s.objs.put a (some fd), os := s.os.install fd }
  | none => { s with objs := s.objs.put a none }

/-- The move constructor (lib/socket_fd.cpp:15-17). -/
def moveConstruct (s : Sockets) (a b : Nat) : Sockets :=
  { s with objs := (s.objs.put a ((s.objs.get b).getD none)).put b none }

/-- Move assignment `*a = std::move(*b)` (lib/socket_fd.cpp:19-26). -/
def moveAssign (s : Sockets) (a b : Nat) : Sockets :=
  if a ≠ b then
    let s := s.close a
    { s with objs := (s.objs.put a ((s.objs.get b).getD none)).put b none }
  else s

/-- The destructor (lib/socket_fd.cpp:28-30). -/
def destroy (s : Sockets) (a : Nat) : Sockets :=
  let s := s.close a
  { s with objs := s.objs.del a }

end Sockets
end Ion
