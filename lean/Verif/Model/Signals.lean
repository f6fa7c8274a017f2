import Verif.Model.Base

/-!
# `app/signal_handler.cpp`

The process' view: which server is registered, which handlers are installed, and what `stop` was called
with. Signals arrive between the other operations. Not modelled: memory ordering of the atomic pointer
(signals are delivered to the one thread).
-/

namespace Ion

/-- `StopReason` (lib/stop_reason.h:6). -/
inductive StopReason where
  | other
  | signal
  | stdOutPipeBroken
  | stdErrPipeBroken
deriving DecidableEq, Repr

/-- The signals handled. -/
inductive Sig where
  | int
  | term
  | pipe
deriving DecidableEq, Repr

/-- Signal state: `server_` (app/signal_handler.h:21), whether the process' handlers are installed, the
calls of `Http2Server::stop` so far (newest first), and whether a signal's default action ended the
process. -/
structure SigState where
  server : Option Nat := none
  installed : Bool := false
  stops : List (Nat × StopReason) := []
  killed : Bool := false
deriving DecidableEq, Repr

namespace SigState

/-- `stop_server` (app/signal_handler.cpp:29-33). -/
def stopServer (s : SigState) (reason : StopReason) : SigState :=
  match s.server with
  | some server => { s with stops := (server, reason) :: s.stops }
  | none => s

/-- `setup` and the constructor (app/signal_handler.cpp:7-20); `none` means it throws. -/
def setup (s : SigState) (server : Nat) : Option SigState :=
  if s.server = none then some { s with server := some server, installed := true } else none

/-- The destructor (app/signal_handler.cpp:22-27). -/
def destroy (s : SigState) : SigState := { s with server := none, installed := false }

/-- `signal_handler` (app/signal_handler.cpp:35-37). -/
def onSignal (s : SigState) : SigState := s.stopServer .signal

/-- `sigpipe_handler` (app/signal_handler.cpp:39-47); `outBroken` and `errBroken` say whether the empty
`write` to that descriptor fails with `EPIPE`. -/
def onPipe (s : SigState) (outBroken errBroken : Bool) : SigState :=
  let s := if outBroken then s.stopServer .stdOutPipeBroken else s
  if errBroken then s.stopServer .stdErrPipeBroken else s

/-- Delivery of a signal: the installed handler, or the default action (all three end the process). -/
def deliver (s : SigState) (sig : Sig) (outBroken errBroken : Bool) : SigState :=
  if s.installed then
    match sig with
    | .int => s.onSignal
    | .term => s.onSignal
    | .pipe => s.onPipe outBroken errBroken
  else { s with killed := true }

end SigState
end Ion
