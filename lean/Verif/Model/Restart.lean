import Verif.Model.Process

/-!
# The end of `start` and a further call: `lib/http2_server.cpp:120-150`, `lib/stop_reason.cpp`

As in `Model/Server.lean`, the descriptor of the epoll instance itself is not modelled.
-/

namespace Ion

/-- `StopReasonHelper::to_string` (lib/stop_reason.cpp:7-18). -/
def StopReason.text : StopReason → Bytes
  | .signal => b!"signal"
  | .stdOutPipeBroken => b!"stdout pipe broken"
  | .stdErrPipeBroken => b!"stderr pipe broken"
  | .other => b!"other"

namespace Server
variable {W : Type}

/-- The last log line of `start` (lib/http2_server.cpp:144). -/
def shutdownLine (s : Server W) : Bytes := b!"server shutting down (reason: " ++ s.reason.text ++ b!")"

/-- `start` has returned: its listener and its poller are gone, which the connections survive
(lib/http2_server.cpp:121,126; lib/http2_server.h:36-42). -/
def ended (s : Server W) : Server W :=
  { s with poller := {}, os := { s.os.close s.listener with interest := [] } }

/-- Where the loop of a further call of `start` begins: a new listener and a new poller, the connections and the flags
as they are (lib/http2_server.cpp:120-127). -/
def again (s : Server W) (listener : Nat) (created ctlFails : Bool) : Server W :=
  let s := s.ended
  let s : Server W := { s with listener, poller := { created }, os := s.os.install listener }
  s.pollSet listener .read ctlFails

end Server
end Ion
