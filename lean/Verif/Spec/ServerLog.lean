import Verif.Model.ServerLog
import Verif.Spec.Log
import Verif.Spec.Server

/-! # What the server's log says about connections -/

namespace Ion
namespace Spec

/-- A line that says that a connection was opened. -/
def Opening (l : Line) : Prop := ∃ d, l = (.info, b!"HTTP connection established. total = " ++ d)

/-- A line that says that a connection has ended. -/
def Ending (l : Line) : Prop :=
  l = (.info, b!"closing connection") ∨ l = (.debug, b!"poll indicated connection closed") ∨
    ∃ d, l = (.warn, b!"closing connection due to inactivity (fd: " ++ d ++ b!")")

/-- The number of connections can be followed in the log, from `n` to `m`: a line for each that is opened, with the
number there are then, and a line for each that has ended. -/
inductive Counted : Nat → List Line → Nat → Prop where
  | nil (n : Nat) : Counted n [] n
  | other {n m : Nat} {ls : List Line} (l : Line) : ¬ Opening l → ¬ Ending l → Counted n ls m → Counted n (l :: ls) m
  | opened {n m : Nat} {ls : List Line} (d : Bytes) : IsDecimal (n + 1) d → Counted (n + 1) ls m →
    Counted n ((.info, b!"HTTP connection established. total = " ++ d) :: ls) m
  | ended {n m : Nat} {ls : List Line} (l : Line) : Ending l → Counted n ls m → Counted (n + 1) (l :: ls) m

/-- A line that says that the poller failed. -/
def Complaint (l : Line) : Prop := ∃ x, l = (.warn, b!"epoll_ctl: " ++ x)

end Spec
end Ion
