import Verif.Model.Connection
import Verif.Spec.Frames

/-!
# Observations of a connection

What an observer sees of a connection, read off its event trace.
-/

namespace Ion

/-- A frame the code has read, as a frame of the specification. -/
def asFrame (f : FrameReader) : Spec.Frame :=
  ⟨f.header.type, f.header.flags, f.header.streamId.toNat, f.payload⟩

namespace Sim

/-- Octets received. -/
def received : List Ev → Bytes
  | [] => []
  | .read bs _ :: tr => bs ++ received tr
  | _ :: tr => received tr

/-- Octets produced (appended to the write buffer). -/
def produced : List Ev → Bytes
  | [] => []
  | .enqueue bs :: tr => bs ++ produced tr
  | _ :: tr => produced tr

/-- Octets the transport accepted: the first `n` of each successful write. -/
def accepted : List Ev → Bytes
  | [] => []
  | .write a (.wrote n _) :: tr => a.take n ++ accepted tr
  | _ :: tr => accepted tr

/-- Frames acted on. -/
def frames : List Ev → List FrameReader
  | [] => []
  | .frame f :: tr => f :: frames tr
  | _ :: tr => frames tr

/-- Handler calls. -/
def handled : List Ev → List (HttpRequest × HOut)
  | [] => []
  | .handled q o :: tr => (q, o) :: handled tr
  | _ :: tr => handled tr

/-- Write attempts. -/
def writeAttempts : List Ev → List (Bytes × WriteRes)
  | [] => []
  | .write a r :: tr => (a, r) :: writeAttempts tr
  | _ :: tr => writeAttempts tr

/-- Responses produced: stream, response, encoded header block. -/
def responses : List Ev → List (UInt32 × HttpResponse × Bytes)
  | [] => []
  | .respond i r b :: tr => (i, r, b) :: responses tr
  | _ :: tr => responses tr

/-- Access log calls. -/
def logs : List Ev → List (List Header × UInt16 × Nat)
  | [] => []
  | .logged h s n :: tr => (h, s, n) :: logs tr
  | _ :: tr => logs tr

/-- Octets of the preface and of the frames acted on. -/
def consumed : List Ev → Nat
  | [] => 0
  | .prefaceOk :: tr => 24 + consumed tr
  | .frame f :: tr => 9 + f.payload.length + consumed tr
  | _ :: tr => consumed tr

variable {W : Type}

/-- The connection has been used by the server, and its latest `process()` call returned `r` and left
it in state `s`. -/
def Called (cfg : Cfg W) (w : W) (now : Nat) (r : ProcRes) (s : Sim W) : Prop :=
  ∃ s0 env, InUse cfg w now s0 ∧ s0.process cfg env = .ok (r, s)

end Sim
end Ion
