import Verif.Model.ConnLog
import Verif.Spec.Log

/-! # What the log says about the end of a connection -/

namespace Ion
namespace Spec

/-- An error of the transport that is neither "try again" nor the client's closing it. -/
def Grave (e : TErr) : Prop := e ≠ .wantReadOrWrite ∧ e ≠ .connectionClosed

/-- Lines among which there is one error and no warning, or neither. -/
def OneError (grave : Prop) (lines : List Line) : Prop :=
  (grave → ∃ text, written 3 lines = [(.err, text)]) ∧ (¬ grave → written 3 lines = [])

/-- A transport that logs an error whenever an operation fails for good, and no other warnings and errors. -/
structure Sincere (net : NetLog) : Prop where
  handshake : ∀ r, OneError (∃ e, r = .fail e ∧ Grave e) (net.handshake r)
  read : ∀ rs, OneError (∃ e, rs.head? = some (.fail e) ∧ Grave e) (net.read rs)
  write : ∀ a ws, OneError (∃ e, ws.head? = some (.fail e) ∧ Grave e) (net.write a ws)

/-- The number by which a failure to write is named in the log: its place in
`WantReadOrWrite, WriteError, ConnectionClosed, ProtocolError, OtherError`. -/
def errorNumber (e : TErr) : Nat :=
  [TErr.wantReadOrWrite, .writeError, .connectionClosed, .protocolError, .otherError].idxOf e

variable {W : Type}

/-- The text says what went wrong on a connection on which `tr` happened. -/
inductive Cause (cfg : Cfg W) (w : W) (tr : List Ev) : Bytes → Prop where
  /-- The client did not begin with the preface. -/
  | preface : 24 ≤ (Sim.received tr).length → ¬ Spec.preface <+: Sim.received tr →
    Cause cfg w tr b!"invalid HTTP/2 preface received"
  /-- The transport reported a protocol error. -/
  | read : Ev.readFail .protocolError ∈ tr → Cause cfg w tr b!"transport protocol error"
  /-- What was to be sent could not be. -/
  | write (a : Bytes) (e : TErr) (d : Bytes) : Ev.write a (.fail e) ∈ tr → e ≠ .wantReadOrWrite →
    IsDecimal (errorNumber e) d → Cause cfg w tr (b!"failed to flush write buffer: error: " ++ d)
  /-- After frames that were served came one that is wrong. -/
  | frame (ins post : List FrameReader) (f : FrameReader) (calls : List (HttpRequest × HOut))
      (answers : List (Nat × List Header × Bytes)) (T : Table) (w' : W) (text : Bytes) :
    Sim.frames tr = ins ++ f :: post → Serves cfg w (ins.map asFrame) calls answers T w' →
    Fault T (asFrame f) text → Cause cfg w tr text
  /-- After frames that were acted on came one that is too long. -/
  | big (ins post : List FrameReader) (v rest text : Bytes) : Sim.frames tr = ins ++ post →
    FramesWire (ins.map asFrame) v → Sim.received tr = Spec.preface ++ (v ++ rest) → TooBig rest text →
    Cause cfg w tr text

/-- A warning or an error that is in place on a connection on which `tr` happened. -/
inductive Alarm (cfg : Cfg W) (app : AppLog W) (w : W) (tr : List Ev) : Line → Prop where
  /-- It says what went wrong, ... -/
  | cause (v : Level) (text : Bytes) : Cause cfg w tr text → Alarm cfg app w tr (v, text)
  /-- ... or that the connection is closed for such a reason, ... -/
  | closing (text : Bytes) : Cause cfg w tr text → Alarm cfg app w tr (.err, b!"protocol error. closing connection")
  /-- ... or that a read failed in one of these ways, ... -/
  | readWrite : Ev.readFail .writeError ∈ tr → Alarm cfg app w tr (.err, b!"transport write error")
  | readOther : Ev.readFail .otherError ∈ tr →
    Alarm cfg app w tr (.err, b!"transport other error (presumed non fatal)")
  /-- ... or it is what the transport says of its failure to read ... -/
  | netRead (e : TErr) (text : Bytes) : Ev.readFail e ∈ tr → Grave e → Alarm cfg app w tr (.err, text)
  /-- ... or to write. -/
  | netWrite (a : Bytes) (e : TErr) (text : Bytes) : Ev.write a (.fail e) ∈ tr → Grave e →
    Alarm cfg app w tr (.err, text)
  /-- It is about a request without a target or method, ... -/
  | missing (hs : List Header) (status : UInt16) (size : Nat) : (hs, status, size) ∈ Sim.logs tr →
    (∀ h ∈ hs, h.name ≠ b!":path") ∨ (∀ h ∈ hs, h.name ≠ b!":method") →
    Alarm cfg app w tr (.err, b!"invalid request: missing path or method")
  /-- ... or about a handler that threw, ... -/
  | threw (req : HttpRequest) (w' : W) : (req, HOut.stdExn) ∈ Sim.handled tr →
    Alarm cfg app w tr (.err, b!"error processing request: " ++ app.what req w')
  /-- ... or it is from a handler. -/
  | handler (req : HttpRequest) (out : HOut) (w' : W) (l : Line) : (req, out) ∈ Sim.handled tr →
    l ∈ app.lines req w' → Alarm cfg app w tr l

/-- A connection as the server uses it, with what has been logged in its calls so far. -/
inductive Recorded (cfg : Cfg W) (app : AppLog W) (w : W) (now : Nat) : Sim W → List Line → Prop where
  | new : Recorded cfg app w now (Sim.init w now) []
  | step (s s' : Sim W) (lines : List Line) (env : Env) (net : NetLog) (r : ProcRes) :
    Recorded cfg app w now s lines → Sincere net → s.process cfg env = .ok (r, s') → r ≠ .discard →
    Recorded cfg app w now s' (lines ++ s.processLines cfg app net env)

/-- The client ended the connection: it closed the transport, or sent GOAWAY. -/
def ClientEnded (tr : List Ev) : Prop :=
  Ev.readFail .connectionClosed ∈ tr ∨ ∃ f ∈ Sim.frames tr, f.header.type = 7

end Spec
end Ion
