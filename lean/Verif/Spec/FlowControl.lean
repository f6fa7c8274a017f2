import Verif.Spec.Frames

/-!
# Specification: flow control, RFC 9113 sections 5.2, 6.5.2, 6.9
-/

namespace Ion.Spec

/-- Octets of DATA payload in these frames. -/
def dataOctets (fs : List Frame) : Nat :=
  ((fs.filter fun f => f.type == 0).map fun f => f.payload.length).sum

/-- Octets of DATA payload on one stream. -/
def dataOn (stream : Nat) (fs : List Frame) : Nat := dataOctets (fs.filter fun f => f.stream == stream)

/-- What the WINDOW_UPDATE frames for a stream (0: the connection) add up to. -/
def increments (stream : Nat) (fs : List Frame) : Nat :=
  ((fs.filter fun f => f.type == 8 && f.stream == stream).map fun f => be f.payload % 2 ^ 31).sum

/-- The entries of a SETTINGS payload. -/
def settingsEntries : Bytes → List (Nat × Nat)
  | a :: b :: c :: d :: e :: f :: rest => (be [a, b], be [c, d, e, f]) :: settingsEntries rest
  | _ => []

/-- SETTINGS_INITIAL_WINDOW_SIZE (identifier 4) after these frames; 65535 until the peer sets it. -/
def initialWindow (fs : List Frame) : Nat :=
  fs.foldl (fun v f => if f.type = 4 ∧ f.flags &&& 1 = 0 then
    (settingsEntries f.payload).foldl (fun v e => if e.1 = 4 then e.2 else v) v else v) 65535

/-- The DATA frames among `sent` fit the windows that the peer, having sent `received`, granted. -/
def FitsWindows (received sent : List Frame) : Prop :=
  dataOctets sent ≤ 65535 + increments 0 received ∧
    ∀ stream, dataOn stream sent ≤ initialWindow received + increments stream received

end Ion.Spec
