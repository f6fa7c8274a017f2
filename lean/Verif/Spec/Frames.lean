import Verif.Model.Base

/-!
# Specification: HTTP/2 frame layout, RFC 9113 sections 4.1, 6.5.1, 6.8, 6.9
-/

namespace Ion.Spec

/-- Network byte order. -/
def be : Bytes → Nat
  | [] => 0
  | b :: bs => b.toNat * 256 ^ bs.length + be bs

/-- A frame: type, flags, stream identifier and payload. -/
structure Frame where
  type : UInt8
  flags : UInt8
  stream : Nat
  payload : Bytes
deriving DecidableEq, Repr

/-- Section 4.1: 24-bit length, type, flags, reserved bit (ignored), 31-bit stream identifier,
payload. -/
def FrameWire (f : Frame) (w : Bytes) : Prop :=
  ∃ len sid, len.length = 3 ∧ sid.length = 4 ∧
    w = len ++ ([f.type, f.flags] ++ (sid ++ f.payload)) ∧
    be len = f.payload.length ∧ be sid % 2 ^ 31 = f.stream

/-- A sequence of frames. -/
inductive FramesWire : List Frame → Bytes → Prop
  | nil : FramesWire [] []
  | cons (f : Frame) (fs : List Frame) (w ws : Bytes) (h : FrameWire f w) (hs : FramesWire fs ws) :
      FramesWire (f :: fs) (w ++ ws)

/-- Section 6.5.1: a SETTINGS payload is a sequence of 16-bit identifiers and 32-bit values. -/
inductive SettingsPayload : List (Nat × Nat) → Bytes → Prop
  | nil : SettingsPayload [] []
  | cons (i v : Nat) (rest : List (Nat × Nat)) (wi wv ws : Bytes) (hi : wi.length = 2)
      (hv : wv.length = 4) (ei : be wi = i) (ev : be wv = v) (hs : SettingsPayload rest ws) :
      SettingsPayload ((i, v) :: rest) (wi ++ (wv ++ ws))

end Ion.Spec
