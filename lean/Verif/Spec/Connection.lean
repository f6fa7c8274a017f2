import Verif.Spec.Frames

/-!
# Specification: the octets a connection exchanges, RFC 9113 sections 3.4, 4.1, 4.2, 6.5
-/

namespace Ion.Spec

/-- Section 3.4: the client connection preface, as the RFC gives it in hex notation. -/
def preface : Bytes :=
  [0x50, 0x52, 0x49, 0x20, 0x2a, 0x20, 0x48, 0x54, 0x54, 0x50, 0x2f, 0x32, 0x2e, 0x30, 0x0d, 0x0a,
    0x0d, 0x0a, 0x53, 0x4d, 0x0d, 0x0a, 0x0d, 0x0a]

/-- The octets are the beginning of a frame whose rest has not arrived: an incomplete frame header,
or a proper prefix of a frame with at most 16384 octets of payload. -/
def Waiting (rest : Bytes) : Prop :=
  rest.length < 9 ∨ ∃ f w ext, FrameWire f w ∧ f.payload.length ≤ 16384 ∧ ext ≠ [] ∧ w = rest ++ ext

/-- The octets begin with a frame header announcing more than 16384 octets of payload. -/
def Oversized (rest : Bytes) : Prop :=
  ∃ len more, rest = len ++ more ∧ len.length = 3 ∧ 6 ≤ more.length ∧ 16384 < be len

/-- Section 6.5.2: the settings ion announces: SETTINGS_MAX_CONCURRENT_STREAMS = 100,
SETTINGS_INITIAL_WINDOW_SIZE = 65535, SETTINGS_MAX_FRAME_SIZE = 16384. -/
def announced : List (Nat × Nat) := [(3, 100), (4, 65535), (5, 16384)]

/-- The server connection preface (section 3.4): a SETTINGS frame without ACK on stream 0. -/
def ServerPreface (f : Frame) : Prop :=
  f.type = 4 ∧ f.flags = 0 ∧ f.stream = 0 ∧ SettingsPayload announced f.payload

/-- DATA frames carrying `body` on a stream: non-empty, at most 16384 octets each, END_STREAM (flag 1)
on the last one only. -/
structure BodyFrames (stream : Nat) (body : Bytes) (fs : List Frame) : Prop where
  data : ∀ f ∈ fs, f.type = 0 ∧ f.stream = stream ∧ f.payload ≠ [] ∧ f.payload.length ≤ 16384
  octets : (fs.map Frame.payload).flatten = body
  last : ∀ pre f post, fs = pre ++ f :: post → f.flags = if post = [] then 1 else 0

/-- `Replies ins resps outs`: the frames `outs` answer the frames `ins`, in order. A SETTINGS frame
without ACK (flag 1) is answered by a SETTINGS ACK; a HEADERS frame by the next response (stream,
header block, body) as a HEADERS frame with END_HEADERS (flag 4), and END_STREAM if there is no body,
followed by the body; nothing else is answered. -/
inductive Replies : List Frame → List (Nat × Bytes × Bytes) → List Frame → Prop
  | nil : Replies [] [] []
  | settings (ins : List Frame) (rs : List (Nat × Bytes × Bytes)) (outs : List Frame) (f : Frame)
      (h : Replies ins rs outs) (ht : f.type = 4) (hf : f.flags &&& 1 = 0)
      (hl : f.payload.length % 6 = 0) :
      Replies (ins ++ [f]) rs (outs ++ [⟨4, 1, 0, []⟩])
  | request (ins : List Frame) (rs : List (Nat × Bytes × Bytes)) (outs : List Frame) (f : Frame)
      (block body : Bytes) (ds : List Frame) (h : Replies ins rs outs) (ht : f.type = 1)
      (hd : BodyFrames f.stream body ds) :
      Replies (ins ++ [f]) (rs ++ [(f.stream, block, body)])
        (outs ++ ⟨1, if body = [] then 5 else 4, f.stream, block⟩ :: ds)
  | other (ins : List Frame) (rs : List (Nat × Bytes × Bytes)) (outs : List Frame) (f : Frame)
      (h : Replies ins rs outs) (h1 : f.type ≠ 1) (h4 : f.type = 4 → f.flags &&& 1 ≠ 0) :
      Replies (ins ++ [f]) rs outs

/-- A SETTINGS frame that must be acknowledged: not an ACK itself. -/
def NeedsAck (f : Frame) : Prop := f.type = 4 ∧ f.flags &&& 1 = 0

instance (f : Frame) : Decidable (NeedsAck f) := inferInstanceAs (Decidable (_ ∧ _))

/-- Section 6.5: a malformed SETTINGS frame: not an ACK, and its length is not a multiple of six. -/
def BadSettings (f : Frame) : Prop := NeedsAck f ∧ f.payload.length % 6 ≠ 0

instance (f : Frame) : Decidable (BadSettings f) := inferInstanceAs (Decidable (_ ∧ _))

/-- A frame the server need not react to: not HEADERS, SETTINGS or GOAWAY, and not a WINDOW_UPDATE of
fewer than four octets. -/
def Inert (f : Frame) : Prop :=
  f.type ≠ 1 ∧ f.type ≠ 4 ∧ f.type ≠ 7 ∧ (f.type = 8 → 4 ≤ f.payload.length)

instance (f : Frame) : Decidable (Inert f) := inferInstanceAs (Decidable (_ ∧ _ ∧ _ ∧ _))

end Ion.Spec
