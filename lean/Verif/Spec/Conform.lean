import Verif.Spec.Serve

/-!
# Specification: duties of a server under RFC 9113

Unlike `Verif.Spec.Serve`, which says how ion reads frames, these definitions follow the RFC alone.
-/

namespace Ion.Spec

/-- Section 6.7: a PING frame that has to be answered: without ACK (flag 1), on stream 0, with eight
octets. -/
def PingRequest (f : Frame) : Prop :=
  f.type = 6 ∧ f.flags &&& 1 = 0 ∧ f.stream = 0 ∧ f.payload.length = 8

/-- Section 6.7: the frame that answers it. -/
def pingAnswer (f : Frame) : Frame := ⟨6, 1, 0, f.payload⟩

/-- Section 6.2: the field block fragment of a HEADERS frame. PADDED is flag 0x08: the first octet is
the number of octets of padding at the end. PRIORITY is flag 0x20: five octets come before the
fragment. -/
def Fragment (f : Frame) (frag : Bytes) : Prop :=
  ∃ padLen priority padding, f.payload = padLen ++ (priority ++ (frag ++ padding)) ∧
    (if f.flags &&& 8 = 0 then padLen = [] ∧ padding = []
      else padLen.length = 1 ∧ be padLen = padding.length) ∧
    (if f.flags &&& 0x20 = 0 then priority = [] else priority.length = 5)

/-- Section 6.10: the CONTINUATION frames (type 9) that complete a field block on this stream: only the
last has END_HEADERS (flag 4). -/
def Continues (stream : Nat) (conts : List Frame) : Prop :=
  conts ≠ [] ∧ (∀ c ∈ conts, c.type = 9 ∧ c.stream = stream) ∧
    ∀ pre c post, conts = pre ++ c :: post → (c.flags &&& 4 ≠ 0 ↔ post = [])

/-- `RequestBlocks ins blocks`: the frames `ins` open streams with these field blocks (stream, octets),
in this order: each block is the fragment of a HEADERS frame, together with the payloads of the
CONTINUATION frames right behind it if the HEADERS frame does not have END_HEADERS (flag 4). -/
inductive RequestBlocks : List Frame → List (Nat × Bytes) → Prop
  | nil : RequestBlocks [] []
  | whole (ins : List Frame) (blocks : List (Nat × Bytes)) (f : Frame) (frag : Bytes)
      (h : RequestBlocks ins blocks) (ht : f.type = 1) (he : f.flags &&& 4 ≠ 0)
      (hf : Fragment f frag) :
      RequestBlocks (ins ++ [f]) (blocks ++ [(f.stream, frag)])
  | split (ins : List Frame) (blocks : List (Nat × Bytes)) (f : Frame) (frag : Bytes)
      (conts : List Frame) (h : RequestBlocks ins blocks) (ht : f.type = 1) (he : f.flags &&& 4 = 0)
      (hf : Fragment f frag) (hc : Continues f.stream conts) :
      RequestBlocks (ins ++ f :: conts)
        (blocks ++ [(f.stream, frag ++ (conts.map Frame.payload).flatten)])
  | other (ins : List Frame) (blocks : List (Nat × Bytes)) (f : Frame)
      (h : RequestBlocks ins blocks) (h1 : f.type ≠ 1) (h9 : f.type ≠ 9) :
      RequestBlocks (ins ++ [f]) blocks

/-- A field block as a single HEADERS frame without padding and priority. -/
def plainHeaders (b : Nat × Bytes) : Frame := ⟨1, 5, b.1, b.2⟩

/-- What a server that assembles field blocks as the RFC says does for the frames `ins`. -/
def ServesRfc {W : Type} (cfg : Cfg W) (w0 : W) (ins : List Frame) (calls : List (HttpRequest × HOut))
    (answers : List (Nat × List Header × Bytes)) (T : Table) (w : W) : Prop :=
  ∃ blocks, RequestBlocks ins blocks ∧ Serves cfg w0 (blocks.map plainHeaders) calls answers T w

/-- Section 5.1.1: the identifiers of the streams a client opens are odd and increase. -/
def StreamsOk (ids : List Nat) : Prop := (∀ i ∈ ids, i % 2 = 1) ∧ ids.Pairwise (· < ·)

/-- The streams of the HEADERS frames among `fs`. -/
def headerStreams (fs : List Frame) : List Nat := (fs.filter fun f => f.type == 1).map Frame.stream

/-- Section 4.2: within the maximum frame size a peer has to accept. -/
def FitsFrameSize (fs : List Frame) : Prop := ∀ f ∈ fs, f.payload.length ≤ 16384

/-- Frames that have to be treated as a connection error: DATA (6.1) and HEADERS (6.2) on stream 0;
SETTINGS (6.5) on another stream, of a length that is not a multiple of six, or with ACK and a payload;
PING (6.7) on another stream than 0 or without exactly eight octets; WINDOW_UPDATE (6.9) without exactly
four octets. -/
def Forbidden (f : Frame) : Prop :=
  (f.type = 0 ∧ f.stream = 0) ∨ (f.type = 1 ∧ f.stream = 0) ∨
  (f.type = 4 ∧ (f.stream ≠ 0 ∨ f.payload.length % 6 ≠ 0 ∨ (f.flags &&& 1 ≠ 0 ∧ f.payload ≠ []))) ∨
  (f.type = 6 ∧ (f.stream ≠ 0 ∨ f.payload.length ≠ 8)) ∨
  (f.type = 8 ∧ f.payload.length ≠ 4)

instance (f : Frame) : Decidable (Forbidden f) := inferInstanceAs (Decidable (_ ∨ _ ∨ _ ∨ _ ∨ _))

end Ion.Spec
