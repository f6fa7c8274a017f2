import Verif.Spec.Hpack
import Verif.Spec.Connection
import Verif.Spec.Response

/-!
# Specification: what a server does with the frames of a connection

From the client's frames to handler calls and responses, with header blocks read by RFC 7541 (in the
dialect of C13: limits of 4096 octets per string and 65536 octets for the table, lenient Huffman
padding). Nothing of ion's decoder is used.
-/

namespace Ion.Spec

/-- Section 6.2: the field block of a HEADERS frame. With the PRIORITY flag (0x20) five octets come
before it. As ion reads it: the PADDED flag is not looked at, nor END_HEADERS. -/
def FieldBlock (f : Frame) (block : Bytes) : Prop :=
  if f.flags &&& 0x20 = 0 then f.payload = block
  else ∃ priority, priority.length = 5 ∧ f.payload = priority ++ block

/-- The first field called `name` has this value. -/
def FirstField (fields : List Header) (name value : Bytes) : Prop :=
  ∃ pre post, fields = pre ++ ⟨name, value⟩ :: post ∧ ∀ h ∈ pre, h.name ≠ name

/-- The block, read with the table `T`, gives these fields and this table. -/
def ReadsAs (T : Table) (block : Bytes) (fields : List Header) (T' : Table) : Prop :=
  ∃ reps, BlockWire Dialect.lenient reps block ∧ execReps 65536 T reps = some (fields, T')

/-- `Serves cfg w0 ins calls answers T w`: for the client's frames `ins` the application `cfg`,
starting in world `w0`, gets the handler calls `calls`; the responses (stream, fields, body) are
`answers`; the header table is `T` and the world `w` afterwards. -/
inductive Serves {W : Type} (cfg : Cfg W) (w0 : W) : List Frame → List (HttpRequest × HOut) →
    List (Nat × List Header × Bytes) → Table → W → Prop
  | nil : Serves cfg w0 [] [] [] ⟨[], 65536⟩ w0
  /-- A HEADERS frame with `:path` and `:method`: the handler for the first of each is called with all
  fields; its response is the answer, an empty 500 response if it throws. -/
  | request (ins : List Frame) (calls : List (HttpRequest × HOut))
      (answers : List (Nat × List Header × Bytes)) (T T' : Table) (w w' : W) (f : Frame)
      (block : Bytes) (fields : List Header) (path method : Bytes) (o : HOut) (r : HttpResponse)
      (out : List Header) (h : Serves cfg w0 ins calls answers T w) (ht : f.type = 1)
      (hb : FieldBlock f block) (hr : ReadsAs T block fields T')
      (hp : FirstField fields b!":path" path) (hm : FirstField fields b!":method" method)
      (hh : cfg.getHandler path method ⟨method, path, fields⟩ w = (o, w'))
      (ho : o = .resp r ∨ (o = .stdExn ∧ r = { status := 500 })) (hf : ResponseFields r out) :
      Serves cfg w0 (ins ++ [f]) (calls ++ [(⟨method, path, fields⟩, o)])
        (answers ++ [(f.stream, out, r.body)]) T' w'
  /-- A HEADERS frame without `:path` or without `:method`: no handler is called. The response is ion's:
  it has neither fields nor body (see C42). -/
  | incomplete (ins : List Frame) (calls : List (HttpRequest × HOut))
      (answers : List (Nat × List Header × Bytes)) (T T' : Table) (w : W) (f : Frame) (block : Bytes)
      (fields : List Header) (h : Serves cfg w0 ins calls answers T w) (ht : f.type = 1)
      (hb : FieldBlock f block) (hr : ReadsAs T block fields T')
      (hn : (∀ x ∈ fields, x.name ≠ b!":path") ∨ ∀ x ∈ fields, x.name ≠ b!":method") :
      Serves cfg w0 (ins ++ [f]) calls (answers ++ [(f.stream, [], [])]) T' w
  /-- Other frames call no handler and have no response; malformed SETTINGS frames are not served. -/
  | other (ins : List Frame) (calls : List (HttpRequest × HOut))
      (answers : List (Nat × List Header × Bytes)) (T : Table) (w : W) (f : Frame)
      (h : Serves cfg w0 ins calls answers T w) (ht : f.type ≠ 1) (hs : ¬ BadSettings f) :
      Serves cfg w0 (ins ++ [f]) calls answers T w

/-- A frame that a server with header table `T` has to refuse: a malformed SETTINGS frame, or a HEADERS
frame whose field block cannot be read. -/
def Unacceptable (T : Table) (f : Frame) : Prop :=
  BadSettings f ∨ (f.type = 1 ∧ ∃ block, FieldBlock f block ∧ ∀ fields T', ¬ ReadsAs T block fields T')

/-- `ClientSees limit T0 outs answers T`: a client that follows RFC 7541 and RFC 9113, with header table
`T0` and limit `limit` for size updates, makes of the frames `outs` the responses `answers` (stream,
fields, body), in this order, and has the table `T` afterwards. A response is a HEADERS frame whose block
has exactly one reading, and the frames of its body. -/
inductive ClientSees (limit : Nat) (T0 : Table) : List Frame → List (Nat × List Header × Bytes) →
    Table → Prop
  | nil : ClientSees limit T0 [] [] T0
  /-- A SETTINGS ACK is not part of a response. -/
  | ack (outs : List Frame) (answers : List (Nat × List Header × Bytes)) (T : Table)
      (h : ClientSees limit T0 outs answers T) : ClientSees limit T0 (outs ++ [⟨4, 1, 0, []⟩]) answers T
  | response (outs : List Frame) (answers : List (Nat × List Header × Bytes)) (T T' : Table)
      (stream : Nat) (block : Bytes) (reps : List Rep) (fields : List Header) (body : Bytes)
      (ds : List Frame) (h : ClientSees limit T0 outs answers T) (hw : BlockWire Dialect.rfc reps block)
      (hu : ∀ reps', BlockWire Dialect.rfc reps' block → reps' = reps)
      (he : execReps limit T reps = some (fields, T')) (hd : BodyFrames stream body ds) :
      ClientSees limit T0 (outs ++ ⟨1, if body = [] then 5 else 4, stream, block⟩ :: ds)
        (answers ++ [(stream, fields, body)]) T'

end Ion.Spec
