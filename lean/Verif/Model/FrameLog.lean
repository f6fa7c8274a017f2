import Verif.Model.Connection

/-!
# What is logged while a frame is handled: `lib/http2_conn.cpp`, `lib/http2_frame_reader.cpp`, `lib/hpack/*.cpp`

The lines that `spdlog` is given, with their levels, as functions beside the code that does the work. A function
`…Lines` follows the function it is named after through the same cases and uses its results, so that what is logged
before undefined behaviour or an escaping exception is there too. What the application logs is a parameter. Not
modelled: the pattern of a line (`logText`), the sinks, and what is logged on a second level by handlers' libraries.
-/

namespace Ion

/-- `spdlog::level` as far as the library uses it, in the order of `Args.levelNames`. -/
inductive Level where
  | trace | debug | info | warn | err
deriving DecidableEq, Repr

/-- Position in `Args.levelNames`. -/
def Level.rank : Level → Nat
  | .trace => 0 | .debug => 1 | .info => 2 | .warn => 3 | .err => 4

/-- A message with its level. -/
abbrev Line := Level × Bytes

/-! ## Formats -/

/-- A hexadecimal digit; `a` is the digit ten. -/
def hexDigit (a : UInt8) (n : Nat) : UInt8 := if n < 10 then UInt8.ofNat (48 + n) else a + UInt8.ofNat (n - 10)

/-- Two hexadecimal digits (`{:02X}` with `a` = 'A', `{:#04x}` after "0x" with `a` = 'a'). -/
def hex2 (a : UInt8) (b : UInt8) : Bytes := [hexDigit a (b.toNat / 16), hexDigit a (b.toNat % 16)]

/-- `{}` of a `bool`. -/
def boolText (b : Bool) : Bytes := if b then b!"true" else b!"false"

/-! ## Tables -/

/-- `DynamicTable::insert` (lib/hpack/dynamic_table.cpp:22-23,36). -/
def DynTable.insertLines (t : DynTable) (header : Header) : List Line :=
  if entrySize header > t.maxTableSize then
    [(.debug, b!"dynamic table: entry too big (sz: " ++ decimal (entrySize header) ++ b!", max: " ++
      decimal t.maxTableSize ++ b!"), table wiped")]
  else
    [(.debug, b!"dynamic table: current sz: " ++ decimal (entrySize header) ++ b!", max: " ++ decimal t.maxTableSize)]

/-- The loop of `DynamicTable::log_contents` from position `pos` on (lib/hpack/dynamic_table.cpp:60-63). -/
def entryLines : Nat → List Header → List Line
  | _, [] => []
  | pos, h :: hs => (.debug, b!" - (" ++ decimal pos ++ b!") " ++ h.name ++ b!": " ++ h.value) :: entryLines (pos + 1) hs

/-- `DynamicTable::log_contents` (lib/hpack/dynamic_table.cpp:58-64). -/
def DynTable.contentLines (t : DynTable) : List Line :=
  (.debug, b!"dynamic table (size: " ++ decimal t.tableSize ++ b!", max: " ++ decimal t.maxTableSize ++ b!"):") ::
    entryLines 0 t.table

/-- `log_dynamic_tables` (lib/http2_conn.cpp:426-431). -/
def tablesLines (dec enc : DynTable) : List Line :=
  (.debug, b!"decoder dynamic table:") :: dec.contentLines ++ (.debug, b!"encoder dynamic table:") :: enc.contentLines

/-! ## Decoder -/

namespace HuffTree

/-- The padding loop of `HuffmanTree::decode` after `bits` bits (lib/hpack/huffman_tree.cpp:53-60). -/
def restLines (br : BitReader) (bits : Nat) : List Line :=
  if _h : br.hasMore then
    if !br.readBit.1 then
      [(.err, b!"remaining unmatched Huffman code is not padding: (bit pos = " ++ decimal bits ++ b!")")]
    else restLines br.readBit.2 (bits + 1)
  else []
termination_by br.data.length * 8 - br.bitPos
decreasing_by
  have := br.bitPos_readBit _h
  simp only [BitReader.hasMore, decide_eq_true_eq] at _h
  rw [this.1, this.2]; omega

/-- The loop of `HuffmanTree::decode` after `bits` bits (lib/hpack/huffman_tree.cpp:44-68). -/
def loopLines (root : HuffTree) (br : BitReader) (current : HuffTree) (bits : Nat) : List Line :=
  if _h : br.hasMore then
    match current with
    | nil => []
    | node left right _ =>
      match (if !br.readBit.1 then left else right) with
      | nil => restLines br.readBit.2 (bits + 1)
      | node _ _ (some _) => loopLines root br.readBit.2 root (bits + 1)
      | node l r none => loopLines root br.readBit.2 (node l r none) (bits + 1)
  else []
termination_by br.data.length * 8 - br.bitPos
decreasing_by
  all_goals
    have := br.bitPos_readBit _h
    simp only [BitReader.hasMore, decide_eq_true_eq] at _h
    rw [this.1, this.2]; omega

/-- `HuffmanTree::decode` (lib/hpack/huffman_tree.cpp:37-71). -/
def decodeLines (root : HuffTree) (data : Bytes) : List Line := loopLines root { data := data } root 0

end HuffTree

/-- `string_length_within_limit` (lib/hpack/header_block_decoder.cpp:54-61). -/
def limitLines (size : Nat) : List Line :=
  if stringLengthWithinLimit size then []
  else [(.err, b!"Header string length exceeds maximum allowed size (len: " ++ decimal size ++ b!", max: " ++
    decimal maxHeaderStringLength ++ b!")")]

/-- `decode_huffman_string` (lib/hpack/header_block_decoder.cpp:63-73). -/
def huffmanStringLines (size : Nat) (data : Bytes) : List Line :=
  if size > data.length then []
  else
    huffmanTree.decodeLines (data.take size) ++
      match huffmanTree.decode (data.take size) with
      | .ok bytes => limitLines bytes.length
      | _ => []

/-- `read_string` (lib/hpack/header_block_decoder.cpp:75-85). -/
def stringLines (isHuffman : Bool) (size : Nat) (data : Bytes) : List Line :=
  if isHuffman then huffmanStringLines size data else limitLines size

/-- `read_length_and_string` (lib/hpack/header_block_decoder.cpp:30-52). -/
def lengthAndStringLines (r : ByteReader) : List Line :=
  match r.peekByte with
  | none => [(.err, b!"Unexpected end of data while reading header length & string")]
  | some lengthByte =>
    match decodeInt r 7 with
    | .error _ => [(.err, b!"Failed to decode string length integer")]
    | .ok (strSize, r) =>
      match r.readBytes strSize.toNat with
      | none => [(.err, b!"Insufficient data for string")]
      | some (span, _) => stringLines (decide (lengthByte &&& 0x80 ≠ 0)) strSize.toNat span

/-- Body of `read_indexed_header` after the subtraction (lib/hpack/header_block_decoder.cpp:89-107). -/
def headerAtLines (t : DynTable) (index tableIndex : Nat) : List Line :=
  match staticTable[tableIndex]? with
  | some h =>
    [(.trace, b!"read indexed header from static table (idx: " ++ decimal tableIndex ++ b!", name: " ++ h.name ++
      b!", val: " ++ h.value ++ b!")")]
  | none =>
    let dynamicIndex := tableIndex - staticTable.length
    if dynamicIndex ≥ t.count then
      [(.err, b!"invalid dynamic table index lookup for header (idx: " ++ decimal index ++ b!", sz: " ++
        decimal t.count ++ b!")")]
    else
      match t.table[dynamicIndex]? with
      | some h =>
        [(.trace, b!"read indexed header from dynamic table (idx: " ++ decimal dynamicIndex ++ b!", name: " ++
          h.name ++ b!", val: " ++ h.value ++ b!")")]
      | none => []

/-- `read_indexed_header` (lib/hpack/header_block_decoder.cpp:87-108). -/
def indexedHeaderLines (t : DynTable) (index : Nat) : List Line :=
  headerAtLines t index (tableIndexOf index)

/-- Body of `read_indexed_header_name` after the subtraction (lib/hpack/header_block_decoder.cpp:112-130). -/
def headerNameAtLines (t : DynTable) (index tableIndex : Nat) : List Line :=
  match staticTable[tableIndex]? with
  | some h =>
    [(.trace, b!"read indexed header name from static table (idx: " ++ decimal tableIndex ++ b!", name: " ++ h.name ++
      b!")")]
  | none =>
    let dynamicIndex := tableIndex - staticTable.length
    if dynamicIndex ≥ t.count then
      [(.err, b!"invalid dynamic table index lookup for header name (idx: " ++ decimal index ++ b!", sz: " ++
        decimal t.count ++ b!")")]
    else
      match t.table[dynamicIndex]? with
      | some h =>
        [(.trace, b!"read indexed header name from dynamic table (idx: " ++ decimal dynamicIndex ++ b!", name: " ++
          h.name ++ b!")")]
      | none => []

/-- `read_indexed_header_name` (lib/hpack/header_block_decoder.cpp:110-131). -/
def indexedNameLines (t : DynTable) (index : Nat) : List Line :=
  headerNameAtLines t index (tableIndexOf index)

/-- `decode_indexed_field` (lib/hpack/header_block_decoder.cpp:133-144). -/
def indexedFieldLines (t : DynTable) (r : ByteReader) : List Line :=
  match decodeInt r 7 with
  | .error _ => [(.err, b!"failed to decode indexed header index (not enough bytes)")]
  | .ok (index, _) =>
    if index < 1 then [(.err, b!"invalid header index (<1)")] else indexedHeaderLines t index.toNat

/-- The value of a literal field whose name was read (lib/hpack/header_block_decoder.cpp:161-166). -/
def valueLines (name : Bytes) (r : ByteReader) : List Line :=
  lengthAndStringLines r ++
    match readLengthAndString r with
    | .ok (value, _) => [(.trace, b!"decoded header: name: " ++ name ++ b!", value: " ++ value)]
    | _ => []

/-- `decode_literal_field` (lib/hpack/header_block_decoder.cpp:146-167). -/
def literalFieldLines (t : DynTable) (idxPrefixBits : UInt8) (r : ByteReader) : List Line :=
  match decodeInt r idxPrefixBits with
  | .error _ => [(.err, b!"failed to decode literal field index (not enough bytes)")]
  | .ok (index, r) =>
    (.trace, b!"decoding literal field with index: " ++ decimal index.toNat ++ b!", new name: " ++
      boolText (index = 0)) ::
    if index = 0 then
      lengthAndStringLines r ++
        match readLengthAndString r with
        | .ok (name, r) => valueLines name r
        | _ => []
    else
      indexedNameLines t index.toNat ++
        match readIndexedHeaderName t index.toNat with
        | .ok name => valueLines name r
        | _ => []

/-- `decode_dynamic_table_size_update` (lib/hpack/header_block_decoder.cpp:169-186). -/
def sizeUpdateLines (r : ByteReader) : List Line :=
  match decodeInt r 5 with
  | .error _ => [(.err, b!"failed to decode dynamic table size update (not enough bytes)")]
  | .ok (newSz, _) =>
    if newSz.toNat > hardTableSizeLimit then
      [(.err, b!"dynamic table size update exceeds hard limit (" ++ decimal newSz.toNat ++ b!" > " ++
        decimal hardTableSizeLimit ++ b!")")]
    else [(.trace, b!"dynamic table size updated to: " ++ decimal newSz.toNat)]

/-- `HeaderField::to_string` (lib/hpack/header_field.h:35-50). -/
def FieldType.text : FieldType → Bytes
  | .indexed => b!"Indexed"
  | .literalIncremental => b!"LiteralIncremental"
  | .sizeUpdate => b!"SizeUpdate"
  | .literalNeverIndex => b!"LiteralNeverIndex"
  | .literalNoIndex => b!"LiteralNoIndex"
  | .invalid => b!"Invalid"

/-- One iteration of the loop in `HeaderBlockDecoder::decode` (lib/hpack/header_block_decoder.cpp:194-234). -/
def fieldLines (t : DynTable) (r : ByteReader) (firstByte : UInt8) : List Line :=
  (.trace, b!"header type: " ++ (fieldType firstByte).text ++ b!", byte: 0x" ++ hex2 0x41 firstByte) ::
  match fieldType firstByte with
  | .indexed => indexedFieldLines t r
  | .literalIncremental =>
    literalFieldLines t 6 r ++
      match decodeLiteralField t 6 r with
      | .ok (h, _) => t.insertLines h
      | _ => []
  | .literalNoIndex | .literalNeverIndex => literalFieldLines t 4 r
  | .sizeUpdate => sizeUpdateLines r
  | .invalid => [(.err, b!"invalid first byte in header representation: " ++ decimal firstByte.toNat)]

/-- The loop of `HeaderBlockDecoder::decode` (lib/hpack/header_block_decoder.cpp:193-236). -/
def blockLoopLines : (fuel : Nat) → DynTable → ByteReader → List Line
  | _, _, [] => []
  | 0, _, _ :: _ => []
  | fuel + 1, t, b :: r =>
    fieldLines t (b :: r) b ++
      match decodeField t (b :: r) b with
      | .ok (_, t', r') => blockLoopLines fuel t' r'
      | _ => []

/-- `HeaderBlockDecoder::decode` (lib/hpack/header_block_decoder.cpp:188-237). -/
def blockLines (t : DynTable) (data : Bytes) : List Line := blockLoopLines data.length t data

/-! ## Encoder -/

/-- One iteration of the loop in `HeaderBlockEncoder::encode`: only the insertion is logged
(lib/hpack/header_block_encoder.cpp:55-119). -/
def encodeHeaderLines (charSigned : Bool) (t : DynTable) (hdr : Header) : List Line :=
  match staticTable.findIdx? (fun h => h.name == hdr.name && h.value == hdr.value) with
  | some _ => []
  | none =>
    match t.find hdr with
    | some _ => []
    | none =>
      match (encodeHeader charSigned t hdr : Outcome Stop (Bytes × DynTable)) with
      | .ok _ => t.insertLines hdr
      | _ => []

/-- `HeaderBlockEncoder::encode` (lib/hpack/header_block_encoder.cpp:53-121). -/
def encodeLines (charSigned : Bool) : DynTable → List Header → List Line
  | _, [] => []
  | t, h :: hs =>
    encodeHeaderLines charSigned t h ++
      match (encodeHeader charSigned t h : Outcome Stop (Bytes × DynTable)) with
      | .ok (_, t) => encodeLines charSigned t hs
      | _ => []

/-! ## Connection -/

/-- What the application logs while a handler runs, and the text of the exception it may leave with. -/
structure AppLog (W : Type) where
  lines : HttpRequest → W → List Line
  what : HttpRequest → W → Bytes

/-- `state_to_string` (lib/http2_conn.cpp:301-317). -/
def CState.text : CState → Bytes
  | .awaitingHandshake => b!"AwaitingHandshake"
  | .awaitingPreface => b!"AwaitingPreface"
  | .awaitingFrame => b!"AwaitingFrame"
  | .protocolError => b!"ProtocolError"
  | .clientClosed => b!"ClientClosed"
  | .closing => b!"Closing"

variable {W : Type}

namespace Sim

/-- `update_state` (lib/http2_conn.cpp:418-424). -/
def stateLines (s : Sim W) (st : CState) : List Line :=
  if st ≠ s.st then [(.debug, b!"connection state changed from " ++ s.st.text ++ b!" to " ++ st.text)] else []

/-- `write_data_response` (lib/http2_conn.cpp:85-108). -/
def dataLines (body : Bytes) : List Line :=
  if _h : body.length = 0 then []
  else
    let chunkSize := min body.length (maxFrameSize - 128)
    (.trace, b!"enqueuing data frame for write (size: " ++ decimal chunkSize ++ b!", rem: " ++
      decimal (body.length - chunkSize) ++ b!")") :: dataLines (body.drop chunkSize)
termination_by body.length
decreasing_by
  simp only [List.length_drop, maxFrameSize]
  omega

/-- `process_request` (lib/http2_conn.cpp:443-478). -/
def requestLines (cfg : Cfg W) (app : AppLog W) (world : W) (headers : List Header) : List Line :=
  match getHeader headers b!":path", getHeader headers b!":method" with
  | some path, some method =>
    let req : HttpRequest := { method, path, headers }
    app.lines req world ++
      match (cfg.getHandler path method req world).1 with
      | .stdExn => [(.err, b!"error processing request: " ++ app.what req world)]
      | _ => []
  | _, _ => [(.err, b!"invalid request: missing path or method")]

/-- The HEADERS case of `process_frame` after the block was decoded (lib/http2_conn.cpp:263-281). -/
def answerLines (cfg : Cfg W) (app : AppLog W) (s : Sim W) (headers : List Header) : List Line :=
  headers.map (fun h => (.debug, b!" - request header: " ++ h.name ++ b!": " ++ h.value)) ++
  requestLines cfg app s.world headers ++
  match processRequest cfg s headers with
  | .ok (resp, s) =>
    encodeLines cfg.charSigned s.enc resp.headers ++
      match (encodeBlock cfg.charSigned s.enc resp.headers : Outcome Stop (Bytes × DynTable)) with
      | .ok (_, enc) =>
        tablesLines s.dec enc ++ (.info, decimal resp.status.toNat ++ b!" status code sent w/headers") ::
          (if resp.body = [] then [] else
            (.info, b!"sending response body (length: " ++ decimal resp.body.length ++ b!")") :: dataLines resp.body)
      | _ => []
  | _ => []

/-- `process_frame` (lib/http2_conn.cpp:229-299). -/
def frameLines (cfg : Cfg W) (app : AppLog W) (s : Sim W) (f : FrameReader) : List Line :=
  if f.header.type = 0x04 then
    (.debug, b!"received SETTINGS frame (stream=" ++ decimal f.header.streamId.toNat ++ b!" flags=" ++
      decimal f.header.flags.toNat ++ b!")") ::
    if f.hasFlag 0x01 then [(.debug, b!"received SETTINGS ACK")]
    else
      match f.readSettings with
      | .err _ =>
        (.err, b!"invalid SETTINGS frame: data size not a multiple of 6") :: s.stateLines .protocolError
      | .ub _ => []
      | .ok settings => [(.debug, b!"read " ++ decimal settings.length ++ b!" settings, sending ACK")]
  else if f.header.type = 0x01 then
    (.debug, b!"received HEADERS frame for stream " ++ decimal f.header.streamId.toNat) ::
    (.debug, b!" - end headers: " ++ boolText (f.hasFlag 0x04) ++ b!", end stream: " ++ boolText (f.hasFlag 0x01) ++
      b!", length: " ++ decimal f.header.length.toNat) ::
    tablesLines s.dec s.enc ++
      match (f.headersBlock : Outcome Stop Bytes) with
      | .ok block =>
        blockLines s.dec block ++
          match decodeBlock s.dec block with
          | .ok headers dec => answerLines cfg app { s with dec } headers
          | .err _ dec => { s with dec }.stateLines .protocolError
          | .ub _ => []
      | _ => []
  else if f.header.type = 0x08 then
    (.debug, b!"received WINDOW_UPDATE frame for stream " ++ decimal f.header.streamId.toNat) ::
      match (f.readWindowUpdate : Outcome Stop WindowUpdate) with
      | .ok w => [(.debug, b!"window size increment = " ++ decimal w.increment.toNat)]
      | _ => []
  else if f.header.type = 0x07 then
    (.debug, b!"received GOAWAY frame (stream " ++ decimal f.header.streamId.toNat ++ b!")") :: s.stateLines .clientClosed
  else [(.debug, b!"received unknown frame type: " ++ decimal f.header.type.toNat)]

/-- `read_preface` (lib/http2_conn.cpp:177-197), with the line of `write_settings` (lib/http2_conn.cpp:126-132). -/
def prefaceLines (s : Sim W) : List Line :=
  if s.rbuf.length < clientPreface.length then
    [(.trace, b!"not enough data for preface (" ++ decimal s.rbuf.length ++ b!" < " ++ decimal clientPreface.length ++
      b!")")]
  else if s.rbuf.take clientPreface.length ≠ clientPreface then [(.err, b!"invalid HTTP/2 preface received")]
  else
    (.info, b!"valid HTTP/2 preface received") :: (.debug, b!"SETTINGS frame sent") :: s.stateLines .awaitingFrame

/-- `try_read_frame` (lib/http2_conn.cpp:199-227). -/
def tryReadLines (cfg : Cfg W) (app : AppLog W) (s : Sim W) : List Line :=
  if s.rbuf.length < 9 then
    [(.trace, b!"not enough data for frame header (" ++ decimal s.rbuf.length ++ b!" < 9)")]
  else
    match (FrameHeader.parse s.rbuf : Outcome Stop FrameHeader) with
    | .ok header =>
      (.debug, b!"received frame header: type: " ++ decimal header.type.toNat ++ b!", flag: 0x" ++
        hex2 0x61 header.flags ++ b!", length: " ++ decimal header.length.toNat) ::
      if header.length.toNat > maxFrameSize then
        (.warn, b!"frame too big (sz: " ++ decimal header.length.toNat ++ b!", max: " ++ decimal maxFrameSize ++ b!")") ::
          s.stateLines .protocolError
      else
        let total := 9 + header.length.toNat
        if s.rbuf.length < total then
          [(.trace, b!"not enough data for whole frame (" ++ decimal s.rbuf.length ++ b!" < " ++ decimal total ++ b!")")]
        else
          let f : FrameReader := ⟨header, (s.rbuf.drop 9).take header.length.toNat⟩
          frameLines cfg app (s.emit (.frame f)) f
    | _ => []

end Sim

end Ion
