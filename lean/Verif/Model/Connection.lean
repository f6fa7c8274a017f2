import Verif.Model.Frames
import Verif.Model.HeaderDecoder
import Verif.Model.HeaderEncoder

/-!
# One HTTP/2 connection: `lib/http2_conn.{h,cpp}`

The transport is an environment: every call of `process()` is given the result of a handshake attempt
and finite lists of results for the `read()` and `write()` calls it will make; when a list is used up
the transport answers "would block". Quantifying over environments covers every transport. A
`read` result carries the octets, a successful `write` the number of octets accepted, and both the
clock value that `update_last_activity()` reads right after.

The application is a function from path and method to a handler; a handler maps a request and a
world (whatever state handlers share) to a result and a new world.

`Sim.trace` is a ghost record of everything observable, in order. The code never reads it.

Not modelled: spdlog calls (for those see `Model/FrameLog.lean` and `Model/ConnLog.lean`), OpenTelemetry spans,
allocation failure, `reserve`.
-/

namespace Ion

/-- `Http2ProcessResult` (lib/http2_conn.h:18-22). -/
inductive ProcRes where
  | wantRead
  | wantWrite
  | discard
deriving DecidableEq, Repr

/-- `Http2ConnectionState` (lib/http2_conn.h:24-31). -/
inductive CState where
  | awaitingHandshake
  | awaitingPreface
  | awaitingFrame
  | closing
  | protocolError
  | clientClosed
deriving DecidableEq, Repr

/-- `TransportError` (lib/transports/transport.h). -/
inductive TErr where
  | wantReadOrWrite
  | writeError
  | connectionClosed
  | protocolError
  | otherError
deriving DecidableEq, Repr

/-- Result of `Transport::handshake()`, with the clock after success. -/
inductive HsRes where
  | done (t : Nat)
  | fail (e : TErr)
deriving DecidableEq, Repr

/-- Result of `Transport::read()`: octets and the clock, or an error. -/
inductive ReadRes where
  | data (bs : Bytes) (t : Nat)
  | fail (e : TErr)
deriving DecidableEq, Repr

/-- Result of `Transport::write()`: number of octets accepted and the clock, or an error. -/
inductive WriteRes where
  | wrote (n : Nat) (t : Nat)
  | fail (e : TErr)
deriving DecidableEq, Repr

/-- What the transport does during one call of `process()`. -/
structure Env where
  hs : HsRes := .fail .wantReadOrWrite
  reads : List ReadRes := []
  writes : List WriteRes := []
deriving DecidableEq, Repr

/-- `HttpRequest` (lib/http_response.h:15-19). -/
structure HttpRequest where
  method : Bytes
  path : Bytes
  headers : List Header
deriving DecidableEq, Repr

/-- `HttpResponse` (lib/http_response.h:9-13). -/
structure HttpResponse where
  status : UInt16
  body : Bytes := []
  headers : List Header := []
deriving DecidableEq, Repr

/-- How a handler returns: a response, a `std::exception`, or an exception of another type. -/
inductive HOut where
  | resp (r : HttpResponse)
  | stdExn
  | otherExn
deriving DecidableEq, Repr

/-- A `RouteHandler` (lib/router.h:12), with the state handlers share made explicit. -/
abbrev Handler (W : Type) := HttpRequest → W → HOut × W

/-- What a connection is given: `router_` (as `get_handler(path, method)`) and the platform's `char`
signedness. -/
structure Cfg (W : Type) where
  getHandler : Bytes → Bytes → Handler W
  charSigned : Bool := true

/-- Ghost events. -/
inductive Ev where
  /-- the handshake completed -/
  | handshake (t : Nat)
  /-- `read()` returned octets -/
  | read (bs : Bytes) (t : Nat)
  /-- `read()` returned an error -/
  | readFail (e : TErr)
  /-- `write()` was called with `attempt` -/
  | write (attempt : Bytes) (r : WriteRes)
  /-- the client preface was accepted -/
  | prefaceOk
  /-- a frame is acted on -/
  | frame (f : FrameReader)
  /-- a handler was called -/
  | handled (req : HttpRequest) (out : HOut)
  /-- a response was produced: stream, response with its final headers, encoded header block -/
  | respond (stream : UInt32) (resp : HttpResponse) (block : Bytes)
  /-- octets were appended to the write buffer -/
  | enqueue (bs : Bytes)
  /-- `AccessLog::log_request` was called -/
  | logged (headers : List Header) (status : UInt16) (size : Nat)
  /-- `graceful_shutdown()` was called -/
  | shutdown
  /-- `process()` returned -/
  | returned (r : ProcRes)
deriving DecidableEq, Repr

/-- State of an `Http2Connection` (lib/http2_conn.h:50-60), the rest of the current environment, the
world and the ghost trace. -/
structure Sim (W : Type) where
  st : CState := .awaitingHandshake
  rbuf : Bytes := []
  wbuf : Bytes := []
  dec : DynTable := {}
  enc : DynTable := {}
  last : Nat
  world : W
  hs : HsRes := .fail .wantReadOrWrite
  reads : List ReadRes := []
  writes : List WriteRes := []
  trace : List Ev := []

/-- Ways for `process()` not to return: an exception that is not a `std::exception` leaves it; the
model's loop budget runs out (proved impossible in `C46_terminates`). -/
inductive Stop where
  | escaped
  | fuel
deriving DecidableEq, Repr

/-- `CLIENT_PREFACE` (lib/http2_conn.cpp:16). -/
def clientPreface : Bytes := b!"PRI * HTTP/2.0\r\n\r\nSM\r\n\r\n"

/-- `MAX_READ_BUFFER_SIZE` (lib/http2_conn.cpp:27). -/
def maxReadBufferSize : Nat := 64 * 1024
/-- `MAX_FRAME_SIZE` (lib/http2_conn.cpp:28). -/
def maxFrameSize : Nat := 16384
/-- `TEMP_READ_BUFFER_SIZE` (lib/http2_conn.cpp:31). -/
def tempReadBufferSize : Nat := 16 * 1024
/-- `IDLE_TIMEOUT` (lib/http2_conn.cpp:33), in nanoseconds. -/
def idleTimeout : Nat := 5000000000

/-- `std::to_string` of an unsigned number. -/
def decimal (n : Nat) : Bytes :=
  if n < 10 then [UInt8.ofNat (48 + n)] else decimal (n / 10) ++ [UInt8.ofNat (48 + n % 10)]
termination_by n

variable {W : Type}

namespace Sim

/-- Records a ghost event. -/
def emit (s : Sim W) (e : Ev) : Sim W := { s with trace := s.trace ++ [e] }

/-- `enqueue_write` (lib/http2_conn.cpp:480-482). -/
def enqueue (s : Sim W) (data : Bytes) : Sim W :=
  { s with wbuf := s.wbuf ++ data }.emit (.enqueue data)

/-- `update_state` (lib/http2_conn.cpp:418-424). -/
def updateState (s : Sim W) (st : CState) : Sim W := { s with st := st }

/-- `write_frame_header` (lib/http2_conn.cpp:46-50). -/
def writeFrameHeader (s : Sim W) (h : FrameHeader) : Sim W := s.enqueue h.serialize

/-- `write_settings(settings)` (lib/http2_conn.cpp:52-66). -/
def writeSettings (s : Sim W) (settings : List Setting) : Sim W :=
  let s := s.writeFrameHeader
    { length := UInt32.ofNat (settings.length * 6), type := 0x04, flags := 0x00, streamId := 0 }
  settings.foldl (fun s x => s.enqueue x.serialize) s

/-- `write_settings()` (lib/http2_conn.cpp:126-132). -/
def writeServerSettings (s : Sim W) : Sim W :=
  s.writeSettings [⟨0x0003, 100⟩, ⟨0x0004, 65535⟩, ⟨0x0005, 16384⟩]

/-- `write_settings_ack` (lib/http2_conn.cpp:68-72). -/
def writeSettingsAck (s : Sim W) : Sim W :=
  s.writeFrameHeader { length := 0, type := 0x04, flags := 0x01, streamId := 0 }

/-- `write_headers_response` (lib/http2_conn.cpp:74-83). -/
def writeHeadersResponse (s : Sim W) (streamId : UInt32) (data : Bytes) (flags : UInt8) : Sim W :=
  let s := s.writeFrameHeader
    { length := UInt32.ofNat data.length, type := 0x01, flags := flags, streamId := streamId }
  s.enqueue data

/-- `write_data_response` (lib/http2_conn.cpp:85-108); `body` is what remains from `start` on. -/
def writeDataResponse (s : Sim W) (streamId : UInt32) (body : Bytes) : Sim W :=
  if _h : body.length = 0 then s
  else
    let chunkSize := min body.length (maxFrameSize - 128)
    let remaining := body.length - chunkSize
    let s := s.writeFrameHeader
      { length := UInt32.ofNat chunkSize, type := 0x00, flags := if remaining = 0 then 0x01 else 0,
        streamId := streamId }
    let s := s.enqueue (body.take chunkSize)
    writeDataResponse s streamId (body.drop chunkSize)
termination_by body.length
decreasing_by
  simp only [List.length_drop, maxFrameSize]
  omega

/-- `write_goaway` (lib/http2_conn.cpp:110-124). -/
def writeGoAway (s : Sim W) (lastStreamId errorCode : UInt32) : Sim W :=
  let s := s.writeFrameHeader { length := 8, type := 0x07, flags := 0x00, streamId := 0 }
  s.enqueue (GoAway.serialize { lastStreamId, errorCode })

/-- `close` (lib/http2_conn.cpp:407-416). -/
def close (s : Sim W) : Sim W :=
  if s.st = .closing then s
  else
    let s := s.writeGoAway 1 (if s.st ≠ .protocolError then 0x00 else 0x01)
    s.updateState .closing

/-- `has_timed_out` at clock value `now` (lib/http2_conn.cpp:516-518). -/
def hasTimedOut (s : Sim W) (now : Nat) : Bool := decide ((now : Int) - s.last > idleTimeout)

/-- What `fill_read_buffer` does to the state on a failed read (lib/http2_conn.cpp:144-163). -/
def readFailed (s : Sim W) (e : TErr) : Sim W :=
  let s := s.emit (.readFail e)
  match e with
  | .wantReadOrWrite => s
  | .connectionClosed => s.updateState .clientClosed
  | .protocolError => s.updateState .protocolError
  | .writeError => s
  | .otherError => s

/-- `fill_read_buffer` (lib/http2_conn.cpp:134-171), by recursion on the read results left. -/
def fillLoop : List ReadRes → Sim W → Sim W
  | [], s =>
    if s.rbuf.length + tempReadBufferSize ≥ maxReadBufferSize then { s with reads := [] }
    else { s.readFailed .wantReadOrWrite with reads := [] }
  | r :: rs, s =>
    if s.rbuf.length + tempReadBufferSize ≥ maxReadBufferSize then { s with reads := r :: rs }
    else
      match r with
      | .fail e => { s.readFailed e with reads := rs }
      | .data bs t =>
        fillLoop rs ({ s with last := t, rbuf := s.rbuf ++ bs }.emit (.read bs t))

/-- `fill_read_buffer` (lib/http2_conn.cpp:134-171). -/
def fill (s : Sim W) : Sim W := fillLoop s.reads s

/-- `flush_write_buffer` (lib/http2_conn.cpp:484-510). Erasing more than the buffer holds would be
undefined. -/
def flush (s : Sim W) : Outcome Stop (Sim W) :=
  if s.wbuf = [] then .ok s
  else
    let r := s.writes.headD (.fail .wantReadOrWrite)
    let s := { s with writes := s.writes.tail }.emit (.write s.wbuf r)
    match r with
    | .fail .wantReadOrWrite => .ok s
    | .fail _ => .ok (s.updateState .protocolError)
    | .wrote n t =>
      if n > s.wbuf.length then .ub .index
      else .ok { s with last := t, wbuf := s.wbuf.drop n }

/-- `discard_processed_buffer` (lib/http2_conn.cpp:173-175); callers have checked the length. -/
def discardProcessed (s : Sim W) (n : Nat) : Sim W := { s with rbuf := s.rbuf.drop n }

/-- `ReadPrefaceResult` (lib/http2_conn.h:33). -/
inductive PrefaceRes where
  | success
  | notEnoughData
  | protocolError
deriving DecidableEq, Repr

/-- `read_preface` (lib/http2_conn.cpp:177-197). -/
def readPreface (s : Sim W) : PrefaceRes × Sim W :=
  if s.rbuf.length < clientPreface.length then (.notEnoughData, s)
  else if s.rbuf.take clientPreface.length ≠ clientPreface then (.protocolError, s)
  else
    let s := (s.emit .prefaceOk).writeServerSettings
    let s := s.updateState .awaitingFrame
    (.success, s.discardProcessed clientPreface.length)

/-- `get_header` (lib/http2_conn.cpp:433-441). -/
def getHeader (headers : List Header) (name : Bytes) : Option Bytes :=
  (headers.find? (fun h => h.name == name)).map Header.value

/-- `SERVER_HEADER` (lib/version.h.in:6). -/
def serverHeader : Bytes := b!"ion"

/-- The end of `process_request` (lib/http2_conn.cpp:470-476). -/
def finishResponse (r : HttpResponse) : HttpResponse :=
  let headers := ⟨b!":status", decimal r.status.toNat⟩ :: r.headers
  let headers :=
    if r.body ≠ [] then headers ++ [⟨b!"content-length", decimal r.body.length⟩] else headers
  { r with headers := headers ++ [⟨b!"server", serverHeader⟩] ++ [⟨b!"x-powered-by", serverHeader⟩] }

/-- `process_request` (lib/http2_conn.cpp:443-478). -/
def processRequest (cfg : Cfg W) (s : Sim W) (headers : List Header) :
    Outcome Stop (HttpResponse × Sim W) :=
  match getHeader headers b!":path", getHeader headers b!":method" with
  | some path, some method =>
    let handler := cfg.getHandler path method
    let req : HttpRequest := { method, path, headers }
    let (out, world) := handler req s.world
    let s := { s with world }.emit (.handled req out)
    match out with
    | .resp r => .ok (finishResponse r, s)
    | .stdExn => .ok (finishResponse { status := 500 }, s)
    | .otherExn => .err .escaped
  | _, _ => .ok ({ status := 400 }, s)

/-- The HEADERS case of `process_frame` after the block was decoded (lib/http2_conn.cpp:267-281). -/
def answerRequest (cfg : Cfg W) (s : Sim W) (streamId : UInt32) (headers : List Header) :
    Outcome Stop (Sim W) := do
  let (resp, s) ← processRequest cfg s headers
  let (block, enc) ← encodeBlock cfg.charSigned s.enc resp.headers
  let s := { s with enc }.emit (.respond streamId resp block)
  let endingStream := resp.body = []
  let s := s.writeHeadersResponse streamId block (0x04 ||| (if endingStream then 0x01 else 0))
  let s := if endingStream then s else s.writeDataResponse streamId resp.body
  .ok (s.emit (.logged headers resp.status resp.body.length))

/-- `process_frame` (lib/http2_conn.cpp:229-299). -/
def processFrame (cfg : Cfg W) (s : Sim W) (f : FrameReader) : Outcome Stop (Sim W) :=
  if f.header.type = 0x04 then
    if f.hasFlag 0x01 then .ok s
    else
      match f.readSettings with
      | .err _ => .ok (s.updateState .protocolError)
      | .ub u => .ub u
      | .ok _ => .ok s.writeSettingsAck
  else if f.header.type = 0x01 then do
    let block ← f.headersBlock
    match decodeBlock s.dec block with
    | .ub u => .ub u
    | .err _ dec => .ok ({ s with dec }.updateState .protocolError)
    | .ok headers dec => answerRequest cfg { s with dec } f.header.streamId headers
  else if f.header.type = 0x08 then do
    let _ ← f.readWindowUpdate
    .ok s
  else if f.header.type = 0x07 then .ok (s.updateState .clientClosed)
  else .ok s

/-- `try_read_frame` (lib/http2_conn.cpp:199-227). -/
def tryReadFrame (cfg : Cfg W) (s : Sim W) : Outcome Stop (Bool × Sim W) :=
  if s.rbuf.length < 9 then .ok (false, s)
  else do
    let header ← FrameHeader.parse s.rbuf
    if header.length.toNat > maxFrameSize then .ok (true, s.updateState .protocolError)
    else
      let total := 9 + header.length.toNat
      if s.rbuf.length < total then .ok (false, s)
      else
        let f : FrameReader := ⟨header, (s.rbuf.drop 9).take header.length.toNat⟩
        let s ← processFrame cfg (s.emit (.frame f)) f
        .ok (true, s.discardProcessed total)

/-- `handle_handshake` (lib/http2_conn.cpp:329-347). -/
def handleHandshake (s : Sim W) : Option ProcRes × Sim W :=
  match s.hs with
  | .done t =>
    (none, ({ s with last := t }.emit (.handshake t)).updateState .awaitingPreface)
  | .fail .wantReadOrWrite => (some .wantRead, s)
  | .fail _ => (some .discard, s)

/-- The `AwaitingFrame` case (lib/http2_conn.cpp:379-385); `none` means "go round the loop". -/
def frameCase (cfg : Cfg W) (s : Sim W) : Outcome Stop (Option ProcRes × Sim W) := do
  let (again, s) ← s.tryReadFrame cfg
  if again then .ok (none, s) else .ok (some .wantRead, s)

/-- The `switch` of `internal_process` (lib/http2_conn.cpp:368-403). `AwaitingHandshake` is the
default case: a `std::runtime_error`, caught in `process` (lib/http2_conn.cpp:322-325). -/
def dispatch (cfg : Cfg W) (s : Sim W) : Outcome Stop (Option ProcRes × Sim W) :=
  match s.st with
  | .awaitingPreface =>
    match s.readPreface with
    | (.success, s) => s.frameCase cfg
    | (.notEnoughData, s) => .ok (some .wantRead, s)
    | (.protocolError, s) => .ok (some .discard, s)
  | .awaitingFrame => s.frameCase cfg
  | .closing =>
    .ok (some .discard, (s.emit .shutdown).updateState .clientClosed)
  | .protocolError => .ok (some .discard, s.close)
  | .clientClosed => .ok (some .discard, s)
  | .awaitingHandshake => .ok (some .discard, s.updateState .protocolError)

/-- One iteration after the handshake (lib/http2_conn.cpp:359-403). -/
def turn (cfg : Cfg W) (s : Sim W) : Outcome Stop (Option ProcRes × Sim W) := do
  let s ← s.flush
  if s.wbuf ≠ [] then .ok (some .wantWrite, s)
  else s.fill.dispatch cfg

/-- One iteration of the loop of `internal_process` (lib/http2_conn.cpp:350-404). -/
def iter (cfg : Cfg W) (s : Sim W) : Outcome Stop (Option ProcRes × Sim W) :=
  if s.st = .awaitingHandshake then
    match s.handleHandshake with
    | (some r, s) => .ok (some r, s)
    | (none, s) => s.turn cfg
  else s.turn cfg

/-- `internal_process` (lib/http2_conn.cpp:349-405) with a budget for the number of iterations. -/
def loop (cfg : Cfg W) : Nat → Sim W → Outcome Stop (ProcRes × Sim W)
  | 0, _ => .err .fuel
  | n + 1, s => do
    let (r, s) ← s.iter cfg
    match r with
    | some r => .ok (r, s)
    | none => loop cfg n s

/-- Octets a list of read results can deliver. -/
def available : List ReadRes → Nat
  | [] => 0
  | .data bs _ :: rs => bs.length + available rs
  | .fail _ :: rs => available rs

/-- A budget that suffices (`C46_terminates`): every iteration but two consumes a frame header. -/
def budget (s : Sim W) : Nat := s.rbuf.length + available s.reads + 2

/-- `process` (lib/http2_conn.cpp:319-327) in environment `env`. -/
def process (cfg : Cfg W) (env : Env) (s : Sim W) : Outcome Stop (ProcRes × Sim W) := do
  let s := { s with hs := env.hs, reads := env.reads, writes := env.writes }
  let (r, s) ← s.loop cfg s.budget
  .ok (r, s.emit (.returned r))

/-- A call of the connection's interface (lib/http2_conn.h:45-46). -/
inductive Call where
  | process (env : Env)
  | close

/-- One call. -/
def call (cfg : Cfg W) (s : Sim W) : Call → Outcome Stop (Sim W)
  | .process env => do
    let (_, s) ← s.process cfg env
    .ok s
  | .close => .ok s.close

/-- A sequence of calls. -/
def run (cfg : Cfg W) : List Call → Sim W → Outcome Stop (Sim W)
  | [], s => .ok s
  | c :: cs, s => do
    let s ← s.call cfg c
    run cfg cs s

/-- A new connection, created at clock value `now` (lib/http2_conn.cpp:35-40, lib/http2_conn.h:50-60). -/
def init (w : W) (now : Nat) : Sim W := { last := now, world := w }

/-- States of a connection as the server uses it: it calls only `process()`, and destroys the
connection as soon as that returns "discard" (lib/http2_server.cpp:103-117). -/
inductive InUse (cfg : Cfg W) (w : W) (now : Nat) : Sim W → Prop
  | new : InUse cfg w now (init w now)
  | step (s s' : Sim W) (env : Env) (r : ProcRes) (hs : InUse cfg w now s)
      (h : s.process cfg env = .ok (r, s')) (hr : r ≠ .discard) : InUse cfg w now s'

end Sim

end Ion
