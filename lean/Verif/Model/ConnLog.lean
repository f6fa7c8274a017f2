import Verif.Model.FrameLog
import Verif.Model.Transport

/-!
# What a connection and its transport log: `lib/http2_conn.cpp`, `lib/transports/{tcp,tls}_transport.cpp`

One function `…Lines` beside each function of `Model/Connection.lean` and `Model/Transport.lean`: the lines it passes
to spdlog, in order. Texts that come from `strerror` and from OpenSSL are parameters. For a call that does not return
(an exception that is not a `std::exception`) nothing is claimed.
-/

namespace Ion

/-! ## Transports -/

/-- `TcpTransport::read` (lib/transports/tcp_transport.cpp:25-42); `why` is `strerror(errno)`. -/
def tcpReadLines (why : Bytes) (r : SysRead) : List Line :=
  (.trace, b!"reading from TCP socket") ::
    match r with
    | .again => [(.trace, b!"TCP want read")]
    | .error => [(.err, b!"TCP read error: " ++ why)]
    | .got bs =>
      if bs.length = 0 then [(.debug, b!"TCP connection closed")]
      else [(.trace, b!"successfully read " ++ decimal bs.length ++ b!" bytes from TCP socket")]

/-- `TcpTransport::write` (lib/transports/tcp_transport.cpp:44-62) of `size` octets. -/
def tcpWriteLines (why : Bytes) (size : Nat) (r : SysWrite) : List Line :=
  match r with
  | .again => [(.trace, b!"TCP want write")]
  | .error => [(.err, b!"TCP write error: " ++ why)]
  | .sent n =>
    if n ≠ size then [(.err, b!"TCP partial write: wrote " ++ decimal n ++ b!" of " ++ decimal size ++ b!" bytes")]
    else [(.trace, b!"successfully wrote " ++ decimal n ++ b!" bytes to TCP socket")]

/-- `TcpTransport::graceful_shutdown` (lib/transports/tcp_transport.cpp:64-69); `failed` is the text of the error of
`shutdown(2)`, if there is one. -/
def tcpShutdownLines (failed : Option Bytes) : List Line :=
  (.debug, b!"shutting down TCP (SHUT_WR)") ::
    match failed with
    | none => []
    | some why => [(.err, b!"shutdown failed: " ++ why)]

/-- `TlsTransport::handshake` (lib/transports/tls_transport.cpp:40-70); `code` is what `SSL_get_error` returned, `why`
the text of the error that is taken from OpenSSL's queue. -/
def tlsHandshakeLines (code : Nat) (why : Bytes) (r : Option SslError) : List Line :=
  match r with
  | none => []
  | some .zeroReturn => [(.debug, b!"TLS connection closed by peer before handshake (likely health check)")]
  | some .wantRead => [(.trace, b!"TLS handshake want read/write")]
  | some .wantWrite => [(.trace, b!"TLS handshake want read/write")]
  | some (.ssl true) => [(.info, b!"client disconnected during handshake (EOF)")]
  | some (.ssl false) => [(.err, b!"TLS handshake failed: (" ++ decimal code ++ b!") " ++ why)]
  | some .other => [(.err, b!"TLS handshake failed: (" ++ decimal code ++ b!") " ++ why)]

/-- `TlsTransport::read` (lib/transports/tls_transport.cpp:94-118). -/
def tlsReadLines (code : Nat) (r : SslRead) : List Line :=
  (.trace, b!"reading from SSL") ::
    match r with
    | .got bs => [(.trace, b!"successfully read " ++ decimal bs.length ++ b!" bytes from SSL")]
    | .failed .wantRead => [(.trace, b!"SSL want read")]
    | .failed .wantWrite => [(.trace, b!"SSL want write")]
    | .failed .zeroReturn => [(.debug, b!"TLS connection closed")]
    | .failed (.ssl _) => [(.err, b!"TLS protocol error (SSL_ERROR_SSL)")]
    | .failed .other => [(.err, b!"TLS read error (SSL_ERROR_*): " ++ decimal code)]

/-- `TlsTransport::write` (lib/transports/tls_transport.cpp:120-147) of `size` octets. -/
def tlsWriteLines (code size : Nat) (r : SslWrite) : List Line :=
  match r with
  | .failed .wantRead => [(.trace, b!"SSL want read")]
  | .failed .wantWrite => [(.trace, b!"SSL want write")]
  | .failed .zeroReturn => [(.debug, b!"TLS connection closed")]
  | .failed (.ssl _) => [(.err, b!"TLS protocol error (SSL_ERROR_SSL)")]
  | .failed .other => [(.err, b!"TLS protocol error (SSL_ERROR=" ++ decimal code ++ b!")")]
  | .sent n =>
    if n ≠ size then [(.err, b!"SSL partial write: wrote " ++ decimal n ++ b!" of " ++ decimal size ++ b!" bytes")]
    else [(.trace, b!"successfully wrote " ++ decimal n ++ b!" bytes to SSL")]

/-- `TlsTransport::graceful_shutdown` (lib/transports/tls_transport.cpp:80-88); `first` says that the first
`SSL_shutdown` returned 0. -/
def tlsShutdownLines (first : Bool) : List Line :=
  (.debug, b!"shutting down SSL (client notify)") :: if first then [(.debug, b!"shutting down SSL (force)")] else []

/-- What the transport of a connection logs during one call of `process()`: for the result of the handshake, for a read
or a write that returns the first of the results left, and for the shutdown. -/
structure NetLog where
  handshake : HsRes → List Line
  read : List ReadRes → List Line
  write : Bytes → List WriteRes → List Line
  shutdown : List Line

/-! ## Connection -/

/-- `static_cast<int>` of a `TransportError` (lib/transports/transport.h:9-15). -/
def TErr.code : TErr → Nat
  | .wantReadOrWrite => 0
  | .writeError => 1
  | .connectionClosed => 2
  | .protocolError => 3
  | .otherError => 4

variable {W : Type}

namespace Sim

/-- A failed read in `fill_read_buffer` (lib/http2_conn.cpp:144-163). -/
def readFailedLines (s : Sim W) (e : TErr) : List Line :=
  match e with
  | .wantReadOrWrite => [(.trace, b!"transport want read/write")]
  | .connectionClosed => (.debug, b!"transport connection closed") :: s.stateLines .clientClosed
  | .protocolError => (.err, b!"transport protocol error") :: s.stateLines .protocolError
  | .writeError => [(.err, b!"transport write error")]
  | .otherError => [(.err, b!"transport other error (presumed non fatal)")]

/-- `fill_read_buffer` (lib/http2_conn.cpp:134-171), beside `fillLoop`. -/
def fillLoopLines (net : NetLog) : List ReadRes → Sim W → List Line
  | [], s =>
    if s.rbuf.length + tempReadBufferSize ≥ maxReadBufferSize then [(.debug, b!"read buffer full")]
    else net.read [] ++ s.readFailedLines .wantReadOrWrite
  | r :: rs, s =>
    if s.rbuf.length + tempReadBufferSize ≥ maxReadBufferSize then [(.debug, b!"read buffer full")]
    else
      net.read (r :: rs) ++
        match r with
        | .fail e => s.readFailedLines e
        | .data bs t =>
          (.trace, b!"read " ++ decimal bs.length ++ b!" bytes, buffer size now " ++
            decimal (s.rbuf ++ bs).length) ::
          fillLoopLines net rs ({ s with last := t, rbuf := s.rbuf ++ bs }.emit (.read bs t))

/-- `fill_read_buffer` (lib/http2_conn.cpp:134-171). -/
def fillLines (net : NetLog) (s : Sim W) : List Line := fillLoopLines net s.reads s

/-- `flush_write_buffer` (lib/http2_conn.cpp:484-510). -/
def flushLines (net : NetLog) (s : Sim W) : List Line :=
  if s.wbuf = [] then []
  else
    net.write s.wbuf s.writes ++
      match s.writes.headD (.fail .wantReadOrWrite) with
      | .fail .wantReadOrWrite => [(.trace, b!"transport busy, write will be resumed later")]
      | .fail e =>
        (.err, b!"failed to flush write buffer: error: " ++ decimal e.code) :: s.stateLines .protocolError
      | .wrote n _ => [(.trace, b!"flushed " ++ decimal n ++ b!" bytes from write buffer")]

/-- `handle_handshake` (lib/http2_conn.cpp:329-347). -/
def handshakeLines (net : NetLog) (s : Sim W) : List Line :=
  net.handshake s.hs ++
    match s.hs with
    | .done _ => (.trace, b!"transport handshake complete") :: s.stateLines .awaitingPreface
    | .fail .wantReadOrWrite => [(.trace, b!"handshake: want read/write")]
    | .fail .connectionClosed => [(.trace, b!"handshake: connection closed")]
    | .fail _ => [(.trace, b!"handshake: connection error")]

/-- `close` (lib/http2_conn.cpp:407-416). -/
def closeCallLines (s : Sim W) : List Line :=
  if s.st = .closing then [(.err, b!"attempting to close connection in closing state")]
  else (.debug, b!"GOAWAY frame enqueued") :: s.stateLines .closing

/-- The `AwaitingFrame` case (lib/http2_conn.cpp:379-385). -/
def frameCaseLines (cfg : Cfg W) (app : AppLog W) (s : Sim W) : List Line :=
  s.tryReadLines cfg app ++
    match s.tryReadFrame cfg with
    | .ok (true, _) => [(.debug, b!"frame processed, continuing...")]
    | _ => []

/-- The `switch` of `internal_process` (lib/http2_conn.cpp:368-403), with what `process` logs about the exception of
the default case (lib/http2_conn.cpp:322-324). -/
def dispatchLines (cfg : Cfg W) (app : AppLog W) (net : NetLog) (s : Sim W) : List Line :=
  match s.st with
  | .awaitingPreface =>
    s.prefaceLines ++
      match s.readPreface with
      | (.success, s) => s.frameCaseLines cfg app
      | _ => []
  | .awaitingFrame => s.frameCaseLines cfg app
  | .closing =>
    (.debug, b!"in closing state, completing shutdown") :: (net.shutdown ++ s.stateLines .clientClosed)
  | .protocolError => (.err, b!"protocol error. closing connection") :: s.closeCallLines
  | .clientClosed => []
  | .awaitingHandshake =>
    (.err, b!"unhandled error processing connection: invalid state") :: s.stateLines .protocolError

/-- One iteration after the handshake (lib/http2_conn.cpp:359-403). -/
def turnLines (cfg : Cfg W) (app : AppLog W) (net : NetLog) (s : Sim W) : List Line :=
  s.flushLines net ++
    match s.flush with
    | .ok s => if s.wbuf ≠ [] then [] else s.fillLines net ++ s.fill.dispatchLines cfg app net
    | _ => []

/-- One iteration of the loop of `internal_process` (lib/http2_conn.cpp:350-404). -/
def iterLines (cfg : Cfg W) (app : AppLog W) (net : NetLog) (s : Sim W) : List Line :=
  (.trace, b!"processing state: " ++ s.st.text) ::
    if s.st = .awaitingHandshake then
      s.handshakeLines net ++
        match s.handleHandshake with
        | (some _, _) => []
        | (none, s) => s.turnLines cfg app net
    else s.turnLines cfg app net

/-- `internal_process` (lib/http2_conn.cpp:349-405), beside `loop`. -/
def processLoopLines (cfg : Cfg W) (app : AppLog W) (net : NetLog) : Nat → Sim W → List Line
  | 0, _ => []
  | n + 1, s =>
    s.iterLines cfg app net ++
      match s.iter cfg with
      | .ok (none, s) => processLoopLines cfg app net n s
      | _ => []

/-- `process` (lib/http2_conn.cpp:319-327) in environment `env`. -/
def processLines (cfg : Cfg W) (app : AppLog W) (net : NetLog) (env : Env) (s : Sim W) : List Line :=
  let s := { s with hs := env.hs, reads := env.reads, writes := env.writes }
  processLoopLines cfg app net s.budget s

end Sim

end Ion
