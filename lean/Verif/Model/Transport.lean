import Verif.Model.Connection

/-!
# Transports: `lib/transports/{tcp,tls}_transport.cpp`

How system-call and OpenSSL results are turned into the results `Http2Connection` sees. `t` is the
clock value read afterwards. Not modelled: logging (for that see `Model/ConnLog.lean`), `graceful_shutdown`, move constructors; buffer
sizes are assumed to fit an `int`.
-/

namespace Ion

/-- Result of `read(2)`. -/
inductive SysRead where
  | got (bs : Bytes)
  | again
  | error
deriving DecidableEq, Repr

/-- Result of `write(2)`. -/
inductive SysWrite where
  | sent (n : Nat)
  | again
  | error
deriving DecidableEq, Repr

/-- `TcpTransport::read` (lib/transports/tcp_transport.cpp:25-42). -/
def tcpRead (r : SysRead) (t : Nat) : ReadRes :=
  match r with
  | .again => .fail .wantReadOrWrite
  | .error => .fail .otherError
  | .got bs => if bs.length = 0 then .fail .connectionClosed else .data bs t

/-- `TcpTransport::write` (lib/transports/tcp_transport.cpp:44-62) of `size` octets. -/
def tcpWrite (size : Nat) (r : SysWrite) (t : Nat) : WriteRes :=
  match r with
  | .again => .fail .wantReadOrWrite
  | .error => .fail .writeError
  | .sent n => if n ≠ size then .fail .writeError else .wrote n t

/-- `TcpTransport::handshake` (lib/transports/tcp_transport.cpp:71-73). -/
def tcpHandshake (t : Nat) : HsRes := .done t

/-- `SSL_get_error` codes; `eof` says that the error queue holds
`SSL_R_UNEXPECTED_EOF_WHILE_READING`. -/
inductive SslError where
  | zeroReturn
  | wantRead
  | wantWrite
  | ssl (eof : Bool)
  | other
deriving DecidableEq, Repr

/-- Result of `SSL_read`: a positive number of octets, or an error. -/
inductive SslRead where
  | got (bs : Bytes)
  | failed (e : SslError)
deriving DecidableEq, Repr

/-- Result of `SSL_write`: a number (zero included), or a negative result with its error. -/
inductive SslWrite where
  | sent (n : Nat)
  | failed (e : SslError)
deriving DecidableEq, Repr

/-- `TlsTransport::handshake` (lib/transports/tls_transport.cpp:40-70); `none` is success. -/
def tlsHandshake (r : Option SslError) (t : Nat) : HsRes :=
  match r with
  | none => .done t
  | some .zeroReturn => .fail .connectionClosed
  | some .wantRead => .fail .wantReadOrWrite
  | some .wantWrite => .fail .wantReadOrWrite
  | some (.ssl true) => .fail .connectionClosed
  | some (.ssl false) => .fail .protocolError
  | some .other => .fail .protocolError

/-- `TlsTransport::read` (lib/transports/tls_transport.cpp:94-118). -/
def tlsRead (r : SslRead) (t : Nat) : ReadRes :=
  match r with
  | .got bs => .data bs t
  | .failed .wantRead => .fail .wantReadOrWrite
  | .failed .wantWrite => .fail .wantReadOrWrite
  | .failed .zeroReturn => .fail .connectionClosed
  | .failed (.ssl _) => .fail .protocolError
  | .failed .other => .fail .otherError

/-- `TlsTransport::write` (lib/transports/tls_transport.cpp:120-147) of `size` octets. -/
def tlsWrite (size : Nat) (r : SslWrite) (t : Nat) : WriteRes :=
  match r with
  | .failed .wantRead => .fail .wantReadOrWrite
  | .failed .wantWrite => .fail .wantReadOrWrite
  | .failed .zeroReturn => .fail .connectionClosed
  | .failed (.ssl _) => .fail .protocolError
  | .failed .other => .fail .protocolError
  | .sent n => if n ≠ size then .fail .writeError else .wrote n t

/-- What `SSL_read` and `SSL_write` literally return: a number, and what `SSL_get_error` says of it. -/
structure SslResult where
  ret : Int
  error : SslError
deriving DecidableEq, Repr

/-- The tests `bytes_read <= 0` (lib/transports/tls_transport.cpp:97) and ... -/
def SslResult.asRead (r : SslResult) (buffer : Bytes) : SslRead :=
  if r.ret ≤ 0 then .failed r.error else .got (buffer.take r.ret.toNat)

/-- ... `bytes_written < 0` (lib/transports/tls_transport.cpp:122). -/
def SslResult.asWrite (r : SslResult) : SslWrite :=
  if r.ret < 0 then .failed r.error else .sent r.ret.toNat

/-- `SSL_select_next_proto` of OpenSSL, on parsed protocol lists: the first of the server's protocols
that the client offers. -/
def selectNextProto (server client : List Bytes) : Option Bytes := server.find? (client.contains ·)

/-- `TlsContext::alpn_callback` (lib/transports/tls_context.cpp:67-85): the protocol selected from the
client's list. It always returns `SSL_TLSEXT_ERR_OK`. -/
def alpnCallback (client : List Bytes) : Bytes :=
  match selectNextProto [b!"h2"] client with
  | some p => p
  | none => b!"h2"

end Ion
