import Verif.Model.Transport
import Verif.Model.Server

/-!
# OpenSSL's error queue

`Model/Transport.lean` takes what `SSL_get_error` says as given. Here it is computed as OpenSSL 3 does: from
the error queue of the thread, which all connections share, before the state of the connection
(`ossl_ssl_get_error` in ssl/ssl_lib.c). `SSL_accept` empties the queue before it does anything (`state_machine`
in ssl/statem/statem.c); `SSL_read` and `SSL_write` do not. (They do while they process a message of a
handshake that is still going on or has been started again; TLS renegotiation and key updates are not modelled.)
-/

namespace Ion

/-- An entry of the error queue: of the library `ERR_LIB_SYS`; the reason
`SSL_R_UNEXPECTED_EOF_WHILE_READING`; or another one. -/
inductive QErr where
  | sys
  | eof
  | other
deriving DecidableEq, Repr

/-- What the connection was doing when the call returned. -/
inductive SslState where
  | reading
  | writing
  | closeNotify
  | nothing
deriving DecidableEq, Repr

/-- What OpenSSL does in one call: its result, the errors it adds to the queue (the oldest first) and the
state it leaves the connection in. -/
structure SslCall where
  ret : Int
  pushes : List QErr := []
  state : SslState := .nothing
deriving DecidableEq, Repr

/-- `SSL_get_error` for a result that is not positive (OpenSSL 3, ssl/ssl_lib.c). -/
def sslGetError (queue : List QErr) (state : SslState) : SslError :=
  match queue with
  | .sys :: _ => .other
  | .eof :: _ => .ssl true
  | .other :: _ => .ssl false
  | [] =>
    match state with
    | .reading => .wantRead
    | .writing => .wantWrite
    | .closeNotify => .zeroReturn
    | .nothing => .other

/-- A call that does not empty the queue first: what `Model/Transport.lean` calls its result, and the queue
afterwards. -/
def SslCall.after (c : SslCall) (queue : List QErr) : SslResult × List QErr :=
  (⟨c.ret, sslGetError (queue ++ c.pushes) c.state⟩, queue ++ c.pushes)

/-- `TlsTransport::read` (lib/transports/tls_transport.cpp:94-118) into `buffer`. -/
def tlsReadQ (queue : List QErr) (c : SslCall) (buffer : Bytes) (t : Nat) : ReadRes × List QErr :=
  (tlsRead ((c.after queue).1.asRead buffer) t, (c.after queue).2)

/-- `TlsTransport::write` (lib/transports/tls_transport.cpp:120-147) of `size` octets. -/
def tlsWriteQ (queue : List QErr) (c : SslCall) (size t : Nat) : WriteRes × List QErr :=
  (tlsWrite size (c.after queue).1.asWrite t, (c.after queue).2)

/-- `TlsTransport::handshake` (lib/transports/tls_transport.cpp:40-70). `SSL_accept` empties the queue; on
errors one entry is taken off it, or two. -/
def tlsHandshakeQ (_queue : List QErr) (c : SslCall) (t : Nat) : HsRes × List QErr :=
  if c.ret = 1 then (.done t, c.pushes)
  else
    match sslGetError c.pushes c.state with
    | .zeroReturn => (.fail .connectionClosed, c.pushes)
    | .wantRead => (.fail .wantReadOrWrite, c.pushes)
    | .wantWrite => (.fail .wantReadOrWrite, c.pushes)
    | .ssl true => (.fail .connectionClosed, c.pushes.tail)
    | .ssl false => (.fail .protocolError, c.pushes.tail.tail)
    | .other => (.fail .protocolError, c.pushes.tail)

/-- The OpenSSL calls of one call of `process()`: the handshake if it is made, the reads with what they
leave in the buffer and the time afterwards, and the writes with their size (lib/transports/tls_transport.cpp:40-147). -/
structure TlsCalls where
  hs : Option (SslCall × Nat) := none
  reads : List (SslCall × Bytes × Nat) := []
  writes : List (SslCall × Nat × Nat) := []
deriving DecidableEq, Repr

/-- The calls of `TlsTransport::read` (lib/transports/tls_transport.cpp:94-118) by the loop of `fill_read_buffer`
(lib/http2_conn.cpp:134-171), one after the other. -/
def tlsReads : List QErr → List (SslCall × Bytes × Nat) → List ReadRes × List QErr
  | q, [] => ([], q)
  | q, (c, buffer, t) :: cs =>
    let (r, q) := tlsReadQ q c buffer t
    let (rs, q) := tlsReads q cs
    (r :: rs, q)

/-- The calls of `TlsTransport::write` (lib/transports/tls_transport.cpp:120-147) by `flush_write_buffer`
(lib/http2_conn.cpp:484-510), one after the other. -/
def tlsWrites : List QErr → List (SslCall × Nat × Nat) → List WriteRes × List QErr
  | q, [] => ([], q)
  | q, (c, size, t) :: cs =>
    let (r, q) := tlsWriteQ q c size t
    let (rs, q) := tlsWrites q cs
    (r :: rs, q)

/-- What the connection sees of these calls, made in this order. -/
def TlsCalls.env (queue : List QErr) (c : TlsCalls) : Env × List QErr :=
  let (hs, q) : HsRes × List QErr :=
    match c.hs with
    | none => (.fail .wantReadOrWrite, queue)
    | some (a, t) => tlsHandshakeQ queue a t
  let (reads, q) := tlsReads q c.reads
  let (writes, q) := tlsWrites q c.writes
  (⟨hs, reads, writes⟩, q)

/-- Connections of one server become readable one after the other; they share the queue. -/
def tlsEvents : List QErr → List (Nat × TlsCalls) → List PollEv
  | _, [] => []
  | q, (fd, c) :: cs => { fd, events := .read, env := (c.env q).1 } :: tlsEvents (c.env q).2 cs

end Ion
