import Verif.Model.Transport

/-!
# Sizes handed to OpenSSL: `lib/transports/tls_transport.cpp`

`SSL_write` takes the number of octets as an `int`. `Model/Transport.lean` assumes that it fits; here it
need not.
-/

namespace Ion

/-- `static_cast<int>(buffer.size())` (lib/transports/tls_transport.cpp:121,141): the value modulo 2^32 that an
`int` can hold. -/
def asInt (n : Nat) : Int :=
  if n % 2 ^ 32 < 2 ^ 31 then (n % 2 ^ 32 : Nat) else (n % 2 ^ 32 : Nat) - 2 ^ 32

/-- What `SSL_write(ssl, buf, num)` can return: a negative `num` is refused (`SSL_R_BAD_LENGTH`), and not more
than `num` octets are written (OpenSSL 3, ssl/ssl_lib.c: `SSL_write`). -/
def SslResult.AnswersWrite (r : SslResult) (num : Int) : Prop :=
  if num < 0 then r.ret = -1 ∧ r.error = .ssl false else r.ret ≤ num

/-- `TlsTransport::write` (lib/transports/tls_transport.cpp:120-147) of `size` octets, however many. -/
def tlsWriteSized (size : Nat) (r : SslResult) (t : Nat) : WriteRes :=
  if r.ret < 0 then
    match r.error with
    | .wantRead => .fail .wantReadOrWrite
    | .wantWrite => .fail .wantReadOrWrite
    | .zeroReturn => .fail .connectionClosed
    | .ssl _ => .fail .protocolError
    | .other => .fail .protocolError
  else if r.ret ≠ asInt size then .fail .writeError
  else .wrote r.ret.toNat t

end Ion
