import Verif.Model.App
import Verif.Model.Assoc

/-!
# OpenSSL's objects: `lib/transports/tls_transport.cpp`, `lib/transports/tls_context.cpp`

Who frees what. `SSL` objects are numbered in the order in which they are made; `TlsTransport` objects are at
addresses. The descriptors are those of `Model/SocketFd.lean`. Memory that OpenSSL allocates for itself is not
modelled.
-/

namespace Ion

/-- The `ssl_` member of every live `TlsTransport`, the objects `SSL_free` was called for (newest first), and
how many there have been. -/
structure TlsHeap where
  objs : Assoc (Option Nat) := []
  freed : List Nat := []
  made : Nat := 0
deriving DecidableEq, Repr

namespace TlsHeap

/-- `if (ssl_) { SSL_free(ssl_); ssl_ = nullptr; }` (lib/transports/tls_transport.cpp:22-25, 72-76). -/
def free (s : TlsHeap) (a : Nat) : TlsHeap :=
  match s.objs.get a with
  | some (some p) => { s with objs := s.objs.put a none, freed := p :: s.freed }
  | _ => s

/-- The constructor (lib/transports/tls_transport.cpp:31-38) and `create_ssl`
(lib/transports/tls_context.cpp:57-63): whether `SSL_new` and `SSL_set_fd` succeed. If the constructor throws
there is no object, and no destructor runs. -/
def construct (s : TlsHeap) (a : Nat) (sslNew setFd : Bool) : TlsHeap :=
  if !sslNew then s
  else
    let p := s.made
    let s := { s with made := s.made + 1 }
    if !setFd then s else { s with objs := s.objs.put a (some p) }

/-- The move constructor (lib/transports/tls_transport.cpp:15-16). -/
def moveConstruct (s : TlsHeap) (a b : Nat) : TlsHeap :=
  { s with objs := (s.objs.put a ((s.objs.get b).getD none)).put b none }

/-- Move assignment (lib/transports/tls_transport.cpp:18-29). -/
def moveAssign (s : TlsHeap) (a b : Nat) : TlsHeap :=
  if a = b then s
  else
    let s := s.free a
    { s with objs := (s.objs.put a ((s.objs.get b).getD none)).put b none }

/-- The destructor (lib/transports/tls_transport.cpp:71-77). -/
def destroy (s : TlsHeap) (a : Nat) : TlsHeap :=
  let s := s.free a
  { s with objs := s.objs.del a }

end TlsHeap

/-- What is done with the `SSL_CTX` of one `TlsContext`. -/
inductive CtxEvent where
  | made
  | freed
deriving DecidableEq, Repr

/-- The constructor (lib/transports/tls_context.cpp:10-49), step by step as in `tlsContext`, with what it does
with the `SSL_CTX`. -/
def tlsContextEvents (fs : FS) (ssl : SslFiles) (cert key : Bytes) : Except StartError Unit × List CtxEvent :=
  if !fs.exists cert then (.error .certNotFound, [])
  else if !fs.exists key then (.error .keyNotFound, [])
  else if !ssl.ctxNew then (.error .ctxFailed, [])
  else if !ssl.useCertificate cert then (.error .certNotLoaded, [.made, .freed])
  else if !ssl.usePrivateKey key then (.error .keyNotLoaded, [.made, .freed])
  else if !ssl.keyMatches cert key then (.error .keyMismatch, [.made, .freed])
  else (.ok (), [.made])

/-- A `TlsContext` from its construction to the end of its life: the destructor
(lib/transports/tls_context.cpp:51-55) runs only if the constructor has not thrown. -/
def tlsContextLife (fs : FS) (ssl : SslFiles) (cert key : Bytes) : List CtxEvent :=
  match tlsContextEvents fs ssl cert key with
  | (.error _, ev) => ev
  | (.ok (), ev) => ev ++ [.freed]

end Ion
