import Verif.Model.Transport

/-!
# Specification: what reaches the peer

What the kernel and OpenSSL do with write attempts, independently of how the transports report it.
An attempt is the octets passed and the result the connection was given.
-/

namespace Ion.Spec

/-- Octets of an attempt the kernel takes. -/
def taken (a : Bytes) : SysWrite → Bytes
  | .sent n => a.take n
  | _ => []

/-- `TcpRun whole attempts out`: with these attempts on a TCP transport, the peer is sent `out`. The
kernel may take any number of the octets offered; `whole` says that it takes all or none. -/
inductive TcpRun (whole : Bool) : List (Bytes × WriteRes) → Bytes → Prop
  | nil : TcpRun whole [] []
  | snoc (l : List (Bytes × WriteRes)) (out a : Bytes) (k : SysWrite) (t : Nat) (h : TcpRun whole l out)
      (hk : ∀ n, k = .sent n → n ≤ a.length) (hw : whole = true → ∀ n, k = .sent n → n = a.length) :
      TcpRun whole (l ++ [(a, tcpWrite a.length k t)]) (out ++ taken a k)

/-- State of the write side of an SSL connection: nothing pending; a write of `b` blocked after `k`
octets; unusable after a fatal error. -/
inductive SslState where
  | idle
  | pending (b : Bytes) (k : Nat)
  | dead

/-- One `SSL_write`, from OpenSSL's documentation (no partial-write mode, no moving-buffer mode): it
sends everything or reports want-read/want-write, after which the same octets must be passed again; a
different retry is a fatal error. -/
inductive SslStep : SslState → Bytes → SslWrite → SslState → Bytes → Prop
  | all (a : Bytes) : SslStep .idle a (.sent a.length) .idle a
  | rest (a : Bytes) (k : Nat) : SslStep (.pending a k) a (.sent a.length) .idle (a.drop k)
  | block (a : Bytes) (k : Nat) (hk : k ≤ a.length) (e : SslError) (he : e = .wantRead ∨ e = .wantWrite) :
      SslStep .idle a (.failed e) (.pending a k) (a.take k)
  | again (a : Bytes) (k k' : Nat) (hk : k ≤ k') (hk' : k' ≤ a.length) (e : SslError)
      (he : e = .wantRead ∨ e = .wantWrite) :
      SslStep (.pending a k) a (.failed e) (.pending a k') ((a.drop k).take (k' - k))
  | fatal (a : Bytes) (k : Nat) (e : SslError) (he : e ≠ .wantRead ∧ e ≠ .wantWrite) :
      SslStep .idle a (.failed e) .dead (a.take k)
  | fatalRetry (a : Bytes) (k k' : Nat) (e : SslError) (he : e ≠ .wantRead ∧ e ≠ .wantWrite) :
      SslStep (.pending a k) a (.failed e) .dead ((a.drop k).take k')
  | badRetry (a b : Bytes) (k : Nat) (h : a ≠ b) (eof : Bool) :
      SslStep (.pending b k) a (.failed (.ssl eof)) .dead []
  | dead (a : Bytes) (e : SslError) (he : e ≠ .wantRead ∧ e ≠ .wantWrite) :
      SslStep .dead a (.failed e) .dead []

/-- `SslRun attempts st out`: with these attempts on a TLS transport, the peer is sent `out`. -/
inductive SslRun : List (Bytes × WriteRes) → SslState → Bytes → Prop
  | nil : SslRun [] .idle []
  | snoc (l : List (Bytes × WriteRes)) (st st' : SslState) (out a o : Bytes) (r : SslWrite) (t : Nat)
      (h : SslRun l st out) (hs : SslStep st a r st' o) :
      SslRun (l ++ [(a, tlsWrite a.length r t)]) st' (out ++ o)

end Ion.Spec
