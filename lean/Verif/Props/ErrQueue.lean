import Verif.Model.ErrQueue
import Verif.Props.Transport
import Verif.Props.ServerLoop

/-!
# The error queue of OpenSSL (C101)

`SSL_get_error(3)`: "The current thread's error queue must be empty before the TLS/SSL I/O operation is
attempted, or SSL_get_error() will not work reliably."
-/

namespace Ion

/-- The call failed only because it would have blocked. -/
def SslCall.WouldBlock (c : SslCall) : Prop :=
  c.ret ≤ 0 ∧ c.pushes = [] ∧ (c.state = .reading ∨ c.state = .writing)

/-- The call failed because the peer has sent close_notify. -/
def SslCall.Closed (c : SslCall) : Prop := c.ret ≤ 0 ∧ c.pushes = [] ∧ c.state = .closeNotify

/-- The call failed because the peer has cut the connection without close_notify. -/
def SslCall.Cut (c : SslCall) : Prop := c.ret ≤ 0 ∧ ∃ es, c.pushes = .eof :: es

instance (c : SslCall) : Decidable c.WouldBlock := by unfold SslCall.WouldBlock; infer_instance

/-- C101 as far as it holds: what a read that follows an empty queue reports depends on that read only; the
same for a write whose result is not zero, and for every handshake, whatever the queue: it is reported as
blocked if it would block, as closed if the peer has closed or cut the connection, and as a protocol error
otherwise. Missing from C101: the
queue need not be empty. -/
theorem C101_empty_partial (c : SslCall) (buf : Bytes) (size t : Nat) (q : List QErr) :
    ((tlsReadQ [] c buf t).1 = .fail .wantReadOrWrite ↔ c.WouldBlock) ∧
    ((tlsReadQ [] c buf t).1 = .fail .connectionClosed ↔ c.Closed) ∧
    (∀ bs, (tlsReadQ q c buf t).1 = .data bs t ↔ 0 < c.ret ∧ bs = buf.take c.ret.toNat) ∧
    (c.ret ≠ 0 → ((tlsWriteQ [] c size t).1 = .fail .wantReadOrWrite ↔ c.WouldBlock) ∧
      ((tlsWriteQ [] c size t).1 = .fail .connectionClosed ↔ c.Closed)) ∧
    (∀ n, (tlsWriteQ q c size t).1 = .wrote n t ↔ c.ret = n ∧ n = size) ∧
    (c.ret ≤ 0 → ((tlsHandshakeQ q c t).1 = .fail .wantReadOrWrite ↔ c.WouldBlock) ∧
      ((tlsHandshakeQ q c t).1 = .fail .connectionClosed ↔ c.Closed ∨ c.Cut) ∧
      ((tlsHandshakeQ q c t).1 = .fail .protocolError ↔ ¬ c.WouldBlock ∧ ¬ c.Closed ∧ ¬ c.Cut)) ∧
    (c.ret = 1 → (tlsHandshakeQ q c t).1 = .done t) ∧
    tlsHandshakeQ q c t = tlsHandshakeQ [] c t := by
  have key : ∀ r : SslResult, r = (c.after []).1 → (r.WouldBlock ↔ c.WouldBlock) ∧ (r.Closed ↔ c.Closed) := by
    rintro _ rfl
    obtain ⟨ret, pushes, state⟩ := c
    simp only [SslCall.after, SslResult.WouldBlock, SslCall.WouldBlock, SslResult.Closed, SslCall.Closed,
      List.nil_append]
    rcases pushes with _ | ⟨p, ps⟩
    · cases state <;> simp [sslGetError]
    · cases p <;> simp [sslGetError]
  have h0 := C73_tls_partial (c.after []).1 buf size t none
  have hq := C73_tls_partial (c.after q).1 buf size t none
  have k := key _ rfl
  refine ⟨h0.1.trans k.1, h0.2.1.trans k.2, hq.2.2.1, ?_, hq.2.2.2.2.1, ?_, ?_, rfl⟩
  · intro hr
    exact ⟨(h0.2.2.2.1 hr).1.trans k.1, (h0.2.2.2.1 hr).2.trans k.2⟩
  · intro hr
    have h1 : c.ret ≠ 1 := by omega
    obtain ⟨ret, pushes, state⟩ := c
    simp only [tlsHandshakeQ, SslCall.WouldBlock, SslCall.Closed, SslCall.Cut] at *
    rw [if_neg h1]
    rcases pushes with _ | ⟨p, ps⟩
    · cases state <;> simp [sslGetError, hr]
    · cases p <;> simp [sslGetError, hr]
  · intro h1
    simp [tlsHandshakeQ, h1]

/-- A read that would block, one that finds close_notify, and one that finds the connection cut. -/
example : (tlsReadQ [] ⟨-1, [], .reading⟩ [] 5).1 = .fail .wantReadOrWrite ∧
    (tlsReadQ [] ⟨0, [], .closeNotify⟩ [] 5).1 = .fail .connectionClosed ∧
    tlsReadQ [] ⟨0, [.eof], .nothing⟩ [] 5 = (.fail .protocolError, [.eof]) := by decide +kernel

/-- C101, refuted for every queue that is not empty: no read and no write of any connection can then report
that it would block or that the client has closed the connection, whatever OpenSSL finds: the oldest entry
alone decides what is reported; and no read or write ever takes anything off the queue. -/
theorem C101_poisoned (e : QErr) (q : List QErr) (c : SslCall) (buf : Bytes) (size t : Nat) :
    (c.ret ≤ 0 → (tlsReadQ (e :: q) c buf t).1 = .fail (if e = .sys then .otherError else .protocolError)) ∧
    (c.ret < 0 → (tlsWriteQ (e :: q) c size t).1 = .fail .protocolError) ∧
    (∃ q', (tlsReadQ (e :: q) c buf t).2 = e :: q') ∧ ∃ q', (tlsWriteQ (e :: q) c size t).2 = e :: q' := by
  refine ⟨?_, ?_, ⟨q ++ c.pushes, rfl⟩, ⟨q ++ c.pushes, rfl⟩⟩
  · intro hr
    cases e <;> simp [tlsReadQ, SslCall.after, SslResult.asRead, hr, sslGetError, tlsRead]
  · intro hr
    cases e <;> simp [tlsWriteQ, SslCall.after, SslResult.asWrite, hr, sslGetError, tlsWrite]

/-- How entries come to stay on the queue: what a read or write adds is left there, also when the call has
failed and the connection is dropped. Of the errors a handshake adds only the first is taken off the queue, or
the first two. -/
theorem C101_left (q : List QErr) (c : SslCall) (buf : Bytes) (size t : Nat) (es : List QErr) :
    (tlsReadQ q c buf t).2 = q ++ c.pushes ∧ (tlsWriteQ q c size t).2 = q ++ c.pushes ∧
    (c.ret = 1 ∨ c.pushes = [] → (tlsHandshakeQ q c t).2 = c.pushes) ∧
    (c.ret ≠ 1 → c.pushes = .eof :: es → (tlsHandshakeQ q c t).2 = es) ∧
    (c.ret ≠ 1 → c.pushes = .sys :: es → (tlsHandshakeQ q c t).2 = es) ∧
    (c.ret ≠ 1 → c.pushes = .other :: es → (tlsHandshakeQ q c t).2 = es.tail) := by
  refine ⟨rfl, rfl, ?_, ?_, ?_, ?_⟩
  · rintro (h | h)
    · simp [tlsHandshakeQ, h]
    · rw [tlsHandshakeQ]
      split
      · rfl
      · rw [h]
        cases c.state <;> rfl
  all_goals
    intro h1 h2
    rw [tlsHandshakeQ, if_neg h1, h2]
    rfl

namespace Server

/-- Handshake, preface and SETTINGS of a client. -/
def tlsHello : TlsCalls :=
  { hs := some (⟨1, [], .nothing⟩, 1),
    reads := [(⟨33, [], .nothing⟩, Spec.preface ++ Sim.exSettings, 2), (⟨-1, [], .reading⟩, [], 2)],
    writes := [(⟨36, [], .nothing⟩, 36, 3)] }

/-- A client cuts the connection without close_notify. -/
def tlsCut : TlsCalls := { reads := [(⟨0, [.eof], .nothing⟩, [], 4)] }

/-- A client sends a request, then nothing. -/
def tlsGet : TlsCalls :=
  { reads := [(⟨11, [], .nothing⟩, Sim.exGet, 5), (⟨-1, [], .reading⟩, [], 5)],
    writes := [(⟨44, [], .nothing⟩, 44, 6)] }

/-- Two clients connect and send their prefaces. -/
def tlsTwo (calls : List (Nat × TlsCalls)) : List PollEv :=
  exAccept 5 :: exAccept 6 :: tlsEvents [] ((5, tlsHello) :: (6, tlsHello) :: calls)

/-- C101, refuted: of two clients, 6 sends a request. If 5 does nothing, it is answered. If 5 has cut its
connection before, the server finds 5's error on the queue when it has read 6's request, takes it for 6's,
calls no handler and closes both connections. -/
theorem C101_refuted :
    Shows Sim.exCfg 0 3 (tlsTwo [(6, tlsGet)]) (fun s =>
      s.conns.map Prod.fst == [5, 6] && s.os.closed == [] && s.world == 1 &&
      (s.conns.map fun x => (Sim.responses x.2.sim.trace).length) == [0, 1]) ∧
    Shows Sim.exCfg 0 3 (tlsTwo [(5, tlsCut), (6, tlsGet)]) (fun s =>
      s.conns.map Prod.fst == [] && s.os.closed == [2, 1] && s.world == 0) := by
  constructor <;> decide +kernel

end Server
end Ion
