import Verif.Model.Transport

/-!
# Classification of transport results: C73, C75
-/

namespace Ion

/-- Nothing to read yet: POSIX `read(2)` fails with EAGAIN or EWOULDBLOCK. -/
def SysRead.WouldBlock (r : SysRead) : Prop := r = .again

/-- POSIX: `read(2)` returns zero at end of stream. -/
def SysRead.EndOfStream (r : SysRead) : Prop := r = .got []

/-- OpenSSL: calls fail exactly with results of zero and less; `SSL_get_error` says whether the call
would have blocked. -/
def SslResult.WouldBlock (r : SslResult) : Prop :=
  r.ret ≤ 0 ∧ (r.error = .wantRead ∨ r.error = .wantWrite)

/-- The peer sent close_notify. -/
def SslResult.Closed (r : SslResult) : Prop := r.ret ≤ 0 ∧ r.error = .zeroReturn

/-- The connection was closed under TLS without close_notify (OpenSSL 3). -/
def SslResult.Cut (r : SslResult) : Prop := r.ret ≤ 0 ∧ r.error = .ssl true

/-- C73 for TCP: a read or write that would block is reported as such and nothing else is; end of
stream, and nothing else, is reported as closed; a successful read delivers what was read; a write
succeeds exactly if all octets were taken; any other failure is reported as a failure of that kind. The
handshake always succeeds. -/
theorem C73_tcp (r : SysRead) (w : SysWrite) (size t : Nat) :
    (tcpRead r t = .fail .wantReadOrWrite ↔ r.WouldBlock) ∧
    (tcpRead r t = .fail .connectionClosed ↔ r.EndOfStream) ∧
    (∀ bs, tcpRead r t = .data bs t ↔ r = .got bs ∧ bs ≠ []) ∧
    (tcpWrite size w t = .fail .wantReadOrWrite ↔ w = .again) ∧
    tcpWrite size w t ≠ .fail .connectionClosed ∧
    (∀ n, tcpWrite size w t = .wrote n t ↔ w = .sent n ∧ n = size) ∧
    (tcpRead r t = .fail .otherError ↔ r = .error) ∧
    (tcpWrite size w t = .fail .writeError ↔ w = .error ∨ ∃ n, w = .sent n ∧ n ≠ size) ∧
    tcpHandshake t = .done t := by
  refine ⟨?_, ?_, ?_, ?_, ?_, ?_, ?_, ?_, rfl⟩
  · cases r with
    | got bs => cases bs <;> simp [tcpRead, SysRead.WouldBlock]
    | _ => simp [tcpRead, SysRead.WouldBlock]
  · cases r with
    | got bs => cases bs <;> simp [tcpRead, SysRead.EndOfStream]
    | _ => simp [tcpRead, SysRead.EndOfStream]
  · intro bs
    cases r with
    | got bs' =>
      cases bs' with
      | nil => simp [tcpRead]
      | cons b bs' =>
        simp only [tcpRead, List.length_cons, Nat.add_eq_zero_iff, Nat.one_ne_zero, and_false, if_false,
          ReadRes.data.injEq, and_true, SysRead.got.injEq]
        constructor
        · rintro rfl; exact ⟨rfl, by simp⟩
        · exact fun h => h.1
    | _ => simp [tcpRead]
  · cases w with
    | sent n => simp only [tcpWrite]; split <;> simp
    | _ => simp [tcpWrite]
  · cases w with
    | sent n => simp only [tcpWrite]; split <;> simp
    | _ => simp [tcpWrite]
  · intro n
    cases w with
    | sent m =>
      simp only [tcpWrite]
      split
      · rename_i hm
        simp only [reduceCtorEq, SysWrite.sent.injEq, false_iff, not_and]
        rintro rfl; exact hm
      · rename_i hm
        simp only [WriteRes.wrote.injEq, and_true, SysWrite.sent.injEq]
        constructor
        · rintro rfl; exact ⟨rfl, by simpa using hm⟩
        · exact fun h => h.1
    | _ => simp [tcpWrite]
  · cases r with
    | got bs => cases bs <;> simp [tcpRead]
    | _ => simp [tcpRead]
  · cases w with
    | sent n => simp only [tcpWrite]; split <;> simp_all
    | _ => simp [tcpWrite]

/-- A read of three octets, and one that would block. -/
example : tcpRead (.got [1, 2, 3]) 7 = .data [1, 2, 3] 7 ∧ tcpRead .again 7 = .fail .wantReadOrWrite := by
  decide

/-- C73 for TLS, refuted: a connection cut by the peer is a protocol error when found by a read,
although it is a close when found by the handshake; and `SSL_write` returning zero because it would
block is a write error. -/
theorem C73_tls_refuted :
    (∃ (r : SslResult) (buf : Bytes) (t : Nat), r.Cut ∧ tlsRead (r.asRead buf) t = .fail .protocolError ∧
      tlsHandshake (some r.error) t = .fail .connectionClosed) ∧
    (∃ (r : SslResult) (size t : Nat), r.WouldBlock ∧
      tlsWrite size r.asWrite t = .fail .writeError) :=
  ⟨⟨⟨0, .ssl true⟩, [], 0, ⟨by decide, rfl⟩, rfl, rfl⟩,
    ⟨⟨0, .wantWrite⟩, 5, 0, ⟨by decide, .inr rfl⟩, rfl⟩⟩

/-- C73 for TLS, what does hold: reads that would block are reported as such and nothing else is;
close_notify, and nothing else, is reported as closed; a read delivers the octets OpenSSL says it read;
the same for writes that return less than zero; a write succeeds exactly if all octets were taken; and for the handshake, where a cut connection counts as
closed too, and all other errors as protocol errors. Missing from C73: the two cases above. -/
theorem C73_tls_partial (r : SslResult) (buf : Bytes) (size t : Nat) (hs : Option SslError) :
    (tlsRead (r.asRead buf) t = .fail .wantReadOrWrite ↔ r.WouldBlock) ∧
    (tlsRead (r.asRead buf) t = .fail .connectionClosed ↔ r.Closed) ∧
    (∀ bs, tlsRead (r.asRead buf) t = .data bs t ↔ 0 < r.ret ∧ bs = buf.take r.ret.toNat) ∧
    (r.ret ≠ 0 → (tlsWrite size r.asWrite t = .fail .wantReadOrWrite ↔ r.WouldBlock) ∧
      (tlsWrite size r.asWrite t = .fail .connectionClosed ↔ r.Closed)) ∧
    (∀ n, tlsWrite size r.asWrite t = .wrote n t ↔ r.ret = n ∧ n = size) ∧
    (tlsHandshake hs t = .fail .wantReadOrWrite ↔ hs = some .wantRead ∨ hs = some .wantWrite) ∧
    (tlsHandshake hs t = .fail .connectionClosed ↔ hs = some .zeroReturn ∨ hs = some (.ssl true)) ∧
    (tlsHandshake hs t = .fail .protocolError ↔ hs = some .other ∨ hs = some (.ssl false)) ∧
    (tlsHandshake hs t = .done t ↔ hs = none) := by
  obtain ⟨ret, error⟩ := r
  refine ⟨?_, ?_, ?_, ?_, ?_, ?_, ?_, ?_, ?_⟩
  · simp only [SslResult.asRead, SslResult.WouldBlock]
    split
    · rename_i h; cases error <;> simp [tlsRead, h]
    · rename_i h; simp [tlsRead]; omega
  · simp only [SslResult.asRead, SslResult.Closed]
    split
    · rename_i h; cases error <;> simp [tlsRead, h]
    · rename_i h; simp [tlsRead]; omega
  · intro bs
    simp only [SslResult.asRead]
    split
    · rename_i h; cases error <;> simp [tlsRead] <;> omega
    · rename_i h
      simp only [tlsRead, ReadRes.data.injEq, and_true]
      constructor
      · rintro rfl; exact ⟨by omega, rfl⟩
      · exact fun h => h.2.symm
  · intro h0
    simp only [SslResult.asWrite, SslResult.WouldBlock, SslResult.Closed] at *
    split
    · rename_i h
      have : ret ≤ 0 := by omega
      cases error <;> simp [tlsWrite, this]
    · rename_i h
      simp only [tlsWrite]
      constructor <;> split <;> simp <;> omega
  · intro n
    simp only [SslResult.asWrite]
    split
    · rename_i h; cases error <;> simp [tlsWrite] <;> omega
    · simp only [tlsWrite]
      split
      · rename_i h1 h2
        simp only [reduceCtorEq, false_iff, not_and]
        rintro h3 rfl; omega
      · rename_i h1 h2
        simp only [WriteRes.wrote.injEq, and_true]
        omega
  · rcases hs with _ | e
    · simp [tlsHandshake]
    · cases e with
      | ssl b => cases b <;> simp [tlsHandshake]
      | _ => simp [tlsHandshake]
  · rcases hs with _ | e
    · simp [tlsHandshake]
    · cases e with
      | ssl b => cases b <;> simp [tlsHandshake]
      | _ => simp [tlsHandshake]
  · rcases hs with _ | e
    · simp [tlsHandshake]
    · cases e with
      | ssl b => cases b <;> simp [tlsHandshake]
      | _ => simp [tlsHandshake]
  · rcases hs with _ | e
    · simp [tlsHandshake]
    · cases e with
      | ssl b => cases b <;> simp [tlsHandshake]
      | _ => simp [tlsHandshake]

/-- A read that returned three octets, and one that found close_notify. -/
example : tlsRead (SslResult.asRead ⟨3, .other⟩ [1, 2, 3, 0, 0]) 7 = .data [1, 2, 3] 7 ∧
    tlsRead (SslResult.asRead ⟨0, .zeroReturn⟩ [0, 0]) 7 = .fail .connectionClosed := by decide

/-- C73: whatever protocols a client offers, the callback selects h2. -/
theorem C73_alpn (client : List Bytes) : alpnCallback client = b!"h2" := by
  unfold alpnCallback selectNextProto
  by_cases h : client.contains b!"h2"
  · simp only [List.find?, h]
  · simp only [List.find?, h]

example : alpnCallback [b!"http/1.1", b!"h2"] = b!"h2" := by decide +kernel

/-- C75, refuted: a client that offers only HTTP/1.1 is told that h2 was selected (RFC 7301 section
3.2 requires the no_application_protocol alert). -/
theorem C75_refuted : ∃ client : List Bytes, client ≠ [] ∧ alpnCallback client ∉ client :=
  ⟨[b!"http/1.1"], by simp, by decide +kernel⟩

/-- C75, exactly when the selected protocol was offered. Missing from C75: clients that do not offer
h2. -/
theorem C75_alpn_partial (client : List Bytes) : alpnCallback client ∈ client ↔ b!"h2" ∈ client := by
  rw [C73_alpn]

end Ion
