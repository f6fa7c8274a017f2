import Verif.Model.TlsSize
import Verif.Props.ConnAmplify
import Verif.Props.ServerIter

/-!
# Sizes handed to OpenSSL (C123)
-/

namespace Ion

variable {W : Type}

/-- C123 up to 2^31 - 1 octets: OpenSSL is asked to write exactly what there is, and the call is the one of
`Model/Transport.lean`. Missing: larger sizes. -/
theorem C123_exact_partial (size : Nat) (h : size < 2 ^ 31) (r : SslResult) (t : Nat) :
    asInt size = size ∧ tlsWriteSized size r t = tlsWrite size r.asWrite t := by
  have hs : asInt size = size := by
    rw [asInt, Nat.mod_eq_of_lt (by omega), if_pos h]
  refine ⟨hs, ?_⟩
  rw [tlsWriteSized, SslResult.asWrite, hs]
  split
  · cases r.error <;> rfl
  · simp only [tlsWrite]
    by_cases h1 : r.ret = size
    · rw [if_neg (by simp [h1]), if_neg (by omega)]
    · rw [if_pos h1, if_pos (by omega)]

/-- The number handed over is the one an `int` can hold that differs from the size by a multiple of 2^32. -/
theorem C123_int (size : Nat) : -2 ^ 31 ≤ asInt size ∧ asInt size < 2 ^ 31 ∧ ∃ k : Int, (size : Int) - asInt size = k * 2 ^ 32 := by
  rw [asInt]
  split
  · exact ⟨by omega, by omega, (size / 2 ^ 32 : Nat), by omega⟩
  · exact ⟨by omega, by omega, (size / 2 ^ 32 : Nat) + 1, by omega⟩

/-- All sizes: a write succeeds only if the size is below 2^31, modulo 2^32; and then it accepts that remainder. -/
theorem C123_wrote (size : Nat) (r : SslResult) (t n : Nat) (ha : r.AnswersWrite (asInt size))
    (h : tlsWriteSized size r t = .wrote n t) : size % 2 ^ 32 < 2 ^ 31 ∧ n = size % 2 ^ 32 := by
  rw [tlsWriteSized] at h
  split at h
  · split at h <;> cases h
  · split at h
    · cases h
    · rename_i h1 h2
      injection h with h3
      rw [asInt] at h2 ha
      split at h2
      · rename_i h4
        exact ⟨h4, by omega⟩
      · rename_i h4
        rw [if_neg h4, SslResult.AnswersWrite, if_pos (by omega)] at ha
        omega

/-- From 2^31 octets on, modulo 2^32, every write fails for good. -/
theorem C123_too_large (size : Nat) (hs : 2 ^ 31 ≤ size % 2 ^ 32) (r : SslResult) (t : Nat)
    (ha : r.AnswersWrite (asInt size)) : tlsWriteSized size r t = .fail .protocolError := by
  rw [asInt, if_neg (by omega), SslResult.AnswersWrite, if_pos (by omega)] at ha
  rw [tlsWriteSized, if_pos (by omega), ha.2]

namespace Sim

/-- Octets of a body in DATA frames. -/
theorem dataChunks_length (sid : UInt32) (n : Nat) : ∀ body : Bytes, body.length = n →
    (dataChunks sid body).flatten.length = n + 9 * ((n + 16255) / 16256) := by
  induction n using Nat.strongRecOn with
  | _ n ih =>
    intro body hb
    rw [dataChunks]
    split
    · rename_i h0
      have : n = 0 := by omega
      subst this
      rfl
    · rename_i h0
      have hd : (body.drop (min body.length 16256)).length = n - min n 16256 := by
        rw [List.length_drop, hb]
      have hser : ∀ h : FrameHeader, h.serialize.length = 9 := by
        intro h
        simp [FrameHeader.serialize, storeU24, storeU32]
      simp only [List.flatten_cons, List.length_append, hser, List.length_take, hb]
      rw [← hb, ih (n - min n 16256) (by omega) _ (by rw [hb] at hd ⊢; exact hd)]
      omega

/-- An application that answers every request with as many zeros as the world says. -/
def bulkCfg : Cfg Nat :=
  { getHandler := fun _ _ => fun _ n => (.resp { status := 200, body := List.replicate n 0 }, n) }

/-- A request for a body of `n` octets, when nothing is left to be done. -/
theorem bulk_process (s : Sim Nat) (hq : Quiet s) (hd : s.dec = {}) (he : s.enc = {}) (hw : s.world = 2147483648) :
    ∃ s' rest, s.process bulkCfg { reads := [.data (exGet.take 9) 8, .data (exGet.drop 9) 9] } = .ok (.wantWrite, s') ∧
      produced s'.trace = produced s.trace ++ rest ∧ accepted s'.trace = accepted s.trace ∧
      2147483648 ≤ rest.length ∧ rest.length < 4294967296 := by
  obtain ⟨fields, dec', hdec, hp, hm⟩ : ∃ fields dec', decodeBlock {} (exGet.drop 9) = .ok fields dec' ∧
      getHeader fields b!":path" = some b!"/" ∧ getHeader fields b!":method" = some b!"GET" := by
    have : (match decodeBlock {} (exGet.drop 9) with
      | .ok fields _ => getHeader fields b!":path" == some b!"/" && getHeader fields b!":method" == some b!"GET"
      | _ => false) = true := by decide +kernel
    split at this
    · rename_i f d hx
      simp only [Bool.and_eq_true, beq_iff_eq] at this
      exact ⟨f, d, hx, this.1, this.2⟩
    · cases this
  have hfin : ∀ n, n ≠ 0 → (finishResponse { status := 200, body := List.replicate n 0 }).headers =
      [⟨b!":status", decimal 200⟩, ⟨b!"content-length", decimal n⟩, ⟨b!"server", serverHeader⟩,
        ⟨b!"x-powered-by", serverHeader⟩] := by
    intro n hn
    have : List.replicate n (0 : UInt8) ≠ [] := by simp [hn]
    simp only [finishResponse, if_pos this, List.length_replicate]
    rfl
  have hbody : ∀ n, (finishResponse { status := 200, body := List.replicate n 0 }).body = List.replicate n 0 :=
    fun n => rfl
  obtain ⟨blk, enc', henc, hbl⟩ : ∃ blk enc', (encodeBlock bulkCfg.charSigned {}
      [⟨b!":status", decimal 200⟩, ⟨b!"content-length", decimal 2147483648⟩, ⟨b!"server", serverHeader⟩,
        ⟨b!"x-powered-by", serverHeader⟩] : Outcome Stop _) = .ok (blk, enc') ∧ blk.length ≤ 100 := by
    have : (match (encodeBlock bulkCfg.charSigned {}
      [⟨b!":status", decimal 200⟩, ⟨b!"content-length", decimal 2147483648⟩, ⟨b!"server", serverHeader⟩,
        ⟨b!"x-powered-by", serverHeader⟩] : Outcome Stop _) with
      | .ok x => decide (x.1.length ≤ 100)
      | _ => false) = true := by decide +kernel
    split at this
    · rename_i x hx
      exact ⟨x.1, x.2, hx, by simpa using this⟩
    · cases this
  have hr : Responds bulkCfg s.world fields
      (finishResponse { status := 200, body := List.replicate s.world 0 }) s.world
      [.handled ⟨b!"GET", b!"/", fields⟩ (.resp { status := 200, body := List.replicate s.world 0 })] :=
    .handler b!"/" b!"GET" _ _ hp hm rfl
  obtain ⟨s', h1, -, -, h2, h3, -⟩ := request_process bulkCfg s hq (exGet.take 9) (exGet.drop 9) ⟨2, 1, 5, 1⟩ 8 9 rfl
    (by decide +kernel) (by decide) (by decide) rfl (by decide) fields dec' (by rw [hd]; exact hdec) _ _ _ _ hr blk enc'
    (by rw [he, hfin _ (by rw [hw]; decide), hw]; exact henc)
  refine ⟨s', _, h1, h2, h3, ?_⟩
  have hser : ∀ h : FrameHeader, h.serialize.length = 9 := by
    intro h
    simp [FrameHeader.serialize, storeU24, storeU32]
  have := dataChunks_length 1 s.world (List.replicate s.world 0) List.length_replicate
  simp only [responseChunks, hbody, List.flatten_cons, List.length_append, hser, this]
  omega

/-- The transport of a call is `TlsTransport`: its first write, of `size` octets, is OpenSSL's answer. -/
def OverTls (size : Nat) (env : Env) : Prop :=
  ∃ (r : SslResult) (t : Nat) (ws : List WriteRes), r.AnswersWrite (asInt size) ∧
    env.writes = tlsWriteSized size r t :: ws

/-- C123, "a response of any size can be sent over TLS", is false: there is an application and a connection on which
more than 2^31 octets of a response are to be sent, and however often `process()` is then called over TLS, none of
them is: every call says "want write". -/
theorem C123_refuted : ∃ (cfg : Cfg Nat) (w : Nat) (s : Sim Nat) (rest : Bytes),
    Called cfg w 0 .wantWrite s ∧ produced s.trace = accepted s.trace ++ rest ∧ 2147483648 ≤ rest.length ∧
    ∀ envs : List Env, (∀ env ∈ envs, OverTls rest.length env) →
      ∃ s', WantsWrite cfg envs s s' ∧ accepted s'.trace = accepted s.trace := by
  obtain ⟨r, s, h1, h2⟩ : ∃ r s, Called bulkCfg 2147483648 0 r s ∧
      (r == .wantRead && s.st == .awaitingFrame && s.rbuf == [] && s.wbuf == [] && decide (s.dec = {}) &&
        decide (s.enc = {}) && s.world == 2147483648) = true :=
    Shows.called (e := exEnv (clientPreface ++ exSettings) [36]) (es := []) (by decide +kernel)
  simp only [Bool.and_eq_true, beq_iff_eq, decide_eq_true_eq] at h2
  obtain ⟨⟨⟨⟨⟨⟨h3, h4⟩, h5⟩, h6⟩, h7⟩, h8⟩, h9⟩ := h2
  have hu := h1.inUse (by simp [h3])
  obtain ⟨s', rest, e1, e2, e3, e4, e5⟩ := bulk_process s ⟨h4, h5, h6⟩ h7 h8 h9
  have hacc : produced s.trace = accepted s.trace := by
    obtain ⟨p, evs, post, i⟩ := hu.steps.inv_false
    have := i.acc
    rw [h6, List.append_nil] at this
    exact this
  have hc : Called bulkCfg 2147483648 0 .wantWrite s' := ⟨s, _, hu, e1⟩
  have hr : produced s'.trace = accepted s'.trace ++ rest := by rw [e2, e3, hacc]
  refine ⟨bulkCfg, 2147483648, s', rest, hc, hr, e4, fun envs hf => ?_⟩
  have hne : rest ≠ [] := by intro h; rw [h] at e4; simp at e4
  obtain ⟨s2, k1, k2, -⟩ := C96_stuck_partial bulkCfg 2147483648 0 s' (hc.inUse (by simp)) rest hne hr
    (envs.map fun env => (env, .protocolError)) (by
      intro x hx
      obtain ⟨env, hm, rfl⟩ := List.mem_map.mp hx
      obtain ⟨q, t, ws, ha, hw⟩ := hf env hm
      show env.writes.headD _ = _
      rw [hw, C123_too_large _ (by omega) _ _ ha]
      rfl)
  refine ⟨s2, ?_, ?_⟩
  · simpa [List.map_map, Function.comp_def] using k1
  · have hz : ∀ l : List (Env × TErr),
        accepted (l.flatMap fun x => [.write rest (.fail x.2), .returned .wantWrite]) = [] := by
      intro l
      induction l with
      | nil => rfl
      | cons a l ih => simpa [accepted] using ih
    rw [k2, accepted_append, hz, List.append_nil]

/-- Calls over TLS exist. -/
example : OverTls 2147483648 { writes := [tlsWriteSized 2147483648 ⟨-1, .ssl false⟩ 5] } :=
  ⟨⟨-1, .ssl false⟩, 5, [], by unfold SslResult.AnswersWrite; decide, rfl⟩

/-- A size that fits, one that does not, and one that is taken for none. -/
example : asInt 2147483647 = 2147483647 ∧ asInt 2147483648 = -2147483648 ∧ asInt 4294967296 = 0 := by decide

end Sim
end Ion
