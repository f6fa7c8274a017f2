import Verif.Lemmas.ConnMore
import Verif.Spec.Transport

/-!
# Properties of how a connection sends: C35–C40
-/

namespace Ion

namespace Spec

theorem SslRun.snoc_inv {l : List (Bytes × WriteRes)} {a : Bytes} {res : WriteRes} {st' : SslState}
    {out' : Bytes} (h : SslRun (l ++ [(a, res)]) st' out') :
    ∃ st out o r t, SslRun l st out ∧ SslStep st a r st' o ∧ res = tlsWrite a.length r t ∧
      out' = out ++ o := by
  generalize hx : l ++ [(a, res)] = x at h
  cases h with
  | nil => simp at hx
  | snoc l' st st' out a' o r t h hs =>
    obtain ⟨rfl, h2⟩ := List.append_inj' hx rfl
    simp at h2
    obtain ⟨rfl, rfl⟩ := h2
    exact ⟨st, out, o, r, t, h, hs, rfl, rfl⟩

theorem TcpRun.snoc_inv {whole : Bool} {l : List (Bytes × WriteRes)} {a : Bytes} {res : WriteRes}
    {out' : Bytes} (h : TcpRun whole (l ++ [(a, res)]) out') :
    ∃ out k t, TcpRun whole l out ∧ (∀ n, k = .sent n → n ≤ a.length) ∧
      (whole = true → ∀ n, k = .sent n → n = a.length) ∧ res = tcpWrite a.length k t ∧
      out' = out ++ taken a k := by
  generalize hx : l ++ [(a, res)] = x at h
  cases h with
  | nil => simp at hx
  | snoc l' out a' k t h hk hw =>
    obtain ⟨rfl, h2⟩ := List.append_inj' hx rfl
    simp at h2
    obtain ⟨rfl, rfl⟩ := h2
    exact ⟨out, k, t, h, hk, hw, rfl, rfl⟩

theorem SslRun.pending {l : List (Bytes × WriteRes)} {b : Bytes} {k : Nat} {out : Bytes}
    (h : SslRun l (.pending b k) out) : l ≠ [] := by
  generalize hx : SslState.pending b k = x at h
  cases h with
  | nil => cases hx
  | snoc => simp

end Spec

namespace Sim
open Spec
variable {W : Type}

/-! ### C35 -/

/-- C35 for the connection: in every sequence of calls, what transports report as accepted is a prefix
of what was produced. -/
theorem C35_accepted (cfg : Cfg W) (w : W) (now : Nat) (calls : List Call) (s : Sim W)
    (h : run cfg calls (init w now) = .ok s) :
    accepted s.trace <+: produced s.trace ∧
      produced s.trace = accepted s.trace ++ s.wbuf := by
  obtain ⟨p, evs, post, i⟩ := Inv.steps (run_steps cfg calls h) (Inv.init cfg w true now)
  exact ⟨⟨_, i.acc.symm⟩, i.acc⟩

/-- What the peer has been sent over TLS, seen from the connection. -/
def SslAt (s : Sim W) (out : Bytes) : SslState → Prop
  | .idle => out = accepted s.trace
  | .pending b k => b ≠ [] ∧ s.wbuf = b ∧ k ≤ b.length ∧ out = accepted s.trace ++ b.take k
  | .dead => out <+: produced s.trace

theorem SslAt.prefix {s : Sim W} {out : Bytes} {st : SslState} (h : SslAt s out st)
    (ha : produced s.trace = accepted s.trace ++ s.wbuf) : out <+: produced s.trace := by
  cases st with
  | idle => rw [ha]; exact ⟨_, by rw [h]⟩
  | pending b k =>
    obtain ⟨-, h2, -, h3⟩ := h
    rw [ha, h3, h2]
    exact (List.prefix_append_right_inj _).mpr (List.take_prefix _ _)
  | dead => exact h

theorem SslAt.quiet {s t : Sim W} {out : Bytes} {st : SslState} (h : SslAt s out st)
    (h1 : accepted t.trace = accepted s.trace) (h2 : produced s.trace <+: produced t.trace)
    (h3 : writeAttempts s.trace ≠ [] → s.wbuf ≠ [] → t.wbuf = s.wbuf)
    (h4 : ∀ b k, st = .pending b k → writeAttempts s.trace ≠ []) : SslAt t out st := by
  cases st with
  | idle => exact h.trans h1.symm
  | pending b k =>
    obtain ⟨k1, k2, k3, k4⟩ := h
    exact ⟨k1, (h3 (h4 b k rfl) (by rw [k2]; exact k1)).trans k2, k3, by rw [h1]; exact k4⟩
  | dead => exact h.trans h2

theorem Steps.ssl {cfg : Cfg W} {w : W} {now : Nat} {s : Sim W}
    (h : Steps cfg false (Sim.init w now) s) :
    ∀ st out, SslRun (writeAttempts s.trace) st out → SslAt s out st := by
  refine Steps.plain_inv (P := fun s => ∀ st out, SslRun (writeAttempts s.trace) st out →
    SslAt s out st) ?_ ?_ h
  · intro st out h
    simp only [Sim.init, writeAttempts] at h
    generalize hx : ([] : List (Bytes × WriteRes)) = x at h
    cases h with
    | nil => rfl
    | snoc => simp at hx
  · intro s t hs st i
    obtain ⟨p, evs, post, k⟩ := hs.inv_false
    have acc := k.acc
    clear k
    have quiet : ∀ {u : Sim W}, writeAttempts u.trace = writeAttempts s.trace →
        accepted u.trace = accepted s.trace → produced s.trace <+: produced u.trace →
        (writeAttempts s.trace ≠ [] → s.wbuf ≠ [] → u.wbuf = s.wbuf) →
        ∀ st out, SslRun (writeAttempts u.trace) st out → SslAt u out st := by
      intro u h1 h2 h3 h4 st out hr
      rw [h1] at hr
      refine (i st out hr).quiet h2 h3 h4 ?_
      rintro b k rfl
      exact hr.pending
    -- a write attempt that did not complete
    have failed : ∀ {u : Sim W} {e : TErr}, u.trace = s.trace ++ [.write s.wbuf (.fail e)] →
        s.wbuf ≠ [] → u.wbuf = s.wbuf →
        ∀ st out, SslRun (writeAttempts u.trace) st out → SslAt u out st := by
      intro u e ht hne hw st' out' hr
      have hwa : writeAttempts u.trace = writeAttempts s.trace ++ [(s.wbuf, .fail e)] := by
        rw [ht]; simp [writeAttempts]
      have hac : accepted u.trace = accepted s.trace := by rw [ht]; simp [accepted]
      have hpr : produced u.trace = produced s.trace := by rw [ht]; simp [produced]
      rw [hwa] at hr
      obtain ⟨st, out, o, r, tt, h1, h2, h3, rfl⟩ := hr.snoc_inv
      have hat := i st out h1
      have hpre := hat.prefix acc
      cases h2 with
      | all => simp [tlsWrite] at h3
      | rest => simp [tlsWrite] at h3
      | block a k hk e he =>
        refine ⟨hne, hw, hk, ?_⟩
        rw [hac, hat]
      | again a k k' hk hk' e he =>
        obtain ⟨-, -, -, g⟩ := hat
        refine ⟨hne, hw, hk', ?_⟩
        rw [hac, g, List.append_assoc]
        congr 1
        conv => rhs; rw [← List.take_append_drop k (List.take k' s.wbuf), List.take_take,
          Nat.min_eq_left hk, List.drop_take]
      | fatal a k e he =>
        show _ <+: _
        rw [hpr, acc, hat]
        exact (List.prefix_append_right_inj _).mpr (List.take_prefix _ _)
      | fatalRetry a k k' e he =>
        obtain ⟨-, -, -, g⟩ := hat
        show _ <+: _
        rw [hpr, acc, g, List.append_assoc]
        refine (List.prefix_append_right_inj _).mpr ?_
        conv => rhs; rw [← List.take_append_drop k s.wbuf]
        exact (List.prefix_append_right_inj _).mpr (List.take_prefix _ _)
      | badRetry a b k h eof =>
        obtain ⟨-, g, -, -⟩ := hat
        exact absurd g h
      | dead a e he =>
        show _ <+: _
        rw [hpr, List.append_nil]
        exact hpre
    cases st with
    | env => exact i
    | readsLeft => exact i
    | oversized _ h hd hh hl hw => exact quiet rfl rfl (List.prefix_refl _) fun _ _ => rfl
    | handshake _ n h =>
      exact quiet (by simp [writeAttempts]) (by simp [accepted]) (by simp [produced]) fun _ _ => rfl
    | writeBlocked _ ws h hst => exact failed rfl h rfl
    | writeFailed _ ws e h he hst => exact failed rfl h rfl
    | wrote _ ws n t h hn hst =>
      intro st' out' hr
      simp only [writeAttempts_append, writeAttempts] at hr
      obtain ⟨st, out, o, r, tt, h1, h2, h3, rfl⟩ := hr.snoc_inv
      have hat := i st out h1
      cases h2 with
      | all =>
        simp [tlsWrite] at h3
        show _ = _
        rw [hat]
        simp [accepted, h3.1]
      | rest a k =>
        simp [tlsWrite] at h3
        obtain ⟨-, -, -, g⟩ := hat
        show _ = _
        rw [g]
        simp [accepted, h3.1]
      | badRetry a b k h eof => simp [tlsWrite] at h3
      | block a k hk e he => rcases he with rfl | rfl <;> simp [tlsWrite] at h3
      | again a k k' hk hk' e he => rcases he with rfl | rfl <;> simp [tlsWrite] at h3
      | fatal a k e he => cases e <;> simp [tlsWrite] at h3
      | fatalRetry a k k' e he => cases e <;> simp [tlsWrite] at h3
      | dead a e he => cases e <;> simp [tlsWrite] at h3
    | read _ bs t hw hst hr =>
      exact quiet (by simp [writeAttempts]) (by simp [accepted]) (by simp [produced]) fun _ _ => rfl
    | readFailed _ e hw hst hr =>
      exact quiet (by cases e <;> simp [Sim.readFailed, emit, updateState, writeAttempts])
        (by cases e <;> simp [Sim.readFailed, emit, updateState, accepted])
        (by cases e <;> simp [Sim.readFailed, emit, updateState, produced])
        fun _ _ => by cases e <;> rfl
    | shutdown _ h hw =>
      exact quiet (by simp [writeAttempts]) (by simp [accepted]) (by simp [produced]) fun _ _ => rfl
    | wantRead _ h =>
      exact quiet (by simp [writeAttempts]) (by simp [accepted]) (by simp [produced]) fun _ _ => rfl
    | wantWrite _ h =>
      exact quiet (by simp [writeAttempts]) (by simp [accepted]) (by simp [produced]) fun _ _ => rfl
    | discard _ h =>
      exact quiet (by simp [writeAttempts]) (by simp [accepted]) (by simp [produced]) fun _ _ => rfl
    | preface _ rest h hw hr =>
      refine quiet ?_ ?_ ?_ fun _ h => absurd hw h
      · simp [enq, emit, writeAttempts]
      · simp [enq, emit, accepted]
      · simp [enq, emit, produced]
    | frame _ s1 h hd hh hl hr hw ha =>
      obtain ⟨evs, h1, h2⟩ := ha.events
      obtain ⟨-, q2, -, q4⟩ := AnsEv.proj h2
      simp only at h1
      refine quiet ?_ ?_ ?_ fun hne hwn => ?_
      · simp [h1, writeAttempts, q4]
      · simp [h1, accepted, q2]
      · simp [h1, produced]
      · rcases hs.ready hw with h0 | ⟨-, h0, -⟩
        · exact absurd h0 hwn
        · exact absurd h0 hne

/-- C35 over TLS: whatever OpenSSL does within its contract, the peer is sent a prefix of what the
server produced. -/
theorem C35_tls (cfg : Cfg W) (w : W) (now : Nat) (r : ProcRes) (s : Sim W)
    (h : Called cfg w now r s) (st : SslState) (out : Bytes)
    (hr : SslRun (writeAttempts s.trace) st out) : out <+: produced s.trace := by
  obtain ⟨s1, s2, k1, k2, k3⟩ := h.elim
  have hwa : writeAttempts s.trace = writeAttempts s1.trace ∧ produced s1.trace <+: produced s.trace := by
    rcases k2 with ⟨rfl, -⟩ | ⟨-, -, -, rfl⟩ <;> subst k3 <;> simp [enq, writeAttempts, produced]
  rw [hwa.1] at hr
  obtain ⟨p, evs, post, k⟩ := k1.inv_false
  exact ((k1.ssl st out hr).prefix k.acc).trans hwa.2

/-- C35 over TCP is false: after a partial `write(2)` the whole buffer is sent again, so the peer
receives octets twice. Here 10 of 36 octets are taken, then all 36. -/
theorem C35_tcp_refuted : ∃ (r : ProcRes) (s : Sim Nat) (out : Bytes), Called exCfg 0 0 r s ∧
    TcpRun false (writeAttempts s.trace) out ∧ ¬ out <+: produced s.trace := by
  have h : ∃ r s, Called exCfg 0 0 r s ∧ ((match writeAttempts s.trace with
      | [(a, r1), (b, r2)] => a == b && a.length == 36 && r1 == .fail .writeError &&
        r2 == .wrote 36 3 && !((a.take 10 ++ b).isPrefixOf (produced s.trace))
      | _ => false) = true) :=
    Shows.called (e := ⟨.done 1, [.data (clientPreface ++ exSettings) 2], [tcpWrite 36 (.sent 10) 3]⟩)
      (es := [{ writes := [tcpWrite 36 (.sent 36) 3] }]) (by decide +kernel)
  obtain ⟨r, s, h1, h2⟩ := h
  split at h2
  · rename_i a r1 b r2 hw
    simp only [Bool.and_eq_true, beq_iff_eq, Bool.not_eq_true', Bool.eq_false_iff, ne_eq,
      List.isPrefixOf_iff_prefix] at h2
    obtain ⟨⟨⟨⟨rfl, h3⟩, rfl⟩, rfl⟩, h4⟩ := h2
    refine ⟨r, s, a.take 10 ++ a, h1, ?_, h4⟩
    rw [hw]
    have e1 : (WriteRes.fail TErr.writeError) = tcpWrite a.length (.sent 10) 3 := by simp [tcpWrite, h3]
    have e2 : (WriteRes.wrote 36 3) = tcpWrite a.length (.sent 36) 3 := by simp [tcpWrite, h3]
    rw [e1, e2]
    have := TcpRun.snoc (whole := false) _ _ a (.sent 36) 3
      (TcpRun.snoc [] [] a (.sent 10) 3 .nil (by intro n h; cases h; omega) (by simp))
      (by intro n h; cases h; omega) (by simp)
    simpa [taken, h3, List.take_of_length_le] using this
  · cases h2

/-- C35 over TCP as long as the kernel takes all octets of a write or none. Missing: partial writes,
for which it is false. -/
theorem C35_tcp_partial (cfg : Cfg W) (w : W) (now : Nat) (calls : List Call) (s : Sim W)
    (h : run cfg calls (init w now) = .ok s) (out : Bytes)
    (hr : TcpRun true (writeAttempts s.trace) out) : out <+: produced s.trace := by
  have key : out = accepted s.trace := by
    have : ∀ (tr : List Ev) (l : List (Bytes × WriteRes)) (out : Bytes), TcpRun true l out →
        writeAttempts tr = l → out = accepted tr := by
      intro tr l out h
      induction h generalizing tr with
      | nil =>
        intro hw
        induction tr with
        | nil => rfl
        | cons e tr ih => cases e <;> simp [writeAttempts] at hw <;> simpa [accepted] using ih hw
      | snoc l out a k t h hk hw ih =>
        intro htr
        have : ∃ pre post, tr = pre ++ .write a (tcpWrite a.length k t) :: post ∧
            writeAttempts pre = l ∧ writeAttempts post = [] := by
          clear ih h
          induction tr generalizing l with
          | nil => simp [writeAttempts] at htr
          | cons e tr ih2 =>
            by_cases he : ∃ b r, e = .write b r
            · obtain ⟨b, r, rfl⟩ := he
              cases l with
              | nil =>
                simp [writeAttempts] at htr
                obtain ⟨⟨rfl, rfl⟩, h3⟩ := htr
                exact ⟨[], tr, rfl, rfl, h3⟩
              | cons x l =>
                simp [writeAttempts] at htr
                obtain ⟨rfl, h3⟩ := htr
                obtain ⟨pre, post, g1, g2, g3⟩ := ih2 l h3
                exact ⟨.write b r :: pre, post, by rw [g1]; rfl, by simp [writeAttempts, g2], g3⟩
            · have hee : writeAttempts (e :: tr) = writeAttempts tr := by
                cases e <;> simp_all [writeAttempts]
              rw [hee] at htr
              obtain ⟨pre, post, g1, g2, g3⟩ := ih2 l htr
              refine ⟨e :: pre, post, by rw [g1]; rfl, ?_, g3⟩
              rw [← g2]
              cases e <;> simp_all [writeAttempts]
        obtain ⟨pre, post, rfl, g2, g3⟩ := this
        have hpost : accepted post = [] := by
          clear g2 htr
          induction post with
          | nil => rfl
          | cons e post ihp => cases e <;> simp [writeAttempts] at g3 <;> simpa [accepted] using ihp g3
        rw [ih pre g2, accepted_append]
        congr 1
        cases k with
        | sent n =>
          have := hw rfl n rfl
          subst this
          simp [tcpWrite, accepted, taken, hpost]
        | again => simp [tcpWrite, accepted, taken, hpost]
        | error => simp [tcpWrite, accepted, taken, hpost]
    exact this s.trace _ out hr rfl
  rw [key]
  exact (C35_accepted cfg w now calls s h).1

/-! ### C36 -/

/-- C36: after a write that failed, would-block included, the next attempt passes exactly the same
octets, and nothing is appended to the buffer (so it does not move) and no frame acted on between. -/
theorem C36_retry (cfg : Cfg W) (w : W) (now : Nat) (r : ProcRes) (s : Sim W)
    (h : Called cfg w now r s) (pre mid post : List Ev) (a a' : Bytes) (e : TErr) (r' : WriteRes)
    (ht : s.trace = pre ++ .write a (.fail e) :: (mid ++ .write a' r' :: post))
    (hm : writeAttempts mid = []) : a' = a ∧ produced mid = [] ∧ frames mid = [] := by
  have : Along Retried s.trace :=
    h.along (fun s hs => hs.retry.2) (by intro _ _ _ _ h; cases h) (by intro _ _ _ _ h; cases h)
  exact this (pre ++ .write a (.fail e) :: mid) (.write a' r') post (by rw [ht]; simp) a' r' rfl
    pre a e mid rfl hm

/-- A connection whose first write blocked twice. -/
example : ∃ r s, Called exCfg 0 0 r s ∧ ((match writeAttempts s.trace with
      | [(a, .fail .wantReadOrWrite), (b, .fail .wantReadOrWrite), (c, .wrote 36 9), _] =>
        a == b && b == c && a.length == 36
      | _ => false) = true) :=
  Shows.called (e := { hs := .done 1, reads := [.data (clientPreface ++ exSettings) 2] })
    (es := [{}, { reads := [.data exGet 3], writes := [.wrote 36 9] }]) (by decide +kernel)

/-! ### C37 -/

/-- C37: when a frame is acted on, everything produced before has been accepted by the transport, or
what was produced is only the server's SETTINGS frame. -/
theorem C37_bounded_output : ∃ f v, ServerPreface f ∧ FrameWire f v ∧
    ∀ (W : Type) (cfg : Cfg W) (w : W) (now : Nat) (r : ProcRes) (s : Sim W), Called cfg w now r s →
      ∀ pre g post, s.trace = pre ++ .frame g :: post →
        accepted pre = produced pre ∨ (frames pre = [] ∧ produced pre = v) := by
  refine ⟨settingsFrame, settingsChunks.flatten, settings_preface, settings_wire, ?_⟩
  intro W cfg w now r s h pre g post ht
  have : Along (fun pre e => ∀ g, e = .frame g → accepted pre = produced pre ∨
      (frames pre = [] ∧ produced pre = settingsChunks.flatten)) s.trace := by
    refine h.along ?_ (by intro _ _ _ h; cases h) (by intro _ _ _ h; cases h)
    intro s hs
    refine Steps.plain_inv (P := fun s => Along (fun pre e => ∀ g, e = .frame g →
      accepted pre = produced pre ∨ (frames pre = [] ∧ produced pre = settingsChunks.flatten)) s.trace)
      (Along.nil _) ?_ hs
    intro s t hs st i
    obtain ⟨es, he, ha⟩ := st.adds
    rw [he]
    cases ha with
    | none => rw [List.append_nil]; exact i
    | frame f evs h hr hev =>
      rw [show Ev.frame f :: evs = [Ev.frame f] ++ evs from rfl, ← List.append_assoc]
      refine (i.snoc ?_).append_triv ?_
      · intro g _
        obtain ⟨p, evs, post, k⟩ := hs.inv_false
        rcases hs.ready hr with h0 | ⟨-, -, h1, h2⟩
        · have := k.acc
          rw [h0, List.append_nil] at this
          exact .inl this.symm
        · exact .inr ⟨h1, h2⟩
      · intro e hm pre g h
        subst h
        exact (hev _ hm).elim
    | preface h1 h2 =>
      refine i.append_triv ?_
      intro e hm pre g h; subst h; simp at hm
    | goaway cs h => cases h
    | _ => exact i.snoc fun _ h => by cases h
  exact this pre _ post ht g rfl

/-- Three requests arrive at once and writes block: only one is answered. -/
example : ∃ r s, Called exCfg 0 0 r s ∧
    (r == .wantWrite && (frames s.trace).length == 1 && (received s.trace).length == 57) = true :=
  Shows.called (e := exEnv (clientPreface ++ exGet ++ exGet ++ exGet) [40]) (es := [])
    (by decide +kernel)

/-! ### C38 -/

/-- C38: after a frame that ends the connection (GOAWAY or a malformed SETTINGS frame), a fatal
transport error, end of stream or shutdown, no frame is acted on, in any sequence of calls. -/
theorem C38_ended_events (cfg : Cfg W) (w : W) (now : Nat) (calls : List Call) (s : Sim W)
    (h : run cfg calls (init w now) = .ok s) (pre post : List Ev) (e : Ev)
    (ht : s.trace = pre ++ e :: post) (he : Ender e) : frames post = [] ∧ Ended s.st := by
  obtain ⟨h1, h2⟩ := (run_steps cfg calls h).enders
  refine ⟨?_, h1 e (by rw [ht]; simp) he⟩
  clear h1 h
  cases hf : frames post with
  | nil => rfl
  | cons f fs =>
    exfalso
    have : ∃ p q, post = p ++ .frame f :: q := by
      clear h2 ht
      induction post with
      | nil => simp [frames] at hf
      | cons x post ih =>
        by_cases hx : ∃ g, x = .frame g
        · obtain ⟨g, rfl⟩ := hx
          simp [frames] at hf
          exact ⟨[], post, by rw [hf.1]; rfl⟩
        · have : frames (x :: post) = frames post := by cases x <;> simp_all [frames]
          rw [this] at hf
          obtain ⟨p, q, rfl⟩ := ih hf
          exact ⟨x :: p, q, rfl⟩
    obtain ⟨p, q, rfl⟩ := this
    exact h2 (pre ++ e :: p) (.frame f) q (by rw [ht]; simp) f rfl e (by simp) he

/-- C38: once the state is one of the final ones, no sequence of calls leaves them, acts on a frame,
calls a handler or answers. -/
theorem C38_ended (cfg : Cfg W) (more : List Call) (s t : Sim W)
    (hs : s.st = .protocolError ∨ s.st = .closing ∨ s.st = .clientClosed)
    (ht : run cfg more s = .ok t) :
    (t.st = .protocolError ∨ t.st = .closing ∨ t.st = .clientClosed) ∧
      frames t.trace = frames s.trace ∧ handled t.trace = handled s.trace ∧
      responses t.trace = responses s.trace := by
  have hs' : Ended s.st := by
    rcases hs with h | h | h
    · exact .inr (.inl h)
    · exact .inl h
    · exact .inr (.inr h)
  obtain ⟨h1, h2⟩ := (run_steps cfg more ht).ended hs'
  refine ⟨?_, h2⟩
  rcases h1 with h | h | h
  · exact .inr (.inl h)
  · exact .inl h
  · exact .inr (.inr h)

/-- A connection that received GOAWAY followed by a request, used further. -/
example : ∃ s t : Sim Nat, run exCfg [.process (exEnv (clientPreface ++ exSettings ++
      [0, 0, 0, 7, 0, 0, 0, 0, 0] ++ exGet) [36])] (init 0 0) = .ok s ∧
    run exCfg [.process (exEnv exGet []), .close] s = .ok t ∧ (frames s.trace).length = 2 ∧
    s.st = .clientClosed ∧ t.st = .closing ∧ (frames t.trace).length = 2 ∧
    (received t.trace).length = 64 := by
  refine ⟨_, _, rfl, rfl, ?_⟩
  decide +kernel

/-! ### C39 -/

theorem Replies.types {ins : List Frame} {rs : List (Nat × Bytes × Bytes)} {outs : List Frame}
    (h : Replies ins rs outs) : ∀ f ∈ outs, f.type ≠ 7 := by
  induction h with
  | nil => simp
  | settings ins rs outs f h ht hf hl ih =>
    intro g hg
    rcases List.mem_append.mp hg with hg | hg
    · exact ih g hg
    · simp at hg; subst hg; simp
  | request ins rs outs f block body ds h ht hd ih =>
    intro g hg
    rcases List.mem_append.mp hg with hg | hg
    · exact ih g hg
    · rcases List.mem_cons.mp hg with rfl | hg
      · simp
      · simp [(hd.data g hg).1]
  | other ins rs outs f h h1 h4 ih => exact ih

/-- C39 is false, always: as the server uses connections, no octet of a GOAWAY frame is ever handed to
the transport. What was accepted is a prefix of frames that are not GOAWAY. -/
theorem C39_refuted (cfg : Cfg W) (w : W) (now : Nat) (r : ProcRes) (s : Sim W)
    (h : Called cfg w now r s) (hb : ∀ x ∈ responses s.trace, x.2.2.length < 2 ^ 24) :
    ∃ fs v, FramesWire fs v ∧ (∀ f ∈ fs, f.type ≠ 7) ∧ accepted s.trace <+: v ∧
      ∀ pre a r' post, s.trace = pre ++ .write a r' :: post → accepted pre ++ a <+: v := by
  obtain ⟨s1, s2, k1, k2, k3⟩ := h.elim
  have hr := k1.replied
  obtain ⟨p, evs, post, i⟩ := k1.inv_false
  have hpr : responses s.trace = responses s1.trace ∧ accepted s.trace = accepted s1.trace := by
    rcases k2 with ⟨rfl, -⟩ | ⟨-, -, -, rfl⟩ <;> subst k3 <;>
      simp [enq, responses, accepted]
  rw [hpr.1] at hb
  rw [hpr.2]
  have attempts : ∀ pre a r' post, s.trace = pre ++ .write a r' :: post →
      accepted pre ++ a <+: produced s1.trace := by
    have key : Along (fun pre e => ∀ a r, e = .write a r → accepted pre ++ a <+: produced s1.trace)
        s1.trace := by
      intro pre e post ht a r' he
      subst he
      have : Along (fun pre e => ∀ a r, e = .write a r → accepted pre ++ a = produced pre)
          s1.trace := by
        refine Steps.plain_inv (P := fun s => Along (fun pre e => ∀ a r, e = .write a r →
          accepted pre ++ a = produced pre) s.trace) (Along.nil _) ?_ k1
        intro s t hs st i
        obtain ⟨es, he, ha⟩ := st.adds
        rw [he]
        cases ha with
        | none => rw [List.append_nil]; exact i
        | write r h =>
          refine i.snoc fun a r' h' => ?_
          cases h'
          obtain ⟨p, evs, post, k⟩ := hs.inv_false
          exact k.acc.symm
        | preface h1 h2 =>
          refine i.append_triv ?_
          intro e hm pre a r h; subst h; simp at hm
        | frame f evs h hr hev =>
          refine i.append_triv ?_
          intro e hm pre a r h; subst h; simp at hm; exact (hev _ hm).elim
        | goaway cs h => cases h
        | _ => exact i.snoc fun _ _ h => by cases h
      rw [this pre _ post ht a r' rfl, ht]
      simp
    intro pre a r' post ht
    have hin : ∃ post', s1.trace = pre ++ .write a r' :: post' := by
      rcases k2 with ⟨rfl, -⟩ | ⟨-, -, -, rfl⟩
      · rw [k3] at ht
        simp only at ht
        rcases append_split ht with ⟨q, h'⟩ | ⟨p, h', -⟩
        · exact ⟨q, h'⟩
        · exfalso
          have : Ev.write a r' ∈ [Ev.returned r] := by rw [h']; simp
          simp at this
      · rw [k3] at ht
        simp only [enq, List.append_assoc] at ht
        rcases append_split ht with ⟨q, h'⟩ | ⟨p, h', -⟩
        · exact ⟨q, h'⟩
        · exfalso
          have : Ev.write a r' ∈ (goawayChunks .protocolError).map Ev.enqueue ++ [Ev.returned r] := by
            rw [h']; simp
          simp at this
    obtain ⟨post', h'⟩ := hin
    exact key pre _ post' h' a r' rfl
  by_cases hm : Ev.prefaceOk ∈ s1.trace
  · obtain ⟨good, bad, outs, v, h1, h2, h3, h4, h5⟩ := hr.replies hb hm
    refine ⟨settingsFrame :: outs, settingsChunks.flatten ++ v, .cons _ _ _ _ settings_wire h3, ?_, ?_,
      ?_⟩
    · intro f hf
      rcases List.mem_cons.mp hf with rfl | hf
      · decide
      · exact Replies.types h2 f hf
    · rw [← h4]; exact ⟨_, i.acc.symm⟩
    · rw [← h4]; exact attempts
  · obtain ⟨-, e1, e2, e3⟩ := hr.silent hm
    refine ⟨[], [], .nil, by simp, ?_, ?_⟩
    · rw [← e3]; exact ⟨_, i.acc.symm⟩
    · rw [← e3]; exact attempts

/-- A connection discarded for a protocol error; its GOAWAY frame is left in the buffer. -/
theorem C39_unsent : ∃ r s, Called exCfg 0 0 r s ∧ (r == .discard && s.st == .closing &&
    s.wbuf == [0, 0, 8, 7, 0, 0, 0, 0, 0, 0, 0, 0, 1, 0, 0, 0, 1] &&
    (writeAttempts s.trace).length == 1) = true :=
  Shows.called (e := exEnv (clientPreface ++ exSettings ++ [0, 0, 1, 4, 0, 0, 0, 0, 0, 7]) [36])
    (es := []) (by decide +kernel)

theorem process_closing (cfg : Cfg W) (s : Sim W) (hs : s.st = .closing) (hw : s.wbuf ≠ [])
    (hsr : HsRes) (t : Nat) (ws : List WriteRes) :
    ∃ s' mid, s.process cfg ⟨hsr, [], .wrote s.wbuf.length t :: ws⟩ = .ok (.discard, s') ∧
      s'.trace = s.trace ++ .write s.wbuf (.wrote s.wbuf.length t) :: (mid ++ [.shutdown, .returned .discard]) ∧
      accepted mid = [] ∧ produced mid = [] := by
  let s1 : Sim W := { s with hs := hsr, reads := [], writes := ws, last := t, wbuf := [], trace := s.trace ++ [.write s.wbuf (.wrote s.wbuf.length t)] }
  have h1 : ({ s with hs := hsr, reads := [], writes := .wrote s.wbuf.length t :: ws } : Sim W).flush =
      .ok s1 := by
    simp [flush, hw, emit, s1]
  have h2 : ∃ mid, s1.fill = { s1 with reads := [], trace := s1.trace ++ mid } ∧
      accepted mid = [] ∧ produced mid = [] := by
    simp only [fill, fillLoop, s1]
    split
    · exact ⟨[], by simp, rfl, rfl⟩
    · exact ⟨[.readFail .wantReadOrWrite], by simp [Sim.readFailed, emit], rfl, rfl⟩
  obtain ⟨mid, h2, h3⟩ := h2
  refine ⟨{ s1 with reads := [], st := .clientClosed, trace := s1.trace ++ mid ++ [.shutdown, .returned .discard] },
    mid, ?_, ?_, h3⟩
  · simp only [process, budget, available, loop, iter, turn]
    rw [if_neg (by simp [hs]), h1]
    simp only [Outcome.bind_ok, ne_eq]
    rw [if_neg (by simp [s1]), h2]
    simp [dispatch, hs, emit, updateState, s1]
  · simp [s1]

/-- C39, the part that holds: a connection discarded for a protocol error has a GOAWAY frame with
PROTOCOL_ERROR as the unsent rest of its output, and one more `process()` call on a transport that
accepts it would send it and shut the transport down. Missing: the server makes no such call. -/
theorem C39_one_more_call_partial (cfg : Cfg W) (w : W) (now : Nat) (s : Sim W)
    (h : Called cfg w now .discard s) (hs : s.st = .closing) :
    ∃ f v, FrameWire f v ∧ f.type = 7 ∧ f.stream = 0 ∧
      (∃ last, f.payload = last ++ [0, 0, 0, 1] ∧ last.length = 4) ∧
      produced s.trace = accepted s.trace ++ v ∧
      ∀ t hsr ws, ∃ s', s.process cfg ⟨hsr, [], .wrote v.length t :: ws⟩ = .ok (.discard, s') ∧
        accepted s'.trace = produced s.trace ∧ Ev.shutdown ∈ s'.trace := by
  obtain ⟨s1, s2, k1, k2, k3⟩ := h.elim
  have h2 : s2.st = .closing := by rw [k3] at hs; exact hs
  rcases k2 with ⟨rfl, k⟩ | ⟨-, e1, e2, rfl⟩
  · rcases k with k | ⟨k, -⟩ | ⟨k, -⟩ <;> simp [k] at h2
  · have hwb : s.wbuf = (goawayChunks .protocolError).flatten := by
      rw [k3]; simp [enq, e2]
    obtain ⟨p, evs, post, i⟩ := h.inv
    refine ⟨goawayFrame .protocolError, (goawayChunks .protocolError).flatten, goaway_wire _, rfl, rfl,
      ⟨[0, 0, 0, 1], by decide, rfl⟩, by rw [i.acc, hwb], ?_⟩
    intro t hsr ws
    have hne : s.wbuf ≠ [] := by rw [hwb]; decide
    obtain ⟨s', mid, g1, g2, g3, -⟩ := process_closing cfg s hs hne hsr t ws
    rw [hwb] at g1
    refine ⟨s', g1, ?_, by rw [g2]; simp⟩
    rw [g2, i.acc]
    simp [accepted, g3]

/-! ### C40 -/

/-- C40 is false: a client that has sent just the preface is waited for, with the server's SETTINGS
frame still unsent. -/
theorem C40_refuted : ∃ r s, Called exCfg 0 0 r s ∧ (r == .wantRead && accepted s.trace == [] &&
    (writeAttempts s.trace).length == 0 && (produced s.trace).length == 27) = true :=
  Shows.called (e := exEnv clientPreface [27, 27, 27]) (es := []) (by decide +kernel)

/-- C40 as long as some frame has been acted on or something was written before: when the connection
waits for input, everything produced has been accepted. Missing: the case of `C40_refuted`, in which
the only octets unsent are the server's SETTINGS frame. -/
theorem C40_nothing_stranded_partial (cfg : Cfg W) (w : W) (now : Nat) (s : Sim W)
    (h : Called cfg w now .wantRead s) :
    accepted s.trace = produced s.trace ∨
      (frames s.trace = [] ∧ writeAttempts s.trace = [] ∧
        ∃ f, ServerPreface f ∧ FrameWire f (produced s.trace)) := by
  obtain ⟨s1, s2, k1, k2, k3⟩ := h.elim
  rcases k2 with ⟨rfl, k⟩ | ⟨k, -⟩
  · obtain ⟨p, evs, post, i⟩ := k1.inv_false
    have hacc := i.acc
    have done : s2.wbuf = [] → accepted s.trace = produced s.trace := by
      intro h0
      rw [h0, List.append_nil] at hacc
      rw [k3]
      simp [accepted, produced, hacc]
    rcases k with k | ⟨-, -, k, -⟩ | ⟨-, -, k, -⟩
    · refine .inl (done ?_)
      have hr := k1.replied
      have := (hr.silent (hr.before (.inl k))).2.2.2
      rw [this] at hacc
      have := congrArg List.length hacc
      simp at this
      exact List.length_eq_zero_iff.mp (by omega)
    · exact .inl (done k)
    · rcases k1.ready k with k | ⟨-, k4, k5, k6⟩
      · exact .inl (done k)
      · refine .inr ?_
        rw [k3]
        refine ⟨by simp [frames, k5], by simp [writeAttempts, k4], settingsFrame, settings_preface, ?_⟩
        simpa [produced, k6] using settings_wire
  · cases k

example : ∃ r s, Called exCfg 0 0 r s ∧
    (r == .wantRead && (frames s.trace).length == 2 && (accepted s.trace).length == 80) = true :=
  Shows.called (e := exEnv (clientPreface ++ exSettings ++ exGet) [36, 44]) (es := [])
    (by decide +kernel)

end Sim
end Ion
