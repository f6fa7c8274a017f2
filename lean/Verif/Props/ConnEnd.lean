import Verif.Props.ConnSend

/-! # How connections end (C120, C121) -/

namespace Ion.Sim
variable {W : Type}
open Spec

/-! ### C120 -/

/-- Before a GOAWAY frame is produced, a connection is never in the state in which it shuts its transport
down. -/
theorem Steps.not_shut {cfg : Cfg W} {w : W} {now : Nat} {s : Sim W} (h : Steps cfg false (init w now) s) :
    s.st ≠ .closing ∧ Ev.shutdown ∉ s.trace := by
  refine Steps.inv (P := fun s => s.st ≠ .closing ∧ Ev.shutdown ∉ s.trace) ?_ h ⟨by simp [init], by simp [init]⟩
  intro b s t hb st ⟨h1, h2⟩
  cases st with
  | frame _ s' hst hd hh hl hr hw ha =>
    refine ⟨?_, ?_⟩
    · rcases ha.state with k | k | k
      · show s'.st ≠ _; rw [k]; exact h1
      · show s'.st ≠ _; rw [k]; simp
      · show s'.st ≠ _; rw [k]; simp
    · show Ev.shutdown ∉ s'.trace
      cases ha with
      | request data hs dec' resp evs w' block enc' ht hb hd hr he =>
        cases hr <;> simp [answerEvs, h2]
      | _ => simp [enq, h2]
  | shutdown _ h hw => exact absurd h h1
  | close _ h => exact absurd (hb rfl) (by simp)
  | readFailed _ e hw hst hr =>
    cases e <;> simp [Sim.readFailed, emit, updateState, h1, h2]
  | preface _ rest h hw hr => simp [enq, emit, h2]
  | handshake => simp [h2]
  | writeFailed => simp [h2]
  | _ => simp [h1, h2]

/-- C120, "a connection that is given up is shut down in an orderly way", is false of every connection in
every server: the transport's `graceful_shutdown()` (TLS: close_notify; TCP: the end of the stream) has not been
called when the connection is given up, nor at any other time. -/
theorem C120_refuted (cfg : Cfg W) (w : W) (now : Nat) (r : ProcRes) (s : Sim W) (h : Called cfg w now r s) :
    Ev.shutdown ∉ s.trace := by
  obtain ⟨s1, s2, k1, k2, k3⟩ := h.elim
  have hn := k1.not_shut.2
  rw [k3]
  rcases k2 with ⟨rfl, -⟩ | ⟨-, -, -, rfl⟩
  · simp [hn]
  · simp [enq, hn]

/-- C120, what the code is capable of: after `close()`, the call of `process()` that finds everything written
shuts the transport down, says "discard", and has handed everything over. Missing: nobody calls `close()`, and
a connection given up for a protocol error is not called again. -/
theorem C120_closing_partial (cfg : Cfg W) (w : W) (now : Nat) (s : Sim W) (h : InUse cfg w now s)
    (hsr : HsRes) (t : Nat) (ws : List WriteRes) :
    ∃ s' mid, s.close.process cfg ⟨hsr, [], .wrote s.close.wbuf.length t :: ws⟩ = .ok (.discard, s') ∧
      s'.trace = s.close.trace ++ .write s.close.wbuf (.wrote s.close.wbuf.length t) ::
        (mid ++ [.shutdown, .returned .discard]) ∧
      accepted s'.trace = produced s.close.trace ∧ produced s'.trace = produced s.close.trace := by
  have hne := h.steps.not_shut.1
  have hc := close_eq s hne
  have h1 : s.close.st = .closing := by rw [hc]
  have h2 : s.close.wbuf ≠ [] := by
    rw [hc]
    simp [enq, goawayChunks, FrameHeader.serialize]
  obtain ⟨s', mid, g1, g2, g3, g4⟩ := process_closing cfg s.close h1 h2 hsr t ws
  have hst : Steps cfg true (init w now) s.close :=
    .tail (b := true) h.steps.weaken (fun _ => rfl) (by rw [hc]; exact .close s hne)
  obtain ⟨p, evs, post, i⟩ := Inv.steps hst (Inv.init cfg w true now)
  refine ⟨s', mid, g1, g2, ?_, ?_⟩
  · rw [g2, i.acc]
    simp [accepted, g3]
  · rw [g2]
    simp [produced, g4]

/-! ### C121 -/

/-- C121: when `process()` gives a connection up, everything produced on it (in particular every response) has
been accepted by the transport, but for the one GOAWAY frame with PROTOCOL_ERROR that is produced right before,
if it is given up for that. -/
theorem C121_nothing_owed (cfg : Cfg W) (w : W) (now : Nat) (s : Sim W) (h : Called cfg w now .discard s) :
    accepted s.trace = produced s.trace ∨
      ∃ f v, FrameWire f v ∧ f.type = 7 ∧ f.stream = 0 ∧ (∃ last, f.payload = last ++ [0, 0, 0, 1] ∧ last.length = 4) ∧
        produced s.trace = accepted s.trace ++ v ∧
        ∃ (pre : List Ev) (chunks : List Bytes), s.trace = pre ++ chunks.map Ev.enqueue ++ [.returned .discard] ∧ chunks.flatten = v ∧
          accepted s.trace = produced pre := by
  obtain ⟨s1, s2, k1, k2, k3⟩ := h.elim
  obtain ⟨p, evs, post, i⟩ := k1.inv_false
  have hacc := i.acc
  rcases k2 with ⟨rfl, k⟩ | ⟨-, e1, e2, rfl⟩
  · left
    have h0 : s2.wbuf = [] := by
      rcases k with k | ⟨-, k, -⟩ | ⟨-, k⟩
      · have hr := k1.replied
        have := (hr.silent (hr.before (.inl k))).2.2.2
        rw [this] at hacc
        have := congrArg List.length hacc
        simp at this
        exact List.length_eq_zero_iff.mp (by omega)
      · exact k
      · exact k
    rw [h0, List.append_nil] at hacc
    rw [k3]
    simp [accepted, produced, hacc]
  · right
    rw [e2, List.append_nil] at hacc
    refine ⟨goawayFrame .protocolError, (goawayChunks .protocolError).flatten, goaway_wire _, rfl, rfl,
      ⟨[0, 0, 0, 1], by decide, rfl⟩, ?_, s1.trace, goawayChunks .protocolError, by rw [k3]; rfl, rfl, ?_⟩
    · rw [k3]
      simp [enq, produced, accepted, hacc]
    · rw [k3]
      simp [enq, accepted, hacc]

/-- A client that says GOAWAY right after its request: the response has been accepted as a whole. -/
example : ∃ r s, Called exCfg 0 0 r s ∧ (r == .discard && (handled s.trace).length == 1 &&
    accepted s.trace == produced s.trace && (accepted s.trace).length == 80) = true :=
  Shows.called (e := exEnv (clientPreface ++ exSettings ++ exGet ++ [0, 0, 8, 7, 0, 0, 0, 0, 0, 0, 0, 0, 0, 0, 0, 0, 0])
    [36, 44]) (es := []) (by decide +kernel)

end Ion.Sim
