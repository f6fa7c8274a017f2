import Verif.Props.ConnServe

/-!
# A connection is given up only for a reason (C85)
-/

namespace Ion
open Spec
namespace Sim
variable {W : Type}

/-- Why a connection may be given up after the handshake, from what happened on it (`tr`). -/
inductive Reason (cfg : Cfg W) (w : W) (tr : List Ev) : Prop
  /-- The client did not start with the connection preface (RFC 9113, 3.4). -/
  | notHttp2 (h : 24 ≤ (received tr).length) (hp : ¬ Spec.preface <+: received tr)
  /-- The client closed the connection, or the transport reported a protocol error on reading. -/
  | readFailed (e : TErr) (he : e = .connectionClosed ∨ e = .protocolError) (h : Ev.readFail e ∈ tr)
  /-- Writing failed. -/
  | writeFailed (a : Bytes) (e : TErr) (he : e ≠ .wantReadOrWrite) (h : Ev.write a (.fail e) ∈ tr)
  /-- The client sent GOAWAY, which has type 7 (RFC 9113, 6.8). -/
  | goaway (f : FrameReader) (h : f ∈ frames tr) (ht : f.header.type = 7)
  /-- After frames that were served the client sent one that cannot be: a SETTINGS frame of the wrong
  length, or a header block RFC 7541 gives no meaning. -/
  | refused (ins : List FrameReader) (f : FrameReader) (calls : List (HttpRequest × HOut))
      (answers : List (Nat × List Header × Bytes)) (T : Table) (w' : W)
      (h : frames tr = ins ++ [f]) (hs : Serves cfg w (ins.map asFrame) calls answers T w')
      (hf : Unacceptable T (asFrame f))
  /-- After the frames acted on the client announced one longer than this server's maximum. -/
  | oversized (v rest : Bytes) (hv : FramesWire ((frames tr).map asFrame) v)
      (h : received tr = Spec.preface ++ (v ++ rest)) (ho : Oversized rest)

/-- Handshake events. -/
def handshakes (tr : List Ev) : List Nat :=
  tr.filterMap fun | .handshake t => some t | _ => none

/-! ### The invariant -/

theorem Oversized.append {r : Bytes} (h : Oversized r) (x : Bytes) : Oversized (r ++ x) := by
  obtain ⟨a, b, h1, h2, h3, h4⟩ := h
  exact ⟨a, b ++ x, by rw [h1]; simp, h2, by rw [List.length_append]; omega, h4⟩

/-- What happens later does not take a reason away, as long as no frame is acted on. -/
theorem Reason.append {cfg : Cfg W} {w : W} {tr : List Ev} (h : Reason cfg w tr) {es : List Ev}
    (hf : frames es = []) : Reason cfg w (tr ++ es) := by
  cases h with
  | notHttp2 h hp =>
    refine .notHttp2 (by rw [received_append, List.length_append]; omega) ?_
    rw [received_append]
    intro hc
    apply hp
    refine List.prefix_of_prefix_length_le hc (List.prefix_append _ _) ?_
    have : Spec.preface.length = 24 := by decide
    omega
  | readFailed e he h => exact .readFailed e he (List.mem_append_left _ h)
  | writeFailed a e he h => exact .writeFailed a e he (List.mem_append_left _ h)
  | goaway f h ht => exact .goaway f (by rw [frames_append]; exact List.mem_append_left _ h) ht
  | refused ins f calls answers T w' h hs hu =>
    exact .refused ins f calls answers T w' (by rw [frames_append, hf, List.append_nil, h]) hs hu
  | oversized v rest hv h ho =>
    refine .oversized v (rest ++ received es) ?_ ?_ (Oversized.append ho _)
    · rw [frames_append, hf, List.append_nil]; exact hv
    · rw [received_append, h]; simp

/-- A connection that will act on no more frames has a reason for it. -/
theorem Step.reason {cfg : Cfg W} {w : W} {s t : Sim W} (h : Step cfg false s t) (i : Inv cfg w false s)
    (j : ServedTo cfg w s) (k : Ended s.st → Reason cfg w s.trace) (he : Ended t.st) :
    Reason cfg w t.trace := by
  cases h with
  | env => exact k he
  | readsLeft => exact k he
  | handshake _ n h => simp [Ended] at he
  | writeBlocked _ ws h hst => exact (k he).append rfl
  | writeFailed _ ws e h he' hst => exact .writeFailed s.wbuf e he' (by simp)
  | wrote _ ws n t h hn hst => exact (k he).append rfl
  | read _ bs t hw hst hr => exact (k he).append rfl
  | readFailed _ e hw hst hr =>
    cases e with
    | connectionClosed => exact .readFailed .connectionClosed (.inl rfl) (by simp [Sim.readFailed, emit, updateState])
    | protocolError => exact .readFailed .protocolError (.inr rfl) (by simp [Sim.readFailed, emit, updateState])
    | _ => exact (k he).append (es := [_]) rfl
  | oversized _ h hd hh hl hw =>
    obtain ⟨passed, evs, post, i⟩ := i
    have hp : passed = true := by
      have := i.state
      cases passed with
      | true => rfl
      | false => simp [h] at this
    have hr := i.recv
    rw [if_pos hp] at hr
    obtain ⟨v, h1, h2⟩ := hr
    exact .oversized v s.rbuf h1 h2 (hh.oversized hl)
  | shutdown _ h hw => exact (k (.inl h)).append rfl
  | wantRead _ h => exact (k he).append rfl
  | wantWrite _ h => exact (k he).append rfl
  | discard _ h => exact (k he).append rfl
  | preface _ rest h hw hr => simp [Ended] at he
  | frame _ s1 h hd hh hl hr hw ha =>
    obtain ⟨good, bad, T, w', h1, h2, h3, h4⟩ := j
    have hgood : bad = [] ∧ s.dec.WF ∧ s.dec.abs = T := by
      rcases h4 with h4 | ⟨h4, -⟩
      · exact h4
      · simp [Ended, h] at h4
    obtain ⟨rfl, hwf, rfl⟩ := hgood
    rw [List.append_nil] at h1
    generalize hf : FrameReader.mk hd ((s.rbuf.drop 9).take hd.length.toNat) = f at ha
    have hne : ¬ Ended s.st := by simp [Ended, h]
    cases ha with
    | badSettings e ht hfl hrs =>
      exact .refused good f _ _ _ _ (by simp [h1, frames]) h2 (.inl ⟨⟨ht, hfl⟩, readSettings_err hrs⟩)
    | badHeaders block e dec' ht hbk hdc =>
      exact .refused good f _ _ _ _ (by simp [h1, frames]) h2 (unacceptable_of_err hwf ht hbk hdc)
    | goaway ht => exact .goaway f (by simp [frames]) ht
    | _ => exact absurd he hne

theorem Steps.reason {cfg : Cfg W} {w : W} {now : Nat} {s : Sim W}
    (h : Steps cfg false (init w now) s) (he : Ended s.st) : Reason cfg w s.trace := by
  refine (Steps.inv (P := fun s => Inv cfg w false s ∧ ServedTo cfg w s ∧
    (Ended s.st → Reason cfg w s.trace)) ?_ h ⟨Inv.init .., ServedTo.init .., by simp [Ended, Sim.init]⟩).2.2 he
  rintro b s t hb st ⟨i1, i2, i3⟩
  cases b with
  | true => cases hb rfl
  | false => exact ⟨Inv.step hb st i1, ServedTo.step st i2, Step.reason st i1 i2 i3⟩

/-! ### The handshake -/

theorem Acts.handshakes {cfg : Cfg W} {s s' : Sim W} {f : FrameReader} (h : Acts cfg s f s') :
    ∃ evs, s'.trace = s.trace ++ evs ∧ handshakes evs = [] := by
  cases h with
  | settings l ht hf h => exact ⟨[.enqueue _], rfl, rfl⟩
  | request data hs dec' resp evs w' block enc' ht hb hd hr he =>
    refine ⟨_, rfl, ?_⟩
    cases hr <;> simp [answerEvs, Sim.handshakes]
  | _ => exact ⟨[], by simp, rfl⟩

/-- Waiting for the handshake means it has not happened. -/
def Waits (s : Sim W) : Prop := s.st = .awaitingHandshake ↔ handshakes s.trace = []

theorem Step.waits {cfg : Cfg W} {s t : Sim W} (h : Step cfg false s t) (i : Waits s) : Waits t := by
  have q : ∀ (u : Sim W) (es : List Ev), u.trace = s.trace ++ es → handshakes es = [] →
      (s.st = .awaitingHandshake ↔ u.st = .awaitingHandshake) → Waits u := by
    intro u es h1 h2 h3
    unfold Waits at *
    rw [← h3, i, h1]
    simp only [handshakes, List.filterMap_append, List.append_eq_nil_iff]
    simp only [handshakes] at h2
    simp [h2]
  cases h with
  | env => exact i
  | readsLeft => exact i
  | handshake _ n h => simp [Waits, handshakes]
  | writeBlocked _ ws h hst => exact q _ _ rfl rfl Iff.rfl
  | writeFailed _ ws e h he hst => exact q _ _ rfl rfl (by simp [hst])
  | wrote _ ws n t h hn hst => exact q _ _ rfl rfl Iff.rfl
  | read _ bs t hw hst hr => exact q _ _ rfl rfl Iff.rfl
  | readFailed _ e hw hst hr =>
    refine q _ [.readFail e] (by cases e <;> rfl) rfl ?_
    cases e <;> simp [Sim.readFailed, emit, updateState, hst]
  | oversized _ h hd hh hl hw => exact q _ [] (by simp) rfl (by simp [h])
  | shutdown _ h hw => exact q _ _ rfl rfl (by simp [h])
  | wantRead _ h => exact q _ _ rfl rfl Iff.rfl
  | wantWrite _ h => exact q _ _ rfl rfl Iff.rfl
  | discard _ h => exact q _ _ rfl rfl Iff.rfl
  | preface _ rest h hw hr =>
    exact q _ (.prefaceOk :: settingsChunks.map Ev.enqueue) (by simp [enq, emit])
      (by simp [handshakes]) (by simp [h])
  | frame _ s1 h hd hh hl hr hw ha =>
    obtain ⟨evs, h1, h2⟩ := ha.handshakes
    refine q _ (_ :: evs) (by simp [h1]; rfl) ?_ ?_
    · simpa [handshakes] using h2
    · rcases ha.state with h3 | h3 | h3 <;> simp [h3, h]

theorem Steps.waits {cfg : Cfg W} {s t : Sim W} (h : Steps cfg false s t) (i : Waits s) : Waits t := by
  refine Steps.inv (P := Waits) ?_ h i
  intro b s t hb st i
  cases b with
  | true => cases hb rfl
  | false => exact Step.waits st i

theorem Waits.init (w : W) (now : Nat) : Waits (Sim.init w now) := by simp [Waits, Sim.init, handshakes]

/-- A call that finds the handshake incomplete and cannot complete it. -/
theorem process_handshake_failed (cfg : Cfg W) {env : Env} {s : Sim W} {e : TErr}
    (hs : s.st = .awaitingHandshake) (he : env.hs = .fail e) :
    ∃ t, s.process cfg env = .ok (if e = .wantReadOrWrite then .wantRead else .discard, t) ∧
      t.trace = s.trace ++ [.returned (if e = .wantReadOrWrite then .wantRead else .discard)] := by
  have hb : ∃ n, ({ s with hs := env.hs, reads := env.reads, writes := env.writes } : Sim W).budget = n + 1 :=
    ⟨_, rfl⟩
  obtain ⟨n, hb⟩ := hb
  unfold process
  simp only [hb]
  rw [loop, iter]
  simp only [hs, if_true, handleHandshake, he]
  cases e <;> exact ⟨_, rfl, rfl⟩

/-- After the handshake, a call only goes through states in which the handshake is done. -/
theorem loop_handshake (cfg : Cfg W) {n : Nat} {s : Sim W} {t : Nat}
    (hs : s.st = .awaitingHandshake) (he : s.hs = .done t) :
    s.loop cfg (n + 1) = ({ s with st := .awaitingPreface, last := t, trace := s.trace ++ [.handshake t] } : Sim W).loop cfg (n + 1) := by
  rw [loop, loop, iter, iter]
  simp only [hs, if_true, handleHandshake, he]
  rw [if_neg (by simp)]
  rfl

/-! ### C85 -/

/-- C85: `process()` says "discard" only if the handshake failed for good, or the handshake is complete
and there is a reason. -/
theorem C85_reason (cfg : Cfg W) (w : W) (now : Nat) (s0 s : Sim W) (env : Env)
    (h0 : InUse cfg w now s0) (h : s0.process cfg env = .ok (.discard, s)) :
    (handshakes s.trace = [] ∧ ∃ e, e ≠ .wantReadOrWrite ∧ env.hs = .fail e) ∨
    (handshakes s.trace ≠ [] ∧ Reason cfg w s.trace) := by
  have hw0 : Waits s0 := Steps.waits h0.steps (Waits.init w now)
  have main : ∀ s1 s2 : Sim W, Steps cfg false (init w now) s1 → Ends s1 .discard s2 →
      s1.st ≠ .awaitingHandshake →
      handshakes (s2.trace ++ [Ev.returned .discard]) ≠ [] ∧
        Reason cfg w (s2.trace ++ [Ev.returned .discard]) := by
    intro s1 s2 k1 k2 k3
    have hh : handshakes s1.trace ≠ [] := fun hc => k3 ((Steps.waits k1 (Waits.init w now)).mpr hc)
    have hh' : ∀ es, handshakes (s1.trace ++ es) ≠ [] := by
      intro es hc
      simp only [handshakes, List.filterMap_append, List.append_eq_nil_iff] at hc
      exact hh hc.1
    rcases k2 with ⟨rfl, k2⟩ | ⟨-, k4, -, rfl⟩
    · refine ⟨hh' _, ?_⟩
      rcases k2 with k2 | ⟨m1, m2, m3, m4⟩ | ⟨m1, -⟩
      · exact absurd k2 k3
      · obtain ⟨passed, evs, post, i⟩ := Inv.steps k1 (Inv.init cfg w false now)
        have hp : passed = false := by
          have := i.state
          cases passed with
          | false => rfl
          | true => simp [m1] at this
        subst hp
        have hr := i.recv
        simp at hr
        have hq : Reason cfg w s2.trace := by
          refine .notHttp2 (by rw [hr.2]; exact m3) ?_
          rw [hr.2]
          rintro ⟨z, hz⟩
          apply m4
          rw [← hz]
          exact List.take_left' (by decide)
        exact hq.append rfl
      · exact (Steps.reason k1 (.inr (.inr m1))).append rfl
    · simp only [enq]
      rw [List.append_assoc]
      exact ⟨hh' _, (Steps.reason k1 (.inr (.inl k4))).append (by simp [frames, goawayChunks])⟩
  have go : ∀ (u : Sim W) (n : Nat) (x : Sim W), Steps cfg false (init w now) u →
      u.st ≠ .awaitingHandshake → u.loop cfg n = .ok (.discard, x) →
      handshakes (x.trace ++ [Ev.returned .discard]) ≠ [] ∧
        Reason cfg w (x.trace ++ [Ev.returned .discard]) := by
    intro u n x k1 k2 k3
    obtain ⟨s1, m1, m2⟩ := loop_steps cfg n k3
    refine main s1 x (k1.trans m1) m2 ?_
    have hu : handshakes u.trace ≠ [] := fun hc => k2 ((Steps.waits k1 (Waits.init w now)).mpr hc)
    intro hc
    have := (Steps.waits (k1.trans m1) (Waits.init w now)).mp hc
    obtain ⟨evs, he⟩ := m1.trace_mono
    rw [he] at this
    simp only [handshakes, List.filterMap_append, List.append_eq_nil_iff] at this
    exact hu this.1
  have henv := h0.steps.trans (.one (.env s0 env))
  have hproc := h
  unfold process at h
  obtain ⟨⟨x, s2⟩, h1, h⟩ := Outcome.bind_eq_ok.mp h
  cases h
  by_cases hs : s0.st = .awaitingHandshake
  · cases he : env.hs with
    | fail e =>
      left
      obtain ⟨t, k1, k2⟩ := process_handshake_failed cfg hs he
      rw [hproc] at k1
      have hne : e ≠ .wantReadOrWrite := by
        rintro rfl
        cases k1
      rw [if_neg hne] at k1 k2
      cases k1
      refine ⟨?_, e, hne, rfl⟩
      rw [k2]
      have := hw0.mp hs
      simp only [handshakes, List.filterMap_append, List.append_eq_nil_iff] at this ⊢
      exact ⟨this, rfl⟩
    | done t =>
      right
      have hb : ∃ n, ({ s0 with hs := env.hs, reads := env.reads, writes := env.writes } : Sim W).budget = n + 1 :=
        ⟨_, rfl⟩
      obtain ⟨n, hb⟩ := hb
      rw [hb, loop_handshake cfg (s := { s0 with hs := env.hs, reads := env.reads, writes := env.writes }) hs he] at h1
      exact go _ _ _ (henv.trans (.one (.handshake _ t hs))) (by simp) h1
  · right
    exact go _ _ _ henv hs h1

/-- C85: a call whose handshake fails for good says "discard", and does nothing else. -/
theorem C85_handshake (cfg : Cfg W) (w : W) (now : Nat) (s0 : Sim W) (env : Env) (e : TErr)
    (h0 : InUse cfg w now s0) (hn : handshakes s0.trace = []) (he : env.hs = .fail e)
    (hf : e ≠ .wantReadOrWrite) :
    ∃ s, s0.process cfg env = .ok (.discard, s) ∧ s.trace = s0.trace ++ [.returned .discard] := by
  have hs : s0.st = .awaitingHandshake := (Steps.waits h0.steps (Waits.init w now)).mpr hn
  obtain ⟨t, k1, k2⟩ := process_handshake_failed cfg hs he
  rw [if_neg hf] at k1 k2
  exact ⟨t, k1, k2⟩

/-- C85: after anything that ends a connection it is given up, unless output is still waiting to be sent:
it never waits for input again. -/
theorem C85_given_up (cfg : Cfg W) (w : W) (now : Nat) (r : ProcRes) (s : Sim W)
    (h : Called cfg w now r s) (e : Ev) (hm : e ∈ s.trace) (he : Ender e) :
    r = .discard ∨ (r = .wantWrite ∧ accepted s.trace ≠ produced s.trace) := by
  obtain ⟨s1, s2, k1, k2, rfl⟩ := h.elim
  rcases k2 with ⟨rfl, k2⟩ | ⟨rfl, -⟩
  · have hm' : e ∈ s2.trace := by
      rcases List.mem_append.mp hm with hm | hm
      · exact hm
      · simp only [List.mem_singleton] at hm
        subst hm
        simp [Ender] at he
    have hend : Ended s2.st :=
      Steps.inv (P := fun s => ∀ e ∈ s.trace, Ender e → Ended s.st) (fun _ _ _ _ st => Step.ender st) k1
        (by simp [Sim.init]) e hm' he
    cases r with
    | discard => exact .inl rfl
    | wantWrite =>
      refine .inr ⟨rfl, ?_⟩
      obtain ⟨p, evs, post, i⟩ := Inv.steps k1 (Inv.init cfg w false now)
      have hacc := i.acc
      intro hc
      simp only [accepted_append, produced_append] at hc
      simp only [accepted, produced, List.append_nil] at hc
      rw [hacc] at hc
      have := congrArg List.length hc
      simp at this
      exact k2 this
    | wantRead =>
      rcases k2 with k | ⟨k, -⟩ | ⟨k, -⟩ <;> rcases hend with h | h | h <;> rw [k] at h <;> cases h
  · exact .inl rfl

/-- Each way to be given up: a failed handshake, another protocol, a closed connection, a failed write,
GOAWAY, a SETTINGS frame of length 5, and a frame of 16385 octets announced. -/
example : Shows exCfg 0 [{ hs := .fail .otherError, reads := [], writes := [] }] (fun r s =>
      r = .discard && handshakes s.trace == []) ∧
    Shows exCfg 0 [exEnv (List.replicate 24 65) []] (fun r s => r = .discard && handshakes s.trace == [1]) ∧
    Shows exCfg 0 [{ hs := .done 1, reads := [.fail .connectionClosed], writes := [] }]
      (fun r _ => r = .discard) ∧
    Shows exCfg 0 [exEnv clientPreface [], { hs := .done 1, reads := [], writes := [.fail .writeError] },
      { hs := .done 1, reads := [], writes := [.wrote 27 3] }] (fun r _ => r = .discard) ∧
    Shows exCfg 0 [exEnv (clientPreface ++ [0, 0, 8, 7, 0, 0, 0, 0, 0] ++ List.replicate 8 0) [27]]
      (fun r _ => r = .discard) ∧
    Shows exCfg 0 [exEnv (clientPreface ++ [0, 0, 5, 4, 0, 0, 0, 0, 0, 1, 2, 3, 4, 5]) [27]]
      (fun r _ => r = .discard) ∧
    Shows exCfg 0 [exEnv (clientPreface ++ [0, 64, 1, 0, 0, 0, 0, 0, 1]) [27]]
      (fun r _ => r = .discard) := by
  decide +kernel

end Sim
end Ion
