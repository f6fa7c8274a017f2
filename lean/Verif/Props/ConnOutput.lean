import Verif.Lemmas.ConnMore

/-!
# Properties of what a connection sends: C30–C40
-/

namespace Ion

namespace Spec

theorem Replies.good {ins : List Frame} {rs : List (Nat × Bytes × Bytes)} {outs : List Frame}
    (h : Replies ins rs outs) : ∀ f ∈ ins, ¬ BadSettings f := by
  induction h with
  | nil => simp
  | settings ins rs outs f h ht hf hl ih =>
    intro g hg
    rcases List.mem_append.mp hg with hg | hg
    · exact ih g hg
    · simp at hg; subst hg; exact fun hb => hb.2 hl
  | request ins rs outs f block body ds h ht hd ih =>
    intro g hg
    rcases List.mem_append.mp hg with hg | hg
    · exact ih g hg
    · simp at hg; subst hg; intro hb; have := hb.1.1; simp [ht] at this
  | other ins rs outs f h h1 h4 ih =>
    intro g hg
    rcases List.mem_append.mp hg with hg | hg
    · exact ih g hg
    · simp at hg; subst hg; intro hb; exact h4 hb.1.1 hb.1.2

theorem Replies.acks {ins : List Frame} {rs : List (Nat × Bytes × Bytes)} {outs : List Frame}
    (h : Replies ins rs outs) :
    outs.filter (fun f => f.type == 4) =
      List.replicate (ins.filter fun f => NeedsAck f).length (⟨4, 1, 0, []⟩ : Frame) := by
  induction h with
  | nil => rfl
  | settings ins rs outs f h ht hf hl ih =>
    simp [List.filter_append, ih, NeedsAck, ht, hf, List.replicate_succ']
  | request ins rs outs f block body ds h ht hd ih =>
    have : ds.filter (fun f => f.type == 4) = [] := by
      rw [List.filter_eq_nil_iff]
      intro g hg
      simp [(hd.data g hg).1]
    simp [List.filter_append, ih, NeedsAck, ht, this]
  | other ins rs outs f h h1 h4 ih =>
    have : ¬ NeedsAck f := by
      exact fun h => h4 h.1 h.2
    simp [List.filter_append, ih, this]

end Spec

namespace Sim
open Spec
variable {W : Type}

/-! ### C30 -/

theorem Steps.settings_first {cfg : Cfg W} {w : W} {now : Nat} {s : Sim W}
    (h : Steps cfg false (Sim.init w now) s) (hw : produced s.trace ≠ []) :
    settingsChunks.flatten <+: produced s.trace := by
  obtain ⟨p, evs, post, i⟩ := h.inv_false
  have hpr := i.prod
  cases p with
  | true =>
    simp only [if_true] at hpr
    exact ⟨_, hpr.symm⟩
  | false =>
    have hrecv := i.recv
    simp only [Bool.false_eq_true, if_false] at hrecv
    have hserved := i.served
    rw [hrecv.1] at hserved
    have hev := (hserved.det .nil).2.2.2
    rw [hev, i.post_plain rfl] at hpr
    simp [produced] at hpr
    exact absurd hpr hw

/-- C30: whatever is handed to the transport comes after, or is part of, one SETTINGS frame announcing
ion's settings; and that frame has been produced once a connection waits after the preface. -/
theorem C30_settings_first : ∃ f v, ServerPreface f ∧ FrameWire f v ∧
    ∀ (W : Type) (cfg : Cfg W) (w : W) (now : Nat) (r : ProcRes) (s : Sim W), Called cfg w now r s →
      (∀ pre a r' post, s.trace = pre ++ .write a r' :: post → v <+: accepted pre ++ a) ∧
      (r = .wantRead → 24 ≤ (received s.trace).length → v <+: produced s.trace) := by
  refine ⟨settingsFrame, settingsChunks.flatten, settings_preface, settings_wire, ?_⟩
  intro W cfg w now r s h
  constructor
  · intro pre a r' post ht
    have : Along (fun pre e => ∀ a r, e = .write a r → settingsChunks.flatten <+: accepted pre ++ a)
        s.trace := by
      refine h.along ?_ (by intro _ _ _ _ h; cases h) (by intro _ _ _ _ h; cases h)
      intro s hs
      refine Steps.plain_inv (P := fun s => Along (fun pre e => ∀ a r, e = .write a r →
        settingsChunks.flatten <+: accepted pre ++ a) s.trace) (Along.nil _) ?_ hs
      intro s t hs st i
      obtain ⟨es, he, ha⟩ := st.adds
      rw [he]
      cases ha with
      | none => rw [List.append_nil]; exact i
      | write r h =>
        refine i.snoc fun a r' h' => ?_
        cases h'
        obtain ⟨p, evs, post, k⟩ := hs.inv_false
        rw [← k.acc]
        refine hs.settings_first ?_
        rw [k.acc]
        simp [h]
      | preface h1 h2 =>
        refine i.append_triv ?_
        intro e hm pre a r h; subst h; simp at hm
      | frame f evs h hr hev =>
        refine i.append_triv ?_
        intro e hm pre a r h; subst h; simp at hm; exact (hev _ hm).elim
      | goaway cs h => cases h
      | _ => exact i.snoc fun _ _ h => by cases h
    exact this pre _ post ht a r' rfl
  · intro hr hl
    subst hr
    obtain ⟨p, evs, i, c⟩ := h.waiting
    rcases c with ⟨-, l⟩ | ⟨rfl, -⟩
    · omega
    · have := i.prod
      simp only [if_true] at this
      exact ⟨_, this.symm⟩

/-- A connection with two write attempts. -/
example : ∃ r s, Called exCfg 0 0 r s ∧
    (r == .wantRead && (writeAttempts s.trace).length == 2 && (accepted s.trace).length == 80) = true :=
  Shows.called (e := exEnv (clientPreface ++ exSettings ++ exGet) [36, 44]) (es := [])
    (by decide +kernel)

/-! ### C31 -/

/-- C31: the frames produced are the server's SETTINGS frame (once the preface is accepted), then the
replies to the frames acted on, in order, then at most one GOAWAY frame. Only the last frame can be
left without its reply: if it has to be refused (see C83). (Response header blocks are assumed to fit the 24-bit
length field.) -/
theorem C31_replies (cfg : Cfg W) (w : W) (now : Nat) (r : ProcRes) (s : Sim W)
    (h : Called cfg w now r s) (hb : ∀ x ∈ responses s.trace, x.2.2.length < 2 ^ 24) :
    ∃ (good bad : List FrameReader) (first outs extra : List Frame),
      frames s.trace = good ++ bad ∧
      Replies (good.map asFrame) ((responses s.trace).map asReply) outs ∧
      FramesWire (first ++ outs ++ extra) (produced s.trace) ∧
      ((first = [] ∧ frames s.trace = []) ∨ ∃ f, first = [f] ∧ ServerPreface f) ∧
      (bad = [] ∨ (r ≠ .wantRead ∧ ∃ f, bad = [f] ∧ ∃ calls answers T w',
        Serves cfg w (good.map asFrame) calls answers T w' ∧ Unacceptable T (asFrame f))) ∧
      (extra = [] ∨ (r = .discard ∧ ∃ g, extra = [g] ∧ g.type = 7 ∧ g.payload.length = 8)) := by
  obtain ⟨s1, s2, k1, k2, k3⟩ := h.elim
  have hr := k1.replied
  have hfr : frames s.trace = frames s1.trace ∧ responses s.trace = responses s1.trace := by
    rcases k2 with ⟨rfl, -⟩ | ⟨-, -, -, rfl⟩ <;> subst k3 <;>
      simp [enq, frames, responses]
  rw [hfr.2] at hb
  rw [hfr.1, hfr.2]
  have hpr : ∃ extra v', produced s.trace = produced s1.trace ++ v' ∧ FramesWire extra v' ∧
      (extra = [] ∨ (r = .discard ∧ ∃ g, extra = [g] ∧ g.type = 7 ∧ g.payload.length = 8)) := by
    rcases k2 with ⟨rfl, -⟩ | ⟨k, -, -, rfl⟩
    · exact ⟨[], [], by subst k3; simp [produced], .nil, .inl rfl⟩
    · refine ⟨[goawayFrame .protocolError], _, ?_, .one (goaway_wire _), .inr ⟨k, _, rfl, rfl, rfl⟩⟩
      subst k3
      simp [enq, produced]
  obtain ⟨extra, v', p1, p2, p3⟩ := hpr
  rw [p1]
  by_cases hm : Ev.prefaceOk ∈ s1.trace
  · obtain ⟨good, bad, outs, v, h1, h2, h3, h4, h5⟩ := hr.replies hb hm
    refine ⟨good, bad, [settingsFrame], outs, extra, h1, h2, ?_,
      .inr ⟨_, rfl, settings_preface⟩, ?_, p3⟩
    · rw [h4]
      exact ((FramesWire.one settings_wire).append h3).append p2
    · rcases h5 with h5 | ⟨h5, h6⟩
      · exact .inl h5
      · refine .inr ⟨?_, h6⟩
        rintro rfl
        rcases k2 with ⟨rfl, k⟩ | ⟨k, -⟩
        · rcases k with k | ⟨k, -⟩ | ⟨k, -⟩ <;> simp [Ended, k] at h5
        · cases k
  · obtain ⟨-, e1, e2, e3⟩ := hr.silent hm
    refine ⟨[], [], [], [], extra, by simp [e1], by simp [e2]; exact .nil, ?_, .inl ⟨rfl, e1⟩, .inl rfl,
      p3⟩
    simpa [e3] using p2

/-- A connection with two requests and a SETTINGS frame between them. -/
example : ∃ r s, Called exCfg 0 0 r s ∧ (r == .wantRead && (frames s.trace).length == 3 &&
    (responses s.trace).all (fun x => decide (x.2.2.length < 2 ^ 24)) &&
    (responses s.trace).length == 2) = true :=
  Shows.called (e := exEnv (clientPreface ++ exGet ++ exSettings ++ exGet) [71, 9, 24]) (es := [])
    (by decide +kernel)

/-- A connection that ends with a refused frame. -/
example : ∃ r s, Called exCfg 0 0 r s ∧ (r == .discard && (frames s.trace).length == 2 &&
    (responses s.trace).length == 1) = true :=
  Shows.called (e := exEnv (clientPreface ++ exGet ++ [0, 0, 1, 4, 0, 0, 0, 0, 0, 7]) [71]) (es := [])
    (by decide +kernel)

/-! ### C32 -/

/-- C32: what `write_data_response` produces for a body is DATA frames carrying exactly that body. -/
theorem C32_body_frames (s : Sim W) (sid : UInt32) (body : Bytes) :
    ∃ fs v, BodyFrames (sid.toNat % 2 ^ 31) body fs ∧ FramesWire fs v ∧
      (s.writeDataResponse sid body).wbuf = s.wbuf ++ v ∧
      produced (s.writeDataResponse sid body).trace = produced s.trace ++ v := by
  obtain ⟨fs, h1, h2⟩ := dataChunks_frames sid _ body rfl
  refine ⟨fs, _, h2, h1, ?_, ?_⟩
  · rw [writeDataResponse_eq sid _ body rfl]; simp [enq]
  · rw [writeDataResponse_eq sid _ body rfl]; simp [enq]

/-! ### C33 -/

/-- C33: after the server's own SETTINGS frame, the SETTINGS frames a connection produces are empty
ACKs, exactly as many as it has acted on SETTINGS frames that need one and are well-formed. A malformed
SETTINGS frame is the last frame acted on; the connection never waits for input afterwards. -/
theorem C33_settings_ack (cfg : Cfg W) (w : W) (now : Nat) (r : ProcRes) (s : Sim W)
    (h : Called cfg w now r s) (hb : ∀ x ∈ responses s.trace, x.2.2.length < 2 ^ 24)
    (hf : frames s.trace ≠ []) :
    (∃ first rest, FramesWire (first :: rest) (produced s.trace) ∧ ServerPreface first ∧
      rest.filter (fun f => f.type == 4) = List.replicate
        (((frames s.trace).map asFrame).filter fun f => NeedsAck f ∧ ¬ BadSettings f).length
        (⟨4, 1, 0, []⟩ : Frame)) ∧
    (∀ f ∈ frames s.trace, BadSettings (asFrame f) →
      r ≠ .wantRead ∧ ∃ before, frames s.trace = before ++ [f] ∧
        ∀ g ∈ before, ¬ BadSettings (asFrame g)) := by
  obtain ⟨good, bad, first, outs, extra, h1, h2, h3, h4, h5, h6⟩ := C31_replies cfg w now r s h hb
  constructor
  · rcases h4 with ⟨-, h4⟩ | ⟨f, rfl, h4⟩
    · exact absurd h4 hf
    · refine ⟨f, outs ++ extra, by simpa using h3, h4, ?_⟩
      have he : extra.filter (fun f => f.type == 4) = [] := by
        rcases h6 with rfl | ⟨-, g, rfl, hg, -⟩
        · rfl
        · simp [hg]
      rw [List.filter_append, he, List.append_nil, h2.acks, h1, List.map_append, List.filter_append]
      have hg : (good.map asFrame).filter (fun f => NeedsAck f ∧ ¬ BadSettings f) =
          (good.map asFrame).filter fun f => NeedsAck f := by
        apply List.filter_congr
        intro f hm
        have := h2.good f hm
        simp [this]
      have hbd : (bad.map asFrame).filter (fun f => NeedsAck f ∧ ¬ BadSettings f) = [] := by
        rcases h5 with rfl | ⟨-, f, rfl, _, _, _, _, -, hx⟩
        · rfl
        · rcases hx with hx | hx
          · simp [hx]
          · simp [NeedsAck, hx.1]
      rw [hg, hbd, List.append_nil]
  · intro f hm hbad
    have hng : ∀ g ∈ good, ¬ BadSettings (asFrame g) := fun g hg =>
      h2.good _ (List.mem_map_of_mem hg)
    rw [h1] at hm
    rcases List.mem_append.mp hm with hm | hm
    · exact absurd hbad (hng f hm)
    · rcases h5 with rfl | ⟨hr, g, rfl, -⟩
      · simp at hm
      · simp at hm
        subst hm
        exact ⟨hr, good, h1, hng⟩

/-- A connection that acted on a SETTINGS frame, a SETTINGS ACK and a malformed SETTINGS frame. -/
example : ∃ r s, Called exCfg 0 0 r s ∧ (r == .discard && (frames s.trace).length == 3 &&
    (responses s.trace).all (fun x => decide (x.2.2.length < 2 ^ 24)) &&
    (frames s.trace).any (fun f => decide (BadSettings (asFrame f)))) = true :=
  Shows.called (e := exEnv (clientPreface ++ exSettings ++ [0, 0, 0, 4, 1, 0, 0, 0, 0] ++
    [0, 0, 1, 4, 0, 0, 0, 0, 0, 7]) [36]) (es := []) (by decide +kernel)

/-! ### C34 -/

theorem C34_no_effect (cfg : Cfg W) (s : Sim W) (f : FrameReader) (h : Inert (asFrame f)) :
    processFrame cfg s f = .ok s := by
  obtain ⟨h1, h4, h7, h8⟩ := h
  simp only [asFrame] at h1 h4 h7 h8
  by_cases h : f.header.type = 8
  · have hl := h8 h
    have hw : ∃ w, (f.readWindowUpdate : Outcome Stop _) = .ok w := by
      obtain ⟨w, hw⟩ := (C24_in_bounds_partial f).2.1.mpr hl
      unfold FrameReader.readWindowUpdate WindowUpdate.parse at hw ⊢
      split at hw <;> cases hw
      exact ⟨_, rfl⟩
    obtain ⟨w, hw⟩ := hw
    simp [processFrame, h, hw]
  · simp [processFrame, h1, h4, h7, h]

theorem Served.inert {cfg : Cfg W} {w0 : W} {fs : List FrameReader} {dec enc : DynTable} {w : W}
    {evs : List Ev} (h : Served cfg w0 fs dec enc w evs) :
    Served cfg w0 (fs.filter fun f => ¬ Inert (asFrame f)) dec enc w evs := by
  induction h with
  | nil => exact .nil
  | snoc fs f dec enc w evs s' h ha ih =>
    rw [List.filter_append]
    by_cases hi : Inert (asFrame f)
    · have h1 := ha.processFrame
      rw [C34_no_effect cfg _ f hi] at h1
      cases h1
      simpa [hi, blank] using ih
    · simpa [hi] using Served.snoc _ f dec enc w evs s' ih ha

/-- C34: frames without meaning for the server have no effect: two connections that acted on the same
frames apart from such frames have called the same handlers, logged the same, and, when they wait for
input, produced the same. -/
theorem C34_inert (cfg : Cfg W) (w : W) (now1 now2 : Nat) (s1 s2 : Sim W)
    (h1 : Called cfg w now1 .wantRead s1) (h2 : Called cfg w now2 .wantRead s2)
    (hl : 24 ≤ (received s1.trace).length ∧ 24 ≤ (received s2.trace).length)
    (h : (frames s1.trace).filter (fun f => ¬ Inert (asFrame f)) =
      (frames s2.trace).filter (fun f => ¬ Inert (asFrame f))) :
    handled s1.trace = handled s2.trace ∧ responses s1.trace = responses s2.trace ∧
      produced s1.trace = produced s2.trace ∧ logs s1.trace = logs s2.trace ∧
      s1.world = s2.world := by
  obtain ⟨p1, e1, i1, c1⟩ := h1.waiting
  obtain ⟨p2, e2, i2, c2⟩ := h2.waiting
  have hp : p1 = true ∧ p2 = true := by
    rcases c1 with ⟨-, l⟩ | ⟨h1, -⟩
    · omega
    · rcases c2 with ⟨-, l⟩ | ⟨h2, -⟩
      · omega
      · exact ⟨h1, h2⟩
  obtain ⟨rfl, rfl⟩ := hp
  have hs := i1.served.inert
  rw [h] at hs
  obtain ⟨-, -, d3, rfl⟩ := hs.det i2.served.inert
  refine ⟨i1.handled.trans i2.handled.symm, i1.responses.trans i2.responses.symm, ?_,
    i1.logs.trans i2.logs.symm, d3⟩
  rw [i1.prod, i2.prod]

/-- Two connections that differ by a PING and an unknown frame. -/
example : (∃ r s, Called exCfg 0 0 r s ∧ (r == .wantRead && (frames s.trace).length == 4 &&
      ((frames s.trace).filter (fun f => decide (¬ Inert (asFrame f)))).length == 2) = true) ∧
    ∃ r s, Called exCfg 0 0 r s ∧ (r == .wantRead && (frames s.trace).length == 2 &&
      ((frames s.trace).filter (fun f => decide (¬ Inert (asFrame f)))).length == 2) = true :=
  ⟨Shows.called (e := exEnv (clientPreface ++ exSettings ++ [0, 0, 1, 6, 0, 0, 0, 0, 0, 9] ++
      [0, 0, 0, 77, 0, 0, 0, 0, 0] ++ exGet) [36, 44]) (es := []) (by decide +kernel),
    Shows.called (e := exEnv (clientPreface ++ exSettings ++ exGet) [36, 44]) (es := [])
      (by decide +kernel)⟩

end Sim
end Ion
