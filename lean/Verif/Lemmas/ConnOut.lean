import Verif.Lemmas.ConnServe

/-!
# What a connection produces
-/

namespace Ion
open Spec

/-! ### Frames produced -/

theorem u32_ofNat_toNat {n : Nat} (h : n < 2 ^ 32) : (UInt32.ofNat n).toNat = n := by
  simp [Nat.mod_eq_of_lt h]

namespace Sim
variable {W : Type}

theorem BodyFrames_nil (sid : Nat) : BodyFrames sid [] [] :=
  ⟨by simp, rfl, by intro pre f post h; simp at h⟩

theorem dataChunks_frames (sid : UInt32) (n : Nat) : ∀ body : Bytes, body.length = n →
    ∃ fs, FramesWire fs (dataChunks sid body).flatten ∧ BodyFrames (sid.toNat % 2 ^ 31) body fs := by
  induction n using Nat.strongRecOn with
  | _ n ih =>
    intro body hn
    rw [dataChunks]
    by_cases h : body.length = 0
    · rw [dif_pos h]
      have : body = [] := List.length_eq_zero_iff.mp h
      subst this
      exact ⟨[], .nil, BodyFrames_nil _⟩
    · rw [dif_neg h]
      have hm : min body.length 16256 ≤ 16256 := Nat.min_le_right _ _
      have hm' : min body.length 16256 ≤ body.length := Nat.min_le_left _ _
      have hm0 : 0 < min body.length 16256 := by omega
      have hdone : body.length - min body.length 16256 = 0 ↔
          body.drop (min body.length 16256) = [] := by
        rw [List.drop_eq_nil_iff]; omega
      have htk : (body.take (min body.length 16256)).length = min body.length 16256 := by
        rw [List.length_take]; omega
      obtain ⟨fs, h1, h2⟩ := ih (body.drop (min body.length 16256)).length
        (by simp only [List.length_drop]; omega) _ rfl
      generalize min body.length 16256 = m at hm hm' hm0 hdone htk h1 h2
      have wire := serialize_wire ⟨UInt32.ofNat m, 0, if body.length - m = 0 then 1 else 0, sid⟩
        (body.take m) (by rw [u32_ofNat_toNat (by omega), htk]) (by rw [htk]; omega)
      refine ⟨⟨0, if body.length - m = 0 then 1 else 0, sid.toNat % 2 ^ 31, body.take m⟩ :: fs, ?_, ?_⟩
      · simp only [List.flatten_cons]
        rw [← List.append_assoc]
        exact .cons _ _ _ _ wire h1
      · constructor
        · intro f hf
          rcases List.mem_cons.mp hf with rfl | hf
          · refine ⟨rfl, rfl, ?_, ?_⟩
            · intro h0
              have := congrArg List.length h0
              rw [htk] at this
              simp at this; omega
            · rw [htk]; omega
          · exact h2.data f hf
        · simp only [List.map_cons, List.flatten_cons, h2.octets]
          exact List.take_append_drop _ _
        · intro pre f post hp
          cases pre with
          | nil =>
            simp only [List.nil_append, List.cons.injEq] at hp
            obtain ⟨rfl, rfl⟩ := hp
            simp only
            by_cases hd : body.length - m = 0
            · have hnil : fs = [] := by
                have ho := h2.octets
                rw [hdone.mp hd] at ho
                cases fs with
                | nil => rfl
                | cons g gs =>
                  have := (h2.data g (.head _)).2.2.1
                  simp at ho
                  exact absurd ho.1 this
              rw [if_pos hd, if_pos hnil]
            · have hnil : fs ≠ [] := by
                intro h0
                have ho := h2.octets
                rw [h0] at ho
                exact hd (hdone.mpr ho.symm)
              rw [if_neg hd, if_neg hnil]
          | cons x pre =>
            simp only [List.cons_append, List.cons.injEq] at hp
            exact h2.last pre f post hp.2

theorem responseChunks_frames (sid : UInt32) (resp : HttpResponse) (block : Bytes)
    (hb : block.length < 2 ^ 24) :
    ∃ ds, FramesWire (⟨1, if resp.body = [] then 5 else 4, sid.toNat % 2 ^ 31, block⟩ :: ds)
        (responseChunks sid resp block).flatten ∧
      BodyFrames (sid.toNat % 2 ^ 31) resp.body ds := by
  obtain ⟨ds, h1, h2⟩ := dataChunks_frames sid _ resp.body rfl
  refine ⟨ds, ?_, h2⟩
  have wire := serialize_wire ⟨UInt32.ofNat block.length, 1, if resp.body = [] then 5 else 4, sid⟩
    block (u32_ofNat_toNat (by omega)) hb
  simp only [responseChunks, List.flatten_cons]
  rw [← List.append_assoc]
  exact .cons _ _ _ _ wire h1

/-- The server preface frame. -/
def settingsFrame : Frame :=
  ⟨4, 0, 0, (⟨3, 100⟩ : Setting).serialize ++ ((⟨4, 65535⟩ : Setting).serialize ++
    (⟨5, 16384⟩ : Setting).serialize)⟩

theorem settings_wire : FrameWire settingsFrame settingsChunks.flatten :=
  ⟨[0, 0, 18], [0, 0, 0, 0], rfl, rfl, by decide, by decide, by decide⟩

theorem settings_preface : ServerPreface settingsFrame :=
  ⟨rfl, rfl, rfl,
    .cons 3 100 _ [0, 3] [0, 0, 0, 100] _ rfl rfl (by decide) (by decide)
      (.cons 4 65535 _ [0, 4] [0, 0, 255, 255] _ rfl rfl (by decide) (by decide)
        (.cons 5 16384 _ [0, 5] [0, 0, 64, 0] [] rfl rfl (by decide) (by decide) .nil))⟩

theorem ack_wire : FrameWire ⟨4, 1, 0, []⟩ (⟨0, 4, 1, 0⟩ : FrameHeader).serialize := by
  have := serialize_wire ⟨0, 4, 1, 0⟩ [] rfl (by simp)
  simpa using this

/-- The GOAWAY frame of `close()`. -/
def goawayFrame (st : CState) : Frame :=
  ⟨7, 0, 0, (⟨1, if st ≠ .protocolError then 0 else 1⟩ : GoAway).serialize⟩

theorem goaway_wire (st : CState) : FrameWire (goawayFrame st) (goawayChunks st).flatten := by
  have := serialize_wire ⟨8, 7, 0, 0⟩ (⟨1, if st ≠ .protocolError then 0 else 1⟩ : GoAway).serialize
    (by rfl) (by show 8 < 2 ^ 24; omega)
  simpa [goawayChunks, goawayFrame] using this

/-! ### Replies -/

/-- The stream identifier read from the wire has 31 bits. -/
theorem HasHeader.sid {rbuf : Bytes} {hd : FrameHeader} (h : HasHeader rbuf hd) :
    hd.streamId.toNat % 2 ^ 31 = hd.streamId.toNat := by
  obtain ⟨a, b, c, t, f, s0, s1, s2, s3, rest, rfl, rfl⟩ := h.split
  simp only [and_31]
  omega

/-- A frame that has to be refused after the frames `before`. -/
def Refused (cfg : Cfg W) (w0 : W) (before : List FrameReader) (f : FrameReader) : Prop :=
  ∃ calls answers T w, Serves cfg w0 (before.map asFrame) calls answers T w ∧ Unacceptable T (asFrame f)

/-- A response as the specification sees it. -/
def asReply (r : UInt32 × HttpResponse × Bytes) : Nat × Bytes × Bytes :=
  (r.1.toNat, r.2.2, r.2.1.body)

/-- Frames and replies so far. -/
structure Replied (cfg : Cfg W) (w0 : W) (s : Sim W) : Prop where
  before : s.st = .awaitingHandshake ∨ s.st = .awaitingPreface → Ev.prefaceOk ∉ s.trace
  silent : Ev.prefaceOk ∉ s.trace →
    s.st ≠ .awaitingFrame ∧ frames s.trace = [] ∧ responses s.trace = [] ∧ produced s.trace = []
  replies : (∀ r ∈ responses s.trace, r.2.2.length < 2 ^ 24) → Ev.prefaceOk ∈ s.trace →
    ∃ (good bad : List FrameReader) (outs : List Frame) (v : Bytes),
      frames s.trace = good ++ bad ∧
      Replies (good.map asFrame) ((responses s.trace).map asReply) outs ∧ FramesWire outs v ∧
      produced s.trace = settingsChunks.flatten ++ v ∧
      (bad = [] ∨ (Ended s.st ∧ ∃ f, bad = [f] ∧ Refused cfg w0 good f))

theorem Replied.quiet {cfg : Cfg W} {w0 : W} {s t : Sim W} {es : List Ev} (i : Replied cfg w0 s) (ht : t.trace = s.trace ++ es)
    (hq : frames es = [] ∧ responses es = [] ∧ produced es = []) (hp : Ev.prefaceOk ∉ es)
    (hst : Ended s.st → Ended t.st)
    (hst' : t.st = .awaitingFrame → s.st = .awaitingFrame)
    (hst'' : t.st = .awaitingHandshake ∨ t.st = .awaitingPreface →
      s.st = .awaitingHandshake ∨ s.st = .awaitingPreface) :
    Replied cfg w0 t := by
  obtain ⟨q1, q2, q3⟩ := hq
  have hmem : Ev.prefaceOk ∈ t.trace ↔ Ev.prefaceOk ∈ s.trace := by rw [ht]; simp [hp]
  have e1 : frames t.trace = frames s.trace := by rw [ht, frames_append, q1, List.append_nil]
  have e2 : responses t.trace = responses s.trace := by rw [ht, responses_append, q2, List.append_nil]
  have e3 : produced t.trace = produced s.trace := by rw [ht, produced_append, q3, List.append_nil]
  refine ⟨?_, ?_, ?_⟩
  · intro h; rw [hmem]; exact i.before (hst'' h)
  · intro h
    rw [hmem] at h
    obtain ⟨k1, k2, k3, k4⟩ := i.silent h
    exact ⟨fun h' => k1 (hst' h'), by rw [e1, k2], by rw [e2, k3], by rw [e3, k4]⟩
  · intro hb hm
    rw [hmem] at hm
    rw [e2] at hb
    obtain ⟨good, bad, outs, v, h1, h2, h3, h4, h5⟩ := i.replies hb hm
    refine ⟨good, bad, outs, v, by rw [e1, h1], by rw [e2]; exact h2, h3, by rw [e3, h4], ?_⟩
    rcases h5 with h5 | ⟨h5, h5'⟩
    · exact .inl h5
    · exact .inr ⟨hst h5, h5'⟩

theorem Acts.no_preface {cfg : Cfg W} {s s' : Sim W} {f : FrameReader} (h : Acts cfg s f s') :
    ∃ evs, s'.trace = s.trace ++ evs ∧ Ev.prefaceOk ∉ evs := by
  obtain ⟨evs, h1, h2⟩ := h.events
  exact ⟨evs, h1, fun h => h2 _ h⟩

theorem Replied.step {cfg : Cfg W} {w0 : W} {s t : Sim W} (h : Step cfg false s t)
    (hi : ServedTo cfg w0 s) (i : Replied cfg w0 s) : Replied cfg w0 t := by
  cases h with
  | env => exact { i with }
  | readsLeft => exact { i with }
  | handshake _ n h =>
    exact i.quiet rfl ⟨rfl, rfl, rfl⟩ (by simp) (by simp [Ended, h]) (by simp) (fun _ => .inl h)
  | writeBlocked _ ws h hst => exact i.quiet rfl ⟨rfl, rfl, rfl⟩ (by simp) id id id
  | writeFailed _ ws e h he hst =>
    exact i.quiet rfl ⟨rfl, rfl, rfl⟩ (by simp) (by simp [Ended]) (by simp) (by simp)
  | wrote _ ws n t h hn hst => exact i.quiet rfl ⟨rfl, rfl, rfl⟩ (by simp) id id id
  | read _ bs t hw hst hr => exact i.quiet rfl ⟨rfl, rfl, rfl⟩ (by simp) id id id
  | readFailed _ e hw hst hr =>
    refine i.quiet (es := [.readFail e]) (by cases e <;> rfl) ⟨rfl, rfl, rfl⟩ (by simp) ?_ ?_ ?_ <;>
    cases e <;> simp [Sim.readFailed, emit, updateState, Ended]
  | oversized _ h hd hh hl hw =>
    exact i.quiet (es := []) (by simp) ⟨rfl, rfl, rfl⟩ (by simp) (by simp [Ended]) (by simp)
      (by simp)
  | shutdown _ h hw =>
    exact i.quiet rfl ⟨rfl, rfl, rfl⟩ (by simp) (by simp [Ended]) (by simp) (by simp)
  | wantRead _ h => exact i.quiet rfl ⟨rfl, rfl, rfl⟩ (by simp) id id id
  | wantWrite _ h => exact i.quiet rfl ⟨rfl, rfl, rfl⟩ (by simp) id id id
  | discard _ h => exact i.quiet rfl ⟨rfl, rfl, rfl⟩ (by simp) id id id
  | preface _ rest h hw hr =>
    obtain ⟨-, k2, k3, k4⟩ := i.silent (i.before (.inr h))
    refine ⟨by simp, ?_, ?_⟩
    · intro hm; simp [enq, emit] at hm
    · intro _ _
      refine ⟨[], [], [], [], ?_, ?_, .nil, ?_, .inl rfl⟩
      · simp [enq, emit, k2, frames]
      · simp [enq, emit, k3, responses]; exact .nil
      · simp [enq, emit, k4, produced]
  | frame _ s1 h hd hh hl hr hw ha =>
    have hm : Ev.prefaceOk ∈ s.trace := by
      rcases Decidable.em (Ev.prefaceOk ∈ s.trace) with h' | h'
      · exact h'
      · exact absurd h (i.silent h').1
    obtain ⟨es, m1, m2⟩ := ha.trace_mono
    simp only at m1
    refine ⟨?_, ?_, ?_⟩
    · rcases ha.state with h' | h' | h' <;> simp [h', h]
    · intro hn; exact absurd (by simp only [m1]; simp [hm]) hn
    · intro hb _
      have hb' : ∀ r ∈ responses s.trace, r.2.2.length < 2 ^ 24 := by
        intro r hr; exact hb r (by simp only [m1]; simp [hr])
      obtain ⟨good, bad, outs, v, h1, h2, h3, h4, h5⟩ := i.replies hb' hm
      have hbad : bad = [] := by
        rcases h5 with h5 | ⟨h5, -⟩
        · exact h5
        · simp [Ended, h] at h5
      subst hbad
      rw [List.append_nil] at h1
      obtain ⟨good', bad', T, w', g1, g2, g3, g4⟩ := hi
      have hgood : bad' = [] ∧ s.dec.WF ∧ s.dec.abs = T := by
        rcases g4 with g4 | ⟨g4, -⟩
        · exact g4
        · simp [Ended, h] at g4
      obtain ⟨rfl, hwf, rfl⟩ := hgood
      rw [List.append_nil, h1] at g1
      subst g1
      obtain ⟨-, plen⟩ := hh.wire hr
      have hsid := hh.sid
      clear m1 m2 hw
      generalize hf : FrameReader.mk hd ((s.rbuf.drop 9).take hd.length.toNat) = f at ha
      have hfh : f.header = hd := by rw [← hf]
      cases ha with
      | settingsAck ht hfl =>
        refine ⟨good ++ [f], [], outs, v, by simp [h1, frames], ?_, h3, by simp [h4, produced],
          .inl rfl⟩
        simpa [responses] using Replies.other _ _ _ (asFrame f) h2 (by simp [asFrame, ht])
          (fun _ => hfl)
      | settings l ht hfl hrs =>
        refine ⟨good ++ [f], [], outs ++ [⟨4, 1, 0, []⟩], _, by simp [h1, frames, enq], ?_,
          h3.snoc ack_wire, by simp [h4, produced, enq], .inl rfl⟩
        simpa [responses, enq] using Replies.settings _ _ _ (asFrame f) h2 ht hfl
          (readSettings_len hrs)
      | badSettings e ht hfl hrs =>
        exact ⟨good, [f], outs, v, by simp [h1, frames], by simpa [responses] using h2, h3,
          by simp [h4, produced],
          .inr ⟨.inr (.inl rfl), f, rfl, _, _, _, _, g2, .inl ⟨⟨ht, hfl⟩, readSettings_err hrs⟩⟩⟩
      | badHeaders block e dec' ht hbk hdc =>
        exact ⟨good, [f], outs, v, by simp [h1, frames], by simpa [responses] using h2, h3,
          by simp [h4, produced],
          .inr ⟨.inr (.inl rfl), f, rfl, _, _, _, _, g2,
            unacceptable_of_err hwf ht hbk hdc⟩⟩
      | request data hs dec' resp evs w' block enc' ht hbk hdc hrp he =>
        obtain ⟨p1, p2, p3, p4, p5⟩ := hrp.proj
        have p6 : responses evs = [] := by cases hrp <;> rfl
        have hbl : block.length < 2 ^ 24 :=
          hb (f.header.streamId, resp, block) (by simp [answerEvs, responses])
        obtain ⟨ds, d1, d2⟩ := responseChunks_frames f.header.streamId resp block hbl
        rw [hfh, hsid] at d1 d2
        refine ⟨good ++ [f], [], outs ++ _ :: ds, _, ?_, ?_, h3.append d1, ?_, .inl rfl⟩
        · simp [h1, frames, answerEvs, p4]
        · have := Replies.request _ _ _ (asFrame f) block resp.body ds h2 ht
            (by simp only [asFrame, hfh]; exact d2)
          simpa [responses, answerEvs, p6, asReply, asFrame, hfh] using this
        · simp [h4, produced, answerEvs, p2, hfh]
      | windowUpdate w ht h =>
        refine ⟨good ++ [f], [], outs, v, by simp [h1, frames], ?_, h3, by simp [h4, produced],
          .inl rfl⟩
        simpa [responses] using Replies.other _ _ _ (asFrame f) h2 (by simp [asFrame, ht])
          (by simp [asFrame, ht])
      | goaway ht =>
        refine ⟨good ++ [f], [], outs, v, by simp [h1, frames], ?_, h3, by simp [h4, produced],
          .inl rfl⟩
        simpa [responses] using Replies.other _ _ _ (asFrame f) h2 (by simp [asFrame, ht])
          (by simp [asFrame, ht])
      | other h1' h4' h7 h8 =>
        refine ⟨good ++ [f], [], outs, v, by simp [h1, frames], ?_, h3, by simp [h4, produced],
          .inl rfl⟩
        simpa [responses] using Replies.other _ _ _ (asFrame f) h2 h1' (fun h => absurd h h4')

theorem Replied.init (cfg : Cfg W) (w : W) (now : Nat) : Replied cfg w (Sim.init w now) :=
  ⟨by simp [Sim.init], by simp [Sim.init, frames, responses, produced], by simp [Sim.init]⟩

theorem Steps.servedTo {cfg : Cfg W} {c : Bool} {w : W} {now : Nat} {s : Sim W}
    (h : Steps cfg c (Sim.init w now) s) : ServedTo cfg w s :=
  Steps.inv (P := ServedTo cfg w) (fun _ _ _ _ st i => i.step st) h (ServedTo.init cfg w now)

theorem Steps.replied {cfg : Cfg W} {w : W} {now : Nat} {s : Sim W}
    (h : Steps cfg false (Sim.init w now) s) : Replied cfg w s := by
  refine (Steps.inv (P := fun s => ServedTo cfg w s ∧ Replied cfg w s) ?_ h
    ⟨ServedTo.init cfg w now, Replied.init cfg w now⟩).2
  intro b s t hb st ⟨i1, i2⟩
  cases b with
  | false => exact ⟨i1.step st, i2.step st i1⟩
  | true => simp at hb

end Sim
end Ion
