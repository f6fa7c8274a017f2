import Verif.Props.ConnSend

/-!
# Requests the client cancels (C136)
-/

namespace Ion
namespace Sim
open Spec
variable {W : Type}

/-- Each of the frames is on stream 0 or on the stream of a HEADERS frame acted on among the events. -/
def CausedBy (es : List Ev) (fs : List Frame) : Prop :=
  ∀ f ∈ fs, f.stream = 0 ∨ ∃ g ∈ frames es, g.header.type = 1 ∧ g.header.streamId.toNat = f.stream

theorem CausedBy.append {es es' : List Ev} {fs fs' : List Frame} (h : CausedBy es fs) (h' : CausedBy es' fs') :
    CausedBy (es ++ es') (fs ++ fs') := by
  intro f hf
  rcases List.mem_append.1 hf with hf | hf
  · rcases h f hf with h | ⟨g, h1, h2⟩
    · exact .inl h
    · exact .inr ⟨g, by simp [frames_append, h1], h2⟩
  · rcases h' f hf with h | ⟨g, h1, h2⟩
    · exact .inl h
    · exact .inr ⟨g, by simp [frames_append, h1], h2⟩

theorem Step.caused {cfg : Cfg W} {b : Bool} {s t : Sim W} (h : Step cfg b s t)
    (hb : ∀ r ∈ responses t.trace, r.2.2.length < 2 ^ 24) :
    ∃ es fs, t.trace = s.trace ++ es ∧ FramesWire fs (produced es) ∧ CausedBy es fs := by
  have quiet : ∀ es, produced es = [] → t.trace = s.trace ++ es →
      ∃ es fs, t.trace = s.trace ++ es ∧ FramesWire fs (produced es) ∧ CausedBy es fs := fun es h1 h2 =>
    ⟨es, [], h2, by rw [h1]; exact .nil, by intro f hf; cases hf⟩
  cases h with
  | env => exact quiet [] rfl (by simp)
  | readsLeft => exact quiet [] rfl (by simp)
  | handshake _ n h => exact quiet _ rfl rfl
  | writeBlocked _ ws h hst => exact quiet _ rfl rfl
  | writeFailed _ ws e h he hst => exact quiet _ rfl rfl
  | wrote _ ws n t h hn hst => exact quiet _ rfl rfl
  | read _ bs t hw hst hr => exact quiet _ rfl rfl
  | readFailed _ e hw hst hr => exact quiet [.readFail e] rfl (by cases e <;> rfl)
  | oversized _ h hd hh hl hw => exact quiet [] rfl (by simp)
  | shutdown _ h hw => exact quiet _ rfl rfl
  | wantRead _ h => exact quiet _ rfl rfl
  | wantWrite _ h => exact quiet _ rfl rfl
  | discard _ h => exact quiet _ rfl rfl
  | preface _ rest h hw hr =>
    refine ⟨.prefaceOk :: settingsChunks.map .enqueue, [settingsFrame], by simp [enq, emit], ?_, ?_⟩
    · exact .one settings_wire
    · intro f hf
      rw [List.mem_singleton] at hf
      subst hf
      exact .inl rfl
  | close _ h =>
    refine ⟨(goawayChunks s.st).map .enqueue, [goawayFrame s.st], by simp [enq], ?_, ?_⟩
    · simpa [produced] using FramesWire.one (goaway_wire s.st)
    · intro f hf
      rw [List.mem_singleton] at hf
      subst hf
      exact .inl rfl
  | frame _ s1 h hd hh hl hr hw ha =>
    have hsid := hh.sid
    generalize hf : FrameReader.mk hd ((s.rbuf.drop 9).take hd.length.toNat) = f at ha
    have hfh : f.header = hd := by rw [← hf]
    cases ha with
    | settings l ht hfl hrs =>
      refine ⟨[.frame f, .enqueue (⟨0, 4, 1, 0⟩ : FrameHeader).serialize], [⟨4, 1, 0, []⟩], by simp [enq], ?_, ?_⟩
      · simpa [produced] using FramesWire.one ack_wire
      · intro g hg
        rw [List.mem_singleton] at hg
        subst hg
        exact .inl rfl
    | request data hs dec' resp evs w' block enc' ht hbk hdc hrp he =>
      obtain ⟨p1, p2, p3, p4, p5⟩ := hrp.proj
      have hbl : block.length < 2 ^ 24 :=
        hb (f.header.streamId, resp, block) (by simp [answerEvs, responses])
      obtain ⟨ds, d1, d2⟩ := responseChunks_frames f.header.streamId resp block hbl
      refine ⟨.frame f :: answerEvs evs f.header.streamId hs resp block,
        ⟨1, if resp.body = [] then 5 else 4, f.header.streamId.toNat % 2 ^ 31, block⟩ :: ds, by simp, ?_, ?_⟩
      · simpa [produced, answerEvs, p2] using d1
      · intro g hg
        refine .inr ⟨f, by simp [frames], ht, ?_⟩
        rw [hfh] at hg d2 ⊢
        rw [hsid] at hg d2
        rcases List.mem_cons.1 hg with rfl | hg
        · rfl
        · exact (d2.data g hg).2.1.symm
    | settingsAck ht hfl => exact quiet [.frame f] rfl rfl
    | badSettings e ht hfl hrs => exact quiet [.frame f] rfl rfl
    | badHeaders block e dec' ht hbk hdc => exact quiet [.frame f] rfl rfl
    | windowUpdate w ht h => exact quiet [.frame f] rfl rfl
    | goaway ht => exact quiet [.frame f] rfl rfl
    | other h1' h4' h7 h8 => exact quiet [.frame f] rfl rfl

theorem Steps.caused {cfg : Cfg W} {c : Bool} {s t : Sim W} (h : Steps cfg c s t)
    (hb : ∀ r ∈ responses t.trace, r.2.2.length < 2 ^ 24) :
    ∃ es fs, t.trace = s.trace ++ es ∧ FramesWire fs (produced es) ∧ CausedBy es fs := by
  induction h with
  | refl => exact ⟨[], [], by simp, .nil, by intro f hf; cases hf⟩
  | tail h hx st ih =>
    obtain ⟨es, fs, h1, h2, h3⟩ := st.caused hb
    obtain ⟨es', fs', k1, k2, k3⟩ := ih fun r hr => hb r (by rw [h1]; simp [responses_append, hr])
    exact ⟨es' ++ es, fs' ++ fs, by rw [h1, k1, List.append_assoc], by rw [produced_append]; exact k2.append h2,
      k3.append h3⟩

/-- The step in which a frame was acted on. -/
theorem Steps.at_frame {cfg : Cfg W} {c : Bool} {a s : Sim W} (h : Steps cfg c a s) (ha : a.trace = [])
    {pre post : List Ev} {g : FrameReader} (ht : s.trace = pre ++ .frame g :: post) :
    ∃ s1 s2 b evs, Steps cfg c a s1 ∧ s1.trace = pre ∧ Step cfg b s1 s2 ∧ s2.trace = pre ++ .frame g :: evs ∧
      Steps cfg c s2 s := by
  induction h generalizing post with
  | refl => rw [ha] at ht; simp at ht
  | @tail x y b h hx st ih =>
    obtain ⟨es, he, hadd⟩ := st.adds
    rw [he] at ht
    by_cases hlen : pre.length < x.trace.length
    · obtain ⟨post', hp⟩ : ∃ post', x.trace = pre ++ .frame g :: post' := by
        rcases List.append_eq_append_iff.1 ht with ⟨l, h1, h2⟩ | ⟨l, h1, h2⟩
        · rw [h1] at hlen; simp at hlen; omega
        · cases l with
          | nil => rw [h1] at hlen; simp at hlen
          | cons e l =>
            simp only [List.cons_append, List.cons.injEq] at h2
            exact ⟨l, by rw [h1, h2.1]⟩
      obtain ⟨s1, s2, b', evs, k1, k2, k3, k4, k5⟩ := ih hp
      exact ⟨s1, s2, b', evs, k1, k2, k3, k4, .tail k5 hx st⟩
    · obtain ⟨l, h1, h2⟩ : ∃ l, pre = x.trace ++ l ∧ es = l ++ .frame g :: post := by
        rcases List.append_eq_append_iff.1 ht with ⟨l, h1, h2⟩ | ⟨l, h1, h2⟩
        · exact ⟨l, h1, h2⟩
        · cases l with
          | nil => exact ⟨[], by simpa using h1.symm, by simpa using h2.symm⟩
          | cons e l => rw [h1] at hlen; simp at hlen
      have hl : l = [] := by
        cases hadd with
        | frame f evs h hr hev =>
          cases l with
          | nil => rfl
          | cons e l =>
            simp only [List.cons_append, List.cons.injEq] at h2
            exact (hev (.frame g) (by rw [h2.2]; simp)).elim
        | preface h1 h2' =>
          have : Ev.frame g ∈ (Ev.prefaceOk :: settingsChunks.map Ev.enqueue) := by rw [h2]; simp
          simp at this
        | goaway cs h =>
          have : Ev.frame g ∈ cs.map Ev.enqueue := by rw [h2]; simp
          simp at this
        | _ =>
          cases l with
          | nil => rfl
          | cons e l => simp at h2
      subst hl
      rw [List.append_nil] at h1
      exact ⟨x, y, b, post, h, h1.symm, st, by rw [he, h1, h2]; rfl, .refl _⟩

/-- Whatever is produced after a frame was acted on is on stream 0, or on the stream of a HEADERS frame that was
acted on then or later. -/
theorem C136_caused (cfg : Cfg W) (w : W) (now : Nat) (r : ProcRes) (s : Sim W) (h : Called cfg w now r s)
    (hb : ∀ x ∈ responses s.trace, x.2.2.length < 2 ^ 24) (pre post : List Ev) (g : FrameReader)
    (ht : s.trace = pre ++ .frame g :: post) :
    ∃ fs, FramesWire fs (produced post) ∧
      ∀ f ∈ fs, f.stream = 0 ∨ ∃ x ∈ g :: frames post, x.header.type = 1 ∧ x.header.streamId.toNat = f.stream := by
  obtain ⟨s1, s2, b, evs, k1, k2, k3, k4, k5⟩ := h.steps.at_frame rfl ht
  obtain ⟨es, fs, h1, h2, h3⟩ := Steps.caused ((Steps.tail (.refl s1) (fun _ => rfl) k3).trans k5) hb
  rw [ht, k2] at h1
  have := List.append_cancel_left h1
  subst this
  exact ⟨fs, by simpa [produced] using h2, by simpa [CausedBy, frames] using h3⟩

/-- C136 once the RST_STREAM frame is acted on: nothing of the stream waits to be sent, and nothing is produced for
it unless the client opens it again. Missing: frames the server has read already but not yet come to. -/
theorem C136_acted_partial (cfg : Cfg W) (w : W) (now : Nat) (r : ProcRes) (s : Sim W) (h : Called cfg w now r s)
    (hb : ∀ x ∈ responses s.trace, x.2.2.length < 2 ^ 24) (pre post : List Ev) (g : FrameReader)
    (ht : s.trace = pre ++ .frame g :: post) (hg : (asFrame g).type = 3) (hs : (asFrame g).stream ≠ 0)
    (hn : ∀ f ∈ (frames post).map asFrame, f.type = 1 → f.stream ≠ (asFrame g).stream) :
    (accepted pre = produced pre ∨ frames pre = []) ∧
    ∃ fs, FramesWire fs (produced post) ∧ ∀ f ∈ fs, f.stream ≠ (asFrame g).stream := by
  refine ⟨?_, ?_⟩
  · obtain ⟨_, _, -, -, hx⟩ := C37_bounded_output
    rcases hx W cfg w now r s h pre g post ht with hx | hx
    · exact .inl hx
    · exact .inr hx.1
  · obtain ⟨fs, h1, h2⟩ := C136_caused cfg w now r s h hb pre post g ht
    refine ⟨fs, h1, fun f hf he => ?_⟩
    rcases h2 f hf with h2 | ⟨x, h2, h3, h4⟩
    · exact hs (he ▸ h2)
    · rcases List.mem_cons.1 h2 with rfl | h2
      · rw [show (asFrame x).type = x.header.type from rfl, h3] at hg
        cases hg
      · exact hn (asFrame x) (List.mem_map_of_mem h2) h3 (h4.trans he)

/-- RST_STREAM (CANCEL) on stream 1. -/
def exReset : Bytes := [0, 0, 4, 3, 0, 0, 0, 0, 1, 0, 0, 0, 8]

/-- A request, its response, its cancellation, and a request on another stream. -/
example : ∃ r s, Called exCfg 0 0 r s ∧ ((match s.trace.reverse.dropWhile (fun e => match e with
      | .frame g => g.header.type != 3
      | _ => true) with
    | .frame g :: pre => g.header.streamId == 1 && (handled pre.reverse).length == 1 && (frames s.trace).length == 3
    | _ => false) && (responses s.trace).all (fun x => decide (x.2.2.length < 2 ^ 24)) &&
    (responses s.trace).map (·.1) == [1, 3]) = true :=
  Shows.called (e := exEnv (clientPreface ++ exGet ++ exReset ++ [0, 0, 2, 1, 5, 0, 0, 0, 3, 0x82, 0x85]) [71, 24])
    (es := []) (by decide +kernel)

/-- The frames of the response. -/
def exAnswer1 : Bytes := [0, 0, 24, 1, 4, 0, 0, 0, 1, 136, 92, 1, 50, 118, 3, 105, 111, 110, 64, 137, 242, 181, 103, 240,
  91, 11, 34, 209, 250, 3, 105, 111, 110]

@[inherit_doc exAnswer1]
def exAnswer2 : Bytes := [0, 0, 2, 0, 1, 0, 0, 0, 1, 104, 105]

/-- C136 is false: a request and its cancellation are read together; the handler is called, and the whole response
sent, after that. -/
theorem C136_refuted : ∃ r s pre bs t post v, Called exCfg 0 0 r s ∧ s.trace = pre ++ .read bs t :: post ∧
    received pre ++ bs = clientPreface ++ v ∧
    FramesWire [⟨1, 5, 1, [0x82, 0x84]⟩, ⟨3, 0, 1, [0, 0, 0, 8]⟩] v ∧
    handled pre = [] ∧ handled post ≠ [] ∧ accepted pre = [] ∧
    ∃ fs, FramesWire fs (accepted post) ∧ (fs.filter fun f => f.stream == 1).map (·.type) = [1, 0] := by
  obtain ⟨r, s, h1, h2⟩ : ∃ r s, Called exCfg 0 0 r s ∧ ((match s.trace with
      | .handshake _ :: .read bs _ :: post => bs == clientPreface ++ (exGet ++ (exReset ++ [])) &&
          !(handled post).isEmpty && accepted post == settingsChunks.flatten ++ (exAnswer1 ++ (exAnswer2 ++ []))
      | _ => false) = true) :=
    Shows.called (e := exEnv (clientPreface ++ exGet ++ exReset) [71]) (es := []) (by decide +kernel)
  split at h2
  · rename_i t0 bs t post htr
    simp only [Bool.and_eq_true, beq_iff_eq, Bool.not_eq_true', List.isEmpty_eq_false_iff] at h2
    obtain ⟨⟨rfl, h3⟩, h4⟩ := h2
    refine ⟨r, s, [.handshake t0], _, t, post, _, h1, htr, rfl, ?_, rfl, h3, rfl,
      [settingsFrame, ⟨1, 4, 1, exAnswer1.drop 9⟩, ⟨0, 1, 1, [104, 105]⟩], ?_, rfl⟩
    · exact .cons _ _ _ _ ⟨[0, 0, 2], [0, 0, 0, 1], rfl, rfl, rfl, rfl, rfl⟩
        (.cons _ _ _ _ ⟨[0, 0, 4], [0, 0, 0, 1], rfl, rfl, rfl, rfl, rfl⟩ .nil)
    · rw [h4]
      exact .cons _ _ _ _ settings_wire (.cons _ _ _ _ ⟨[0, 0, 24], [0, 0, 0, 1], rfl, rfl, rfl, rfl, rfl⟩
        (.cons _ _ _ _ ⟨[0, 0, 2], [0, 0, 0, 1], rfl, rfl, rfl, rfl, rfl⟩ .nil))
  · cases h2

end Sim
end Ion
