import Verif.Spec.Dialogue
import Verif.Spec.StreamStates
import Verif.Props.ConnReset
import Verif.Props.ConnConform
import Verif.Props.ConnWhole

/-!
# What the server sends on streams (C158)
-/

namespace Ion
namespace Sim
open Spec
variable {W : Type}

/-- `Dialogue tr h`: `h` is the frames acted on in the course `tr` of a connection, and between them the frames that
the octets produced meanwhile consist of. -/
inductive Dialogue : List Ev → List Turn → Prop
  | nil : Dialogue [] []
  | got (tr : List Ev) (h : List Turn) (g : FrameReader) (hd : Dialogue tr h) :
      Dialogue (tr ++ [.frame g]) (h ++ [.got (asFrame g)])
  | sent (tr es : List Ev) (h : List Turn) (fs : List Frame) (hd : Dialogue tr h) (he : frames es = [])
      (hw : FramesWire fs (produced es)) : Dialogue (tr ++ es) (h ++ fs.map .sent)

/-- The frames of the client, and of the server. -/
def gots : List Turn → List Frame
  | [] => []
  | .got f :: h => f :: gots h
  | .sent _ :: h => gots h

@[inherit_doc gots]
def sents : List Turn → List Frame
  | [] => []
  | .got _ :: h => sents h
  | .sent f :: h => f :: sents h

theorem gots_append (a b : List Turn) : gots (a ++ b) = gots a ++ gots b := by
  induction a with
  | nil => rfl
  | cons x a ih => cases x <;> simp [gots, ih]

theorem sents_append (a b : List Turn) : sents (a ++ b) = sents a ++ sents b := by
  induction a with
  | nil => rfl
  | cons x a ih => cases x <;> simp [sents, ih]

theorem gots_sent (fs : List Frame) : gots (fs.map .sent) = [] := by
  induction fs with
  | nil => rfl
  | cons x a ih => simpa [gots] using ih

theorem sents_sent (fs : List Frame) : sents (fs.map .sent) = fs := by
  induction fs with
  | nil => rfl
  | cons x a ih => simpa [sents] using ih

theorem mem_gots {f : Frame} {h : List Turn} : f ∈ gots h ↔ Turn.got f ∈ h := by
  induction h with
  | nil => simp [gots]
  | cons x a ih => cases x <;> simp [gots, ih]

theorem mem_sents {f : Frame} {h : List Turn} : f ∈ sents h ↔ Turn.sent f ∈ h := by
  induction h with
  | nil => simp [sents]
  | cons x a ih => cases x <;> simp [sents, ih]

/-- A dialogue contains all frames acted on and all that was produced. -/
theorem Dialogue.parts {tr : List Ev} {h : List Turn} (d : Dialogue tr h) :
    gots h = (frames tr).map asFrame ∧ FramesWire (sents h) (produced tr) := by
  induction d with
  | nil => exact ⟨rfl, .nil⟩
  | got tr h g hd ih =>
    refine ⟨by rw [gots_append, ih.1, frames_append]; simp [gots, frames], ?_⟩
    rw [sents_append, produced_append]
    simpa [sents, produced] using ih.2
  | sent tr es h fs hd he hw ih =>
    refine ⟨by rw [gots_append, gots_sent, ih.1, frames_append, he]; simp, ?_⟩
    rw [sents_append, sents_sent, produced_append]
    exact ih.2.append hw

/-- A dialogue up to the last frame acted on, and the frames produced since. -/
theorem Dialogue.split {tr : List Ev} {h : List Turn} (d : Dialogue tr h) :
    (frames tr = [] → ∃ fs, h = fs.map .sent ∧ FramesWire fs (produced tr)) ∧
    ∀ pre g post, tr = pre ++ .frame g :: post → frames post = [] →
      ∃ h1 fs, h = h1 ++ .got (asFrame g) :: fs.map .sent ∧ Dialogue pre h1 ∧ FramesWire fs (produced post) := by
  induction d with
  | nil => exact ⟨fun _ => ⟨[], rfl, .nil⟩, fun pre g post h => by simp at h⟩
  | got tr h g hd ih =>
    refine ⟨fun h => by simp [frames_append, frames] at h, fun pre g' post he hp => ?_⟩
    rcases List.eq_nil_or_concat post with rfl | ⟨post', z, rfl⟩
    · obtain ⟨e1, e2⟩ := List.append_inj' he rfl
      cases e2
      subst e1
      exact ⟨h, [], rfl, hd, .nil⟩
    · rw [List.concat_eq_append] at he hp
      rw [← List.cons_append, ← List.append_assoc] at he
      obtain ⟨-, e2⟩ := List.append_inj' he rfl
      cases e2
      simp [frames_append, frames] at hp
  | sent tr es h fs hd he hw ih =>
    refine ⟨fun hf => ?_, fun pre g post heq hp => ?_⟩
    · rw [frames_append, he, List.append_nil] at hf
      obtain ⟨fs', h1, h2⟩ := ih.1 hf
      exact ⟨fs' ++ fs, by simp [h1], by rw [produced_append]; exact h2.append hw⟩
    · rcases List.append_eq_append_iff.1 heq with ⟨a, h1, h2⟩ | ⟨a, h1, h2⟩
      · rw [h2, frames_append] at he
        simp [frames] at he
      · cases a with
        | nil =>
          rw [List.nil_append] at h2
          rw [← h2] at he
          simp [frames] at he
        | cons x a =>
          rw [List.cons_append] at h2
          obtain ⟨rfl, rfl⟩ := List.cons.inj h2
          rw [frames_append, he, List.append_nil] at hp
          obtain ⟨h', fs', k1, k2, k3⟩ := ih.2 pre g a h1 hp
          exact ⟨h', fs' ++ fs, by simp [k1], k2, by rw [produced_append]; exact k3.append hw⟩

/-- The course of a connection up to the last frame acted on. -/
theorem last_frame : ∀ (tr : List Ev), frames tr = [] ∨ ∃ pre g post, tr = pre ++ .frame g :: post ∧ frames post = []
  | [] => .inl rfl
  | x :: tr => by
    rcases last_frame tr with h | ⟨pre, g, post, rfl, h⟩
    · cases x with
      | frame g => exact .inr ⟨[], g, tr, rfl, h⟩
      | _ => exact .inl h
    · exact .inr ⟨x :: pre, g, post, rfl, h⟩

/-- The course of a connection is one dialogue only. -/
theorem Dialogue.det {tr : List Ev} {h h' : List Turn} (d : Dialogue tr h) (d' : Dialogue tr h') : h = h' := by
  rcases last_frame tr with hf | ⟨pre, g, post, rfl, hp⟩
  · obtain ⟨fs, rfl, h1⟩ := d.split.1 hf
    obtain ⟨fs', rfl, h2⟩ := d'.split.1 hf
    rw [h1.det h2]
  · obtain ⟨h1, fs, rfl, k1, k2⟩ := d.split.2 pre g post rfl hp
    obtain ⟨h2, fs', rfl, k3, k4⟩ := d'.split.2 pre g post rfl hp
    rw [k2.det k4, k1.det k3]
termination_by tr.length
decreasing_by simp_all

theorem _root_.Ion.Spec.KeepsStates.snoc {h : List Turn} (k : KeepsStates h) (f : Frame) (hf : MaySend h f) :
    KeepsStates (h ++ [.sent f]) := by
  intro h1 g h2 he
  rcases List.eq_nil_or_concat h2 with rfl | ⟨h3, z, rfl⟩
  · obtain ⟨e1, e2⟩ := List.append_inj' he rfl
    cases e2
    rw [← e1]; exact hf
  · rw [List.concat_eq_append, ← List.cons_append, ← List.append_assoc] at he
    exact k h1 g h3 (List.append_inj' he rfl).1

theorem _root_.Ion.Spec.KeepsStates.got {h : List Turn} (k : KeepsStates h) (f : Frame) : KeepsStates (h ++ [.got f]) := by
  intro h1 g h2 he
  rcases List.eq_nil_or_concat h2 with rfl | ⟨h3, z, rfl⟩
  · obtain ⟨e1, e2⟩ := List.append_inj' he rfl
    cases e2
  · rw [List.concat_eq_append, ← List.cons_append, ← List.append_assoc] at he
    exact k h1 g h3 (List.append_inj' he rfl).1

/-- Frames of other types may always be sent. -/
theorem _root_.Ion.Spec.KeepsStates.other {h : List Turn} (k : KeepsStates h) (f : Frame) (hf : f.type ≠ 0 ∧ f.type ≠ 1) :
    KeepsStates (h ++ [.sent f]) :=
  k.snoc f fun h => h.elim (fun h => absurd h hf.1) fun h => absurd h hf.2

/-- The frames of a body, after the HEADERS frame of the response. -/
theorem _root_.Ion.Spec.KeepsStates.body {h : List Turn} {id : Nat} (hid : id ≠ 0) (ds done : List Frame) (body : Bytes)
    (hd : BodyFrames id body (done ++ ds))
    (hc : ∃ c, Turn.got c ∈ h ∧ c.type = 1 ∧ c.stream = id)
    (hr : ∀ c, Turn.got c ∈ h → c.stream = id → c.type ≠ 3)
    (ho : ∀ o, Turn.sent o ∈ h → o.stream = id → ¬ EndsStream o)
    (hh : ∃ o, Turn.sent o ∈ h ∧ o.type = 1 ∧ o.stream = id)
    (k : KeepsStates (h ++ done.map .sent)) : KeepsStates (h ++ done.map .sent ++ ds.map .sent) := by
  induction ds generalizing done with
  | nil => simpa using k
  | cons d ds ih =>
    have k' : KeepsStates (h ++ (done ++ [d]).map .sent) := by
      rw [List.map_append, ← List.append_assoc]
      refine k.snoc d fun _ => ?_
      obtain ⟨hd1, hd2, -, -⟩ := hd.data d (by simp)
      refine ⟨by rw [hd2]; exact hid, ?_, ?_, ?_, ?_, ?_⟩
      · obtain ⟨c, h1, h2, h3⟩ := hc
        exact ⟨c, by simp [h1], h2, by rw [hd2, h3]⟩
      · intro c hcm hcs
        rw [hd2] at hcs
        refine hr c ?_ hcs
        simpa using hcm
      · intro o hom hos
        rw [hd2] at hos
        rcases List.mem_append.1 hom with hom | hom
        · exact ho o hom hos
        · obtain ⟨o', ho', heq⟩ := List.mem_map.1 hom
          cases heq
          obtain ⟨p, q, rfl⟩ := List.append_of_mem ho'
          have hl := hd.last p o (q ++ d :: ds) (by simp)
          rw [if_neg (by simp)] at hl
          obtain ⟨ht, -⟩ := hd.data o (by simp)
          rintro (⟨-, hx⟩ | hx)
          · rw [hl] at hx; exact hx (by decide)
          · rw [ht] at hx; exact absurd hx (by decide)
      · intro _
        obtain ⟨o, h1, h2, h3⟩ := hh
        exact ⟨o, by simp [h1], h2, by rw [hd2, h3]⟩
      · intro h1; rw [hd1] at h1; exact absurd h1 (by decide)
    have := ih (done ++ [d]) (by simpa using hd) k'
    simpa using this

/-- A whole response, to a HEADERS frame that opened a new stream. -/
theorem _root_.Ion.Spec.KeepsStates.response {h : List Turn} (k : KeepsStates h) (f : Frame) (hf : f.type = 1) (hs : f.stream ≠ 0)
    (hn : ∀ g, Turn.got g ∈ h → g.stream = f.stream → g.type ≠ 1 ∧ g.type ≠ 3)
    (hsent : ∀ o, Turn.sent o ∈ h → o.stream ≠ f.stream) (block body : Bytes) (ds : List Frame)
    (hd : BodyFrames f.stream body ds) :
    KeepsStates (h ++ [.got f] ++
      (⟨1, if body = [] then 5 else 4, f.stream, block⟩ :: ds : List Frame).map .sent) := by
  have k1 := k.got f
  have hgot : ∃ c, Turn.got c ∈ h ++ [.got f] ∧ c.type = 1 ∧ c.stream = f.stream := ⟨f, by simp, hf, rfl⟩
  have hrst : ∀ c, Turn.got c ∈ h ++ [.got f] → c.stream = f.stream → c.type ≠ 3 := by
    intro c hc hcs
    rcases List.mem_append.1 hc with hc | hc
    · exact (hn c hc hcs).2
    · simp at hc; subst hc; rw [hf]; decide
  have hno : ∀ o, Turn.sent o ∈ h ++ [.got f] → o.stream ≠ f.stream := by
    intro o ho
    refine hsent o ?_
    simpa using ho
  have k2 : KeepsStates (h ++ [.got f] ++ [.sent ⟨1, if body = [] then 5 else 4, f.stream, block⟩]) :=
    k1.snoc _ fun _ => ⟨hs, hgot, hrst, fun o ho hos => absurd hos (hno o ho), fun h => absurd h (by simp),
      fun _ => .inl fun o ho hos => absurd hos (hno o ho)⟩
  cases ds with
  | nil => simpa using k2
  | cons d ds =>
    have hb : body ≠ [] := by
      intro hb
      have h1 := hd.octets
      have h2 := (hd.data d (by simp)).2.2.1
      rw [hb, List.map_cons, List.flatten_cons, List.append_eq_nil_iff] at h1
      exact h2 h1.1
    rw [if_neg hb] at k2 ⊢
    have := KeepsStates.body (h := h ++ [.got f] ++ [.sent ⟨1, 4, f.stream, block⟩]) hs (d :: ds) [] body (by simpa using hd)
      (by obtain ⟨c, h1, h2⟩ := hgot; exact ⟨c, by simp at h1 ⊢; exact h1, h2⟩)
      (by intro c hc; exact hrst c (by simpa using hc))
      (by
        intro o ho hos
        rcases List.mem_append.1 ho with ho | ho
        · exact absurd hos (hno o ho)
        · simp at ho
          subst ho
          simp [EndsStream]
          decide)
      ⟨⟨1, 4, f.stream, block⟩, by simp, rfl, rfl⟩ (by simpa using k2)
    simpa using this

theorem _root_.Ion.Spec.OpensFresh.prefix {a b : List Frame} (h : OpensFresh (a ++ b)) : OpensFresh a := by
  intro pre f post he
  exact h pre f (post ++ b) (by rw [he]; simp)

/-- What is kept true. -/
def Talks (s : Sim W) : Prop :=
  ∃ h, Dialogue s.trace h ∧ (OpensFresh ((frames s.trace).map asFrame) → KeepsStates h) ∧
    ∀ o, Turn.sent o ∈ h → o.type = 0 ∨ o.type = 1 ∨ o.stream = 0

theorem sentOn {h : List Turn} (z : ∀ o, Turn.sent o ∈ h → o.type = 0 ∨ o.type = 1 ∨ o.stream = 0) (f : Frame)
    (hf : f.stream = 0) : ∀ o, Turn.sent o ∈ h ++ [f].map .sent → o.type = 0 ∨ o.type = 1 ∨ o.stream = 0 := by
  intro o ho
  rcases List.mem_append.1 ho with ho | ho
  · exact z o ho
  · simp at ho; subst ho; exact .inr (.inr hf)

theorem Step.talks {cfg : Cfg W} {b : Bool} {s t : Sim W} (h : Step cfg b s t)
    (hb : ∀ r ∈ responses t.trace, r.2.2.length < 2 ^ 24) (i : Talks s) : Talks t := by
  obtain ⟨h0, d, k, z⟩ := i
  have quiet : ∀ es, produced es = [] → frames es = [] → t.trace = s.trace ++ es → Talks t := by
    intro es h1 h2 h3
    refine ⟨h0 ++ ([] : List Frame).map .sent, ?_, fun hfresh => ?_, by simpa using z⟩
    · rw [h3]
      exact .sent _ _ _ _ d h2 (by rw [h1]; exact .nil)
    · rw [h3, frames_append, h2, List.append_nil] at hfresh
      simpa using k hfresh
  have frameOnly : ∀ g, t.trace = s.trace ++ [.frame g] → Talks t := by
    intro g h3
    refine ⟨h0 ++ [.got (asFrame g)], by rw [h3]; exact .got _ _ g d, fun hfresh => ?_,
      fun o ho => z o (by simpa using ho)⟩
    rw [h3, frames_append, List.map_append] at hfresh
    exact (k hfresh.prefix).got _
  cases h with
  | env => exact quiet [] rfl rfl (by simp)
  | readsLeft => exact quiet [] rfl rfl (by simp)
  | handshake _ n h => exact quiet _ rfl rfl rfl
  | writeBlocked _ ws h hst => exact quiet _ rfl rfl rfl
  | writeFailed _ ws e h he hst => exact quiet _ rfl rfl rfl
  | wrote _ ws n t h hn hst => exact quiet _ rfl rfl rfl
  | read _ bs t hw hst hr => exact quiet _ rfl rfl rfl
  | readFailed _ e hw hst hr => exact quiet [.readFail e] rfl rfl (by cases e <;> rfl)
  | oversized _ h hd hh hl hw => exact quiet [] rfl rfl (by simp)
  | shutdown _ h hw => exact quiet _ rfl rfl rfl
  | wantRead _ h => exact quiet _ rfl rfl rfl
  | wantWrite _ h => exact quiet _ rfl rfl rfl
  | discard _ h => exact quiet _ rfl rfl rfl
  | preface _ rest h hw hr =>
    refine ⟨h0 ++ [settingsFrame].map .sent, ?_, fun hfresh => (k ?_).other _ (by decide), sentOn z _ rfl⟩
    · have : Dialogue (s.trace ++ (.prefaceOk :: settingsChunks.map .enqueue)) (h0 ++ [settingsFrame].map .sent) :=
        .sent _ _ _ _ d rfl (.one settings_wire)
      simpa [enq, emit] using this
    · simpa [enq, emit, frames_append, frames] using hfresh
  | close _ h =>
    refine ⟨h0 ++ [goawayFrame s.st].map .sent, ?_, fun hfresh => (k ?_).other _ (by simp [goawayFrame]),
      sentOn z _ rfl⟩
    · have : Dialogue (s.trace ++ (goawayChunks s.st).map .enqueue) (h0 ++ [goawayFrame s.st].map .sent) :=
        .sent _ _ _ _ d (by simp) (by simpa [produced] using FramesWire.one (goaway_wire s.st))
      simpa [enq] using this
    · simpa [enq, frames_append] using hfresh
  | frame _ s1 h hd hh hl hr hw ha =>
    have hsid := hh.sid
    generalize hf : FrameReader.mk hd ((s.rbuf.drop 9).take hd.length.toNat) = f at ha
    have hfh : f.header = hd := by rw [← hf]
    cases ha with
    | settings l ht hfl hrs =>
      refine ⟨h0 ++ [.got (asFrame f)] ++ [⟨4, 1, 0, []⟩].map .sent, ?_, fun hfresh => ?_,
        sentOn (fun o ho => z o (by simpa using ho)) _ rfl⟩
      · have : Dialogue (s.trace ++ [.frame f] ++ [.enqueue (⟨0, 4, 1, 0⟩ : FrameHeader).serialize])
            (h0 ++ [.got (asFrame f)] ++ [⟨4, 1, 0, []⟩].map .sent) :=
          .sent _ _ _ _ (.got _ _ f d) rfl (by simpa [produced] using FramesWire.one ack_wire)
        simpa [enq] using this
      · exact ((k (OpensFresh.prefix (b := [asFrame f]) (by
          simpa [enq, frames_append, frames] using hfresh))).got _).other _ (by decide)
    | request data hs dec' resp evs w' block enc' ht hbk hdc hrp he =>
      obtain ⟨p1, p2, p3, p4, p5⟩ := hrp.proj
      have hbl : block.length < 2 ^ 24 :=
        hb (f.header.streamId, resp, block) (by simp [answerEvs, responses])
      obtain ⟨ds, d1, d2⟩ := responseChunks_frames f.header.streamId resp block hbl
      rw [hfh, hsid, ← hfh] at d1 d2
      refine ⟨h0 ++ [.got (asFrame f)] ++
        (⟨1, if resp.body = [] then 5 else 4, (asFrame f).stream, block⟩ :: ds : List Frame).map .sent, ?_,
        fun hfresh => ?_, ?_⟩
      · have : Dialogue (s.trace ++ [.frame f] ++ answerEvs evs f.header.streamId hs resp block)
            (h0 ++ [.got (asFrame f)] ++
              (⟨1, if resp.body = [] then 5 else 4, (asFrame f).stream, block⟩ :: ds : List Frame).map .sent) :=
          .sent _ _ _ _ (.got _ _ f d) (by simp [answerEvs, frames_append, frames, p4])
            (by simpa [produced, answerEvs, p2, asFrame] using d1)
        simpa using this
      · have hfr : OpensFresh ((frames s.trace).map asFrame ++ [asFrame f]) := by
          simpa [answerEvs, frames_append, frames, p4] using hfresh
        have k := k hfr.prefix
        obtain ⟨n1, n2⟩ := hfr _ (asFrame f) [] rfl ht
        have hg : ∀ g, Turn.got g ∈ h0 → g.stream = (asFrame f).stream → g.type ≠ 1 ∧ g.type ≠ 3 := by
          intro g hg
          rw [← mem_gots, d.parts.1] at hg
          exact n2 g hg
        refine k.response (asFrame f) ht n1 hg ?_ block resp.body ds d2
        intro o ho hos
        have zo := z o ho
        obtain ⟨a, b, rfl⟩ := List.append_of_mem ho
        by_cases hty : o.type = 0 ∨ o.type = 1
        · obtain ⟨-, ⟨c, c1, c2, c3⟩, -⟩ := k a o b rfl hty
          exact (hg c (by simp [c1]) (c3.trans hos)).1 c2
        · rcases zo with hz | hz | hz
          · exact hty (.inl hz)
          · exact hty (.inr hz)
          · exact n1 (hos ▸ hz)
      · intro o ho
        rcases List.mem_append.1 ho with ho | ho
        · exact z o (by simpa using ho)
        · obtain ⟨o', ho', heq⟩ := List.mem_map.1 ho
          cases heq
          rcases List.mem_cons.1 ho' with rfl | ho'
          · exact .inr (.inl rfl)
          · exact .inl (d2.data o ho').1
    | settingsAck ht hfl => exact frameOnly f rfl
    | badSettings e ht hfl hrs => exact frameOnly f rfl
    | badHeaders block e dec' ht hbk hdc => exact frameOnly f rfl
    | windowUpdate w ht h => exact frameOnly f rfl
    | goaway ht => exact frameOnly f rfl
    | other h1' h4' h7 h8 => exact frameOnly f rfl

theorem Steps.talks {cfg : Cfg W} {c : Bool} {s t : Sim W} (h : Steps cfg c s t)
    (hb : ∀ r ∈ responses t.trace, r.2.2.length < 2 ^ 24) (i : Talks s) : Talks t := by
  induction h with
  | refl => exact i
  | tail h hx st ih =>
    obtain ⟨es, he, -⟩ := st.adds
    exact st.talks hb (ih fun r hr => hb r (by rw [he]; simp [responses_append, hr]))

/-- The last frame of a response ends its stream. -/
theorem response_ends (id : Nat) (block body : Bytes) (ds : List Frame) (hd : BodyFrames id body ds) :
    ∃ o ∈ (⟨1, if body = [] then 5 else 4, id, block⟩ :: ds : List Frame), o.stream = id ∧ EndsStream o := by
  rcases List.eq_nil_or_concat ds with rfl | ⟨ds', d, rfl⟩
  · have hb : body = [] := by simpa using hd.octets.symm
    refine ⟨_, List.mem_cons_self .., rfl, .inl ⟨.inr rfl, ?_⟩⟩
    simp only [if_pos hb]
    decide
  · rw [List.concat_eq_append] at hd ⊢
    have hl := hd.last ds' d [] (by simp)
    obtain ⟨h1, h2, -⟩ := hd.data d (by simp)
    refine ⟨d, by simp, h2, .inl ⟨.inl h1, ?_⟩⟩
    rw [hl]
    decide

theorem _root_.Ion.Spec.OpensFresh.snoc {fs : List Frame} (h : OpensFresh fs) (f : Frame)
    (hf : f.type = 1 → f.stream ≠ 0 ∧ ∀ g ∈ fs, g.stream = f.stream → g.type ≠ 1 ∧ g.type ≠ 3) :
    OpensFresh (fs ++ [f]) := by
  intro pre g post he
  rcases List.eq_nil_or_concat post with rfl | ⟨p, z, rfl⟩
  · obtain ⟨e1, e2⟩ := List.append_inj' he rfl
    cases e2
    rw [← e1]; exact hf
  · rw [List.concat_eq_append, ← List.cons_append, ← List.append_assoc] at he
    exact h pre g p (List.append_inj' he rfl).1

theorem _root_.Ion.Spec.KeepsStates.prefix {a b : List Turn} (h : KeepsStates (a ++ b)) : KeepsStates a := by
  intro pre f post he
  exact h pre f (post ++ b) (by rw [he]; simp)

/-- What is kept true for the converse, as long as the connection is not being ended. -/
def Settled (s : Sim W) : Prop :=
  ¬ Ended s.st → ∃ h, Dialogue s.trace h ∧
    (∀ c, Turn.got c ∈ h → c.type = 1 → ∃ o, Turn.sent o ∈ h ∧ o.stream = c.stream ∧ EndsStream o) ∧
    (KeepsStates h → OpensFresh ((frames s.trace).map asFrame))

theorem Step.settled {cfg : Cfg W} {b : Bool} {s t : Sim W} (h : Step cfg b s t)
    (hb : ∀ r ∈ responses t.trace, r.2.2.length < 2 ^ 24) (i : Settled s) : Settled t := by
  intro hne
  obtain ⟨h0, d, k, z⟩ := i fun hs => hne (h.ended hs).1
  have quiet : ∀ es, produced es = [] → frames es = [] → t.trace = s.trace ++ es →
      ∃ h, Dialogue t.trace h ∧
        (∀ c, Turn.got c ∈ h → c.type = 1 → ∃ o, Turn.sent o ∈ h ∧ o.stream = c.stream ∧ EndsStream o) ∧
        (KeepsStates h → OpensFresh ((frames t.trace).map asFrame)) := by
    intro es h1 h2 h3
    refine ⟨h0 ++ ([] : List Frame).map .sent, ?_, by simpa using k, ?_⟩
    · rw [h3]
      exact .sent _ _ _ _ d h2 (by rw [h1]; exact .nil)
    · rw [h3, frames_append, h2, List.append_nil]
      simpa using z
  have frameOnly : ∀ g, g.header.type ≠ 1 → t.trace = s.trace ++ [.frame g] →
      ∃ h, Dialogue t.trace h ∧
        (∀ c, Turn.got c ∈ h → c.type = 1 → ∃ o, Turn.sent o ∈ h ∧ o.stream = c.stream ∧ EndsStream o) ∧
        (KeepsStates h → OpensFresh ((frames t.trace).map asFrame)) := by
    intro g hg h3
    refine ⟨h0 ++ [.got (asFrame g)], by rw [h3]; exact .got _ _ g d, fun c hc hc1 => ?_, fun hk => ?_⟩
    · rcases List.mem_append.1 hc with hc | hc
      · obtain ⟨o, o1, o2⟩ := k c hc hc1
        exact ⟨o, by simp [o1], o2⟩
      · simp at hc
        subst hc
        exact absurd hc1 hg
    · rw [h3, frames_append, List.map_append]
      exact (z hk.prefix).snoc (asFrame g) fun h1 => absurd h1 hg
  have more : ∀ (h : List Turn) (fs : List Frame), (∀ c, Turn.got c ∈ h → c.type = 1 →
        ∃ o, Turn.sent o ∈ h ∧ o.stream = c.stream ∧ EndsStream o) →
      ∀ c, Turn.got c ∈ h ++ fs.map .sent → c.type = 1 →
        ∃ o, Turn.sent o ∈ h ++ fs.map .sent ∧ o.stream = c.stream ∧ EndsStream o := by
    intro h fs hh c hc hc1
    obtain ⟨o, o1, o2⟩ := hh c (by simpa using hc) hc1
    exact ⟨o, by simp [o1], o2⟩
  cases h with
  | env => exact quiet [] rfl rfl (by simp)
  | readsLeft => exact quiet [] rfl rfl (by simp)
  | handshake _ n h => exact quiet _ rfl rfl rfl
  | writeBlocked _ ws h hst => exact quiet _ rfl rfl rfl
  | writeFailed _ ws e h he hst => exact quiet _ rfl rfl rfl
  | wrote _ ws n t h hn hst => exact quiet _ rfl rfl rfl
  | read _ bs t hw hst hr => exact quiet _ rfl rfl rfl
  | readFailed _ e hw hst hr => exact quiet [.readFail e] rfl rfl (by cases e <;> rfl)
  | oversized _ h hd hh hl hw => exact quiet [] rfl rfl (by simp)
  | shutdown _ h hw => exact quiet _ rfl rfl rfl
  | wantRead _ h => exact quiet _ rfl rfl rfl
  | wantWrite _ h => exact quiet _ rfl rfl rfl
  | discard _ h => exact quiet _ rfl rfl rfl
  | preface _ rest h hw hr =>
    refine ⟨h0 ++ [settingsFrame].map .sent, ?_, more _ _ k, fun hk => ?_⟩
    · have : Dialogue (s.trace ++ (.prefaceOk :: settingsChunks.map .enqueue)) (h0 ++ [settingsFrame].map .sent) :=
        .sent _ _ _ _ d rfl (.one settings_wire)
      simpa [enq, emit] using this
    · simpa [enq, emit, frames_append, frames] using z hk.prefix
  | close _ h => exact absurd (.inl rfl) hne
  | frame _ s1 h hd hh hl hr hw ha =>
    have hsid := hh.sid
    generalize hf : FrameReader.mk hd ((s.rbuf.drop 9).take hd.length.toNat) = f at ha
    have hfh : f.header = hd := by rw [← hf]
    cases ha with
    | settings l ht hfl hrs =>
      refine ⟨h0 ++ [.got (asFrame f)] ++ [⟨4, 1, 0, []⟩].map .sent, ?_, more _ _ ?_, fun hk => ?_⟩
      · have : Dialogue (s.trace ++ [.frame f] ++ [.enqueue (⟨0, 4, 1, 0⟩ : FrameHeader).serialize])
            (h0 ++ [.got (asFrame f)] ++ [⟨4, 1, 0, []⟩].map .sent) :=
          .sent _ _ _ _ (.got _ _ f d) rfl (by simpa [produced] using FramesWire.one ack_wire)
        simpa [enq] using this
      · intro c hc hc1
        rcases List.mem_append.1 hc with hc | hc
        · obtain ⟨o, o1, o2⟩ := k c hc hc1
          exact ⟨o, by simp [o1], o2⟩
        · simp at hc
          subst hc
          exact absurd (ht.symm.trans hc1) (by decide)
      · have := (z hk.prefix.prefix).snoc (asFrame f) fun h1 => absurd (ht.symm.trans h1) (by decide)
        simpa [enq, frames_append, frames] using this
    | request data hs dec' resp evs w' block enc' ht hbk hdc hrp he =>
      obtain ⟨p1, p2, p3, p4, p5⟩ := hrp.proj
      have hbl : block.length < 2 ^ 24 :=
        hb (f.header.streamId, resp, block) (by simp [answerEvs, responses])
      obtain ⟨ds, d1, d2⟩ := responseChunks_frames f.header.streamId resp block hbl
      rw [hfh, hsid, ← hfh] at d1 d2
      refine ⟨h0 ++ [.got (asFrame f)] ++
        (⟨1, if resp.body = [] then 5 else 4, (asFrame f).stream, block⟩ :: ds : List Frame).map .sent, ?_,
        fun c hc hc1 => ?_, fun hk => ?_⟩
      · have : Dialogue (s.trace ++ [.frame f] ++ answerEvs evs f.header.streamId hs resp block)
            (h0 ++ [.got (asFrame f)] ++
              (⟨1, if resp.body = [] then 5 else 4, (asFrame f).stream, block⟩ :: ds : List Frame).map .sent) :=
          .sent _ _ _ _ (.got _ _ f d) (by simp [answerEvs, frames_append, frames, p4])
            (by simpa [produced, answerEvs, p2, asFrame] using d1)
        simpa using this
      · have hc : Turn.got c ∈ h0 ∨ c = asFrame f := by simpa using hc
        rcases hc with hc | rfl
        · obtain ⟨o, o1, o2⟩ := k c hc hc1
          exact ⟨o, by simp [o1], o2⟩
        · obtain ⟨o, o1, o2⟩ := response_ends (asFrame f).stream block resp.body ds d2
          exact ⟨o, List.mem_append_right _ (List.mem_map_of_mem o1), o2⟩
      · have hm := hk (h0 ++ [.got (asFrame f)]) _ (ds.map .sent) rfl (.inr rfl)
        obtain ⟨m1, -, m3, m4, -⟩ := hm
        have := (z hk.prefix.prefix).snoc (asFrame f) fun _ => ⟨m1, fun g hg hgs => ⟨fun hg1 => ?_, ?_⟩⟩
        · simpa [answerEvs, frames_append, frames, p4] using this
        · rw [← d.parts.1, mem_gots] at hg
          obtain ⟨o, o1, o2, o3⟩ := k g hg hg1
          exact m4 o (by simp [o1]) (o2.trans hgs) o3
        · rw [← d.parts.1, mem_gots] at hg
          exact m3 g (by simp [hg]) hgs
    | settingsAck ht hfl => exact frameOnly f (by rw [ht]; decide) rfl
    | badSettings e ht hfl hrs => exact absurd (.inr (.inl rfl)) hne
    | badHeaders block e dec' ht hbk hdc => exact absurd (.inr (.inl rfl)) hne
    | windowUpdate w ht h => exact frameOnly f (by rw [ht]; decide) rfl
    | goaway ht => exact frameOnly f (by rw [ht]; decide) rfl
    | other h1' h4' h7 h8 => exact frameOnly f h1' rfl

theorem Steps.settled {cfg : Cfg W} {c : Bool} {s t : Sim W} (h : Steps cfg c s t)
    (hb : ∀ r ∈ responses t.trace, r.2.2.length < 2 ^ 24) (i : Settled s) : Settled t := by
  induction h with
  | refl => exact i
  | tail h hx st ih =>
    obtain ⟨es, he, -⟩ := st.adds
    exact st.settled hb (ih fun r hr => hb r (by rw [he]; simp [responses_append, hr]))

theorem Called.settled {cfg : Cfg W} {w : W} {now : Nat} {s : Sim W} (h : Called cfg w now .wantRead s)
    (hb : ∀ x ∈ responses s.trace, x.2.2.length < 2 ^ 24) :
    ∃ t, Dialogue s.trace t ∧ (KeepsStates t → OpensFresh ((frames s.trace).map asFrame)) := by
  have hne : ¬ Ended s.st := by
    obtain ⟨s1, s2, -, k2, rfl⟩ := h.elim
    rcases k2 with ⟨rfl, k⟩ | ⟨k, -⟩
    · rcases k with k | ⟨k, -⟩ | ⟨k, -⟩ <;> simp [Ended, k]
    · cases k
  obtain ⟨t, d, -, k⟩ := h.steps.settled hb
    (fun _ => ⟨[], .nil, by simp, fun _ pre f post he => by simp [Sim.init, frames] at he⟩) hne
  exact ⟨t, d, k⟩

/-- C158 as one would expect it: for a client that keeps to the states of its streams, so does the server. -/
def ServerKeepsStates (cfg : Cfg W) : Prop :=
  ∀ w now r s, Called cfg w now r s → (∀ x ∈ responses s.trace, x.2.2.length < 2 ^ 24) →
    StatesKept ((frames s.trace).map asFrame) → ∀ h, Dialogue s.trace h → KeepsStates h

theorem sents_split {h : List Turn} {a : List Frame} {f : Frame} {b : List Frame} (e : sents h = a ++ f :: b) :
    ∃ h1 h2, h = h1 ++ .sent f :: h2 ∧ sents h1 = a := by
  induction h generalizing a with
  | nil => simp [sents] at e
  | cons x h ih =>
    cases x with
    | got g =>
      obtain ⟨h1, h2, rfl, k⟩ := ih e
      exact ⟨.got g :: h1, h2, rfl, k⟩
    | sent g =>
      cases a with
      | nil =>
        obtain ⟨rfl, -⟩ := List.cons.inj e
        exact ⟨[], h, rfl, rfl⟩
      | cons y a =>
        obtain ⟨rfl, e'⟩ := List.cons.inj e
        obtain ⟨h1, h2, rfl, k⟩ := ih e'
        exact ⟨.sent g :: h1, h2, rfl, by simp [sents, k]⟩

/-- The course of the connection that refutes C158. -/
theorem twice_on_one_stream : ∃ s, Called exCfg 0 0 .wantRead s ∧ (∀ x ∈ responses s.trace, x.2.2.length < 2 ^ 24) ∧
    (frames s.trace).map asFrame = [⟨1, 4, 1, [0x82, 0x84]⟩, ⟨0, 0, 1, [0x78]⟩, ⟨1, 5, 1, [0x00, 1, 0x78, 1, 0x79]⟩] ∧
    ∃ a b c, FramesWire [⟨4, 0, 0, a⟩, ⟨1, 4, 1, b⟩, ⟨0, 1, 1, c⟩, ⟨1, 5, 1, []⟩] (produced s.trace) := by
  obtain ⟨r, s, h1, h2⟩ : ∃ r s, Called exCfg 0 0 r s ∧ (r == .wantRead &&
      (responses s.trace).all (fun x => decide (x.2.2.length < 2 ^ 24)) &&
      (frames s.trace).map asFrame ==
        [⟨1, 4, 1, [0x82, 0x84]⟩, ⟨0, 0, 1, [0x78]⟩, ⟨1, 5, 1, [0x00, 1, 0x78, 1, 0x79]⟩] &&
      produced s.trace ==
        [0, 0, 18, 4, 0, 0, 0, 0, 0, 0, 3, 0, 0, 0, 100, 0, 4, 0, 0, 255, 255, 0, 5, 0, 0, 64, 0] ++
        ([0, 0, 24, 1, 4, 0, 0, 0, 1, 136, 92, 1, 50, 118, 3, 105, 111, 110, 64, 137, 242, 181, 103, 240, 91, 11, 34,
          209, 250, 3, 105, 111, 110] ++
        ([0, 0, 2, 0, 1, 0, 0, 0, 1, 104, 105] ++ ([0, 0, 0, 1, 5, 0, 0, 0, 1] ++ [])))) = true :=
    Shows.called (e := exEnv (clientPreface ++ exOpen ++ exContent ++ exTrailers) [71, 9]) (es := []) (by decide +kernel)
  simp only [Bool.and_eq_true, beq_iff_eq, List.all_eq_true, decide_eq_true_eq] at h2
  obtain ⟨⟨⟨rfl, k1⟩, k2⟩, k3⟩ := h2
  refine ⟨s, h1, k1, k2, [0, 3, 0, 0, 0, 100, 0, 4, 0, 0, 255, 255, 0, 5, 0, 0, 64, 0],
    [136, 92, 1, 50, 118, 3, 105, 111, 110, 64, 137, 242, 181, 103, 240, 91, 11, 34, 209, 250, 3, 105, 111, 110],
    [104, 105], ?_⟩
  rw [k3]
  exact .cons _ _ _ _ ⟨[0, 0, 18], [0, 0, 0, 0], rfl, rfl, rfl, rfl, rfl⟩
    (.cons _ _ _ _ ⟨[0, 0, 24], [0, 0, 0, 1], rfl, rfl, rfl, rfl, rfl⟩
      (.cons _ _ _ _ ⟨[0, 0, 2], [0, 0, 0, 1], rfl, rfl, rfl, rfl, rfl⟩
        (.cons _ _ _ _ ⟨[0, 0, 0], [0, 0, 0, 1], rfl, rfl, rfl, rfl, rfl⟩ .nil)))

/-- A connection on which no block is too long is a dialogue. -/
theorem Called.talks {cfg : Cfg W} {w : W} {now : Nat} {r : ProcRes} {s : Sim W} (h : Called cfg w now r s)
    (hb : ∀ x ∈ responses s.trace, x.2.2.length < 2 ^ 24) : Talks s :=
  h.steps.talks hb ⟨[], .nil, by intro _ h1 f h2 he; simp at he, by simp⟩

/-- C158 is false: after a request with content and trailers, which are all allowed, the server has sent HEADERS and
DATA with END_STREAM on stream 1, and sends HEADERS on it again. -/
theorem C158_refuted : ¬ ServerKeepsStates exCfg ∧ ∃ s, Called exCfg 0 0 .wantRead s ∧
    StatesKept ((frames s.trace).map asFrame) ∧
    ∃ a b c, FramesWire [⟨4, 0, 0, a⟩, ⟨1, 4, 1, b⟩, ⟨0, 1, 1, c⟩, ⟨1, 5, 1, []⟩] (produced s.trace) := by
  obtain ⟨s, h1, h2, h3, a, b, c, h4⟩ := twice_on_one_stream
  have hk : StatesKept ((frames s.trace).map asFrame) := by
    rw [h3]
    intro pre f post h
    match pre, h with
    | [], h => cases h; decide
    | [_], h => cases h; decide
    | [_, _], h => cases h; decide
    | _ :: _ :: _ :: pre, h => simp at h
  refine ⟨fun hs => ?_, s, h1, hk, a, b, c, h4⟩
  obtain ⟨t, d, -⟩ := h1.talks h2
  obtain ⟨t1, t2, rfl, k1⟩ := sents_split (a := [⟨4, 0, 0, a⟩, ⟨1, 4, 1, b⟩, ⟨0, 1, 1, c⟩]) (d.parts.2.det h4)
  have hm := hs 0 0 _ s h1 h2 hk _ d t1 _ t2 rfl (.inr rfl)
  exact hm.2.2.2.1 ⟨0, 1, 1, c⟩ (mem_sents.1 (by simp [k1])) rfl (.inl ⟨.inl rfl, (by decide : (1 : UInt8) &&& 1 ≠ 0)⟩)

/-- C158, what holds: if every HEADERS frame of the client opens a new stream, then the connection is a dialogue, and
in it the server sends HEADERS and DATA only on streams the client has opened and not reset, and which it has not ended
itself; DATA only after HEADERS; and HEADERS once. Missing: requests with trailers, which are answered twice. -/
theorem C158_states_partial (cfg : Cfg W) (w : W) (now : Nat) (r : ProcRes) (s : Sim W) (h : Called cfg w now r s)
    (hb : ∀ x ∈ responses s.trace, x.2.2.length < 2 ^ 24) (hn : OpensFresh ((frames s.trace).map asFrame)) :
    (∃ t, Dialogue s.trace t) ∧ ∀ t, Dialogue s.trace t → KeepsStates t := by
  obtain ⟨t, d, k, -⟩ := h.talks hb
  exact ⟨⟨t, d⟩, fun t' d' => d.det d' ▸ k hn⟩

/-- C158, exactly: while the connection waits for input, the server has kept to the states of the streams if and only
if every HEADERS frame of the client opened a new stream. -/
theorem C158_exact_partial (cfg : Cfg W) (w : W) (now : Nat) (s : Sim W) (h : Called cfg w now .wantRead s)
    (hb : ∀ x ∈ responses s.trace, x.2.2.length < 2 ^ 24) :
    ∃ t, Dialogue s.trace t ∧ (∀ t', Dialogue s.trace t' → t' = t) ∧
      (KeepsStates t ↔ OpensFresh ((frames s.trace).map asFrame)) := by
  obtain ⟨t, d, k⟩ := h.settled hb
  obtain ⟨t', d', k', -⟩ := h.talks hb
  cases d.det d'
  exact ⟨t, d, fun _ d'' => d''.det d, k, k'⟩

/-- Two requests, the first with content, and a stream reset after its response. -/
example : ∃ r s, Called exCfg 0 0 r s ∧ (r == .wantRead &&
    (responses s.trace).all (fun x => decide (x.2.2.length < 2 ^ 24)) &&
    (frames s.trace).map asFrame == [⟨1, 4, 1, [0x82, 0x84]⟩, ⟨0, 0, 1, [0x78]⟩, ⟨3, 0, 1, [0, 0, 0, 8]⟩,
      ⟨1, 5, 3, [0x82, 0x84]⟩]) = true :=
  Shows.called (e := exEnv (clientPreface ++ exOpen ++ exContent ++ [0, 0, 4, 3, 0, 0, 0, 0, 1, 0, 0, 0, 8] ++
    [0, 0, 2, 1, 5, 0, 0, 0, 3, 0x82, 0x84]) [71, 24]) (es := []) (by decide +kernel)

example : OpensFresh [⟨1, 4, 1, [0x82, 0x84]⟩, ⟨0, 0, 1, [0x78]⟩, ⟨3, 0, 1, [0, 0, 0, 8]⟩,
    ⟨1, 5, 3, [0x82, 0x84]⟩] := by
  intro pre f post h
  match pre, h with
  | [], h => cases h; decide
  | [_], h => cases h; decide
  | [_, _], h => cases h; decide
  | [_, _, _], h => cases h; decide
  | _ :: _ :: _ :: _ :: pre, h => simp at h

end Sim
end Ion
