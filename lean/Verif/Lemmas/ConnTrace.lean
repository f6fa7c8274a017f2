import Verif.Lemmas.ConnInv

/-!
# Properties of every point of a connection's trace
-/

namespace Ion
open Spec
namespace Sim
variable {W : Type}

/-- `Q` holds of every event of the trace, given the events before it. -/
def Along (Q : List Ev → Ev → Prop) (tr : List Ev) : Prop :=
  ∀ pre e post, tr = pre ++ e :: post → Q pre e

theorem Along.nil (Q : List Ev → Ev → Prop) : Along Q [] := by
  intro pre e post h; simp at h

theorem append_split {a b pre post : List Ev} {e : Ev} (h : a ++ b = pre ++ e :: post) :
    (∃ q, a = pre ++ e :: q) ∨ ∃ p, b = p ++ e :: post ∧ pre = a ++ p := by
  rcases List.append_eq_append_iff.mp h with ⟨x, h1, h2⟩ | ⟨x, h1, h2⟩
  · exact .inr ⟨x, h2, h1⟩
  · cases x with
    | nil => exact .inr ⟨[], by simpa using h2.symm, by simpa using h1.symm⟩
    | cons y x =>
      simp only [List.cons_append, List.cons.injEq] at h2
      obtain ⟨rfl, h2⟩ := h2
      exact .inl ⟨x, h1⟩

theorem Along.append {Q : List Ev → Ev → Prop} {a b : List Ev} (h : Along Q a)
    (hb : ∀ p e q, b = p ++ e :: q → Q (a ++ p) e) : Along Q (a ++ b) := by
  intro pre e post he
  rcases append_split he with ⟨q, h'⟩ | ⟨p, h', rfl⟩
  · exact h pre e q h'
  · exact hb p e post h'

theorem Along.snoc {Q : List Ev → Ev → Prop} {a : List Ev} {x : Ev} (h : Along Q a)
    (hx : Q a x) : Along Q (a ++ [x]) := by
  refine h.append ?_
  intro p e q he
  cases p with
  | nil => simp at he; obtain ⟨rfl, -⟩ := he; simpa using hx
  | cons y p => simp at he

/-- Adding events about which `Q` says nothing. -/
theorem Along.append_triv {Q : List Ev → Ev → Prop} {a b : List Ev} (h : Along Q a)
    (hb : ∀ e ∈ b, ∀ pre, Q pre e) : Along Q (a ++ b) :=
  h.append fun _ e _ he => hb e (by rw [he]; simp) _

/-- Events of answering a frame. -/
def AnsEv : Ev → Prop
  | .handled _ _ => True
  | .respond _ _ _ => True
  | .enqueue _ => True
  | .logged _ _ _ => True
  | _ => False

theorem Acts.events {cfg : Cfg W} {s s' : Sim W} {f : FrameReader} (h : Acts cfg s f s') :
    ∃ evs, s'.trace = s.trace ++ evs ∧ ∀ e ∈ evs, AnsEv e := by
  cases h with
  | settings l ht hf h => exact ⟨[.enqueue _], rfl, by simp [AnsEv]⟩
  | request data hs dec' resp evs w' block enc' ht hb hd hr he =>
    refine ⟨_, rfl, ?_⟩
    intro e he
    simp only [answerEvs, List.mem_append, List.mem_map, List.mem_singleton] at he
    rcases he with ((he | rfl) | ⟨b, -, rfl⟩) | rfl
    · cases hr with
      | missing h => simp at he
      | handler path method r w' hp hm h => simp at he; subst he; trivial
      | threw path method w' hp hm h => simp at he; subst he; trivial
    · trivial
    · trivial
    · trivial
  | _ => exact ⟨[], by simp, by simp⟩

/-- What one step adds to the trace, and the state it needs. -/
inductive Adds (c : Bool) (s t : Sim W) : List Ev → Prop
  | none : Adds c s t []
  | handshake (n : Nat) (h : s.st = .awaitingHandshake) (h' : t.st = .awaitingPreface) :
      Adds c s t [.handshake n]
  | write (r : WriteRes) (h : s.wbuf ≠ []) : Adds c s t [.write s.wbuf r]
  | read (bs : Bytes) (n : Nat) (hw : s.wbuf = []) (hr : s.rbuf.length + 16384 < 65536) :
      Adds c s t [.read bs n]
  | readFail (e : TErr) (hw : s.wbuf = []) : Adds c s t [.readFail e]
  | preface (hs : s.st = .awaitingPreface) (hw : s.wbuf = []) :
      Adds c s t (.prefaceOk :: settingsChunks.map Ev.enqueue)
  | frame (f : FrameReader) (evs : List Ev) (h : s.st = .awaitingFrame) (hr : Ready s)
      (he : ∀ e ∈ evs, AnsEv e) : Adds c s t (.frame f :: evs)
  | goaway (cs : List Bytes) (h : c = true) : Adds c s t (cs.map Ev.enqueue)
  | shutdown : Adds c s t [.shutdown]
  | returned (r : ProcRes) : Adds c s t [.returned r]

theorem Step.adds {cfg : Cfg W} {b : Bool} {s t : Sim W} (h : Step cfg b s t) :
    ∃ es, t.trace = s.trace ++ es ∧ Adds b s t es := by
  cases h with
  | env => exact ⟨[], by simp, .none⟩
  | readsLeft => exact ⟨[], by simp, .none⟩
  | handshake _ n h => exact ⟨_, rfl, .handshake n h rfl⟩
  | writeBlocked _ ws h hst => exact ⟨_, rfl, .write _ h⟩
  | writeFailed _ ws e h he hst => exact ⟨_, rfl, .write _ h⟩
  | wrote _ ws n t h hn hst => exact ⟨_, rfl, .write _ h⟩
  | read _ bs t hw hst hr => exact ⟨_, rfl, .read bs t hw hr⟩
  | readFailed _ e hw hst hr => exact ⟨[.readFail e], by cases e <;> rfl, .readFail e hw⟩
  | preface _ rest h hw hr => exact ⟨_, by simp only [enq, emit, List.append_assoc]; rfl, .preface h hw⟩
  | oversized _ h hd hh hl hw => exact ⟨[], by simp, .none⟩
  | frame _ s1 h hd hh hl hr hw ha =>
    obtain ⟨evs, h1, h2⟩ := ha.events
    exact ⟨_, by simp only [h1, List.append_assoc]; rfl, .frame _ evs h hw h2⟩
  | shutdown _ h hw => exact ⟨_, rfl, .shutdown⟩
  | close _ h => exact ⟨_, rfl, .goaway _ rfl⟩
  | wantRead _ h => exact ⟨_, rfl, .returned _⟩
  | wantWrite _ h => exact ⟨_, rfl, .returned _⟩
  | discard _ h => exact ⟨_, rfl, .returned _⟩

theorem AnsEv.proj {evs : List Ev} (h : ∀ e ∈ evs, AnsEv e) :
    received evs = [] ∧ accepted evs = [] ∧ frames evs = [] ∧ writeAttempts evs = [] := by
  induction evs with
  | nil => exact ⟨rfl, rfl, rfl, rfl⟩
  | cons e evs ih =>
    obtain ⟨h1, h2, h3, h4⟩ := ih fun x hx => h x (.tail _ hx)
    have := h e (.head _)
    cases e <;> simp [AnsEv] at this <;> simp [received, accepted, frames, writeAttempts, h1, h2, h3, h4]

/-! ### Octets consumed -/

@[simp] theorem consumed_append (a b : List Ev) : consumed (a ++ b) = consumed a + consumed b := by
  induction a with
  | nil => simp [consumed]
  | cons e a ih => cases e <;> simp [consumed, ih] <;> omega

@[simp] theorem consumed_enqueues (cs : List Bytes) : consumed (cs.map Ev.enqueue) = 0 := by
  induction cs with
  | nil => rfl
  | cons c cs ih => simp [consumed, ih]

theorem AnsEv.consumed {evs : List Ev} (h : ∀ e ∈ evs, AnsEv e) : consumed evs = 0 := by
  induction evs with
  | nil => rfl
  | cons e evs ih =>
    have h1 := ih fun x hx => h x (.tail _ hx)
    have := h e (.head _)
    cases e <;> simp [AnsEv] at this <;> simp [Sim.consumed, h1]

theorem Step.buffered {cfg : Cfg W} {b : Bool} {s t : Sim W} (h : Step cfg b s t)
    (hs : s.rbuf.length + consumed s.trace = (received s.trace).length) :
    t.rbuf.length + consumed t.trace = (received t.trace).length := by
  cases h with
  | env => exact hs
  | readsLeft => exact hs
  | handshake _ n h => simpa [consumed, received] using hs
  | writeBlocked _ ws h hst => simpa [consumed, received] using hs
  | writeFailed _ ws e h he hst => simpa [consumed, received] using hs
  | wrote _ ws n t h hn hst => simpa [consumed, received] using hs
  | read _ bs t hw hst hr => simp [consumed, received]; omega
  | readFailed _ e hw hst hr =>
    cases e <;> simpa [Sim.readFailed, emit, updateState, consumed, received] using hs
  | preface _ rest h hw hr =>
    simp only [enq, emit, consumed_append, received_append, consumed_enqueues, received_enqueues,
      consumed, received, List.append_nil]
    rw [hr] at hs
    simp only [List.length_append, show clientPreface.length = 24 from rfl] at hs
    omega
  | oversized _ h hd hh hl hw => exact hs
  | frame _ s1 h hd hh hl hr hw ha =>
    obtain ⟨evs, h1, h2⟩ := ha.events
    obtain ⟨p1, -, -, -⟩ := AnsEv.proj h2
    have p2 := AnsEv.consumed h2
    obtain ⟨-, plen⟩ := hh.wire hr
    have n1 := ha.rbuf.1
    simp only at h1 n1
    simp only [h1, n1, consumed_append, received_append, p1, p2, consumed, received, plen,
      List.length_drop, List.append_nil]
    omega
  | shutdown _ h hw => simpa [consumed, received] using hs
  | close _ h => simpa [enq, consumed, received] using hs
  | wantRead _ h => simpa [consumed, received] using hs
  | wantWrite _ h => simpa [consumed, received] using hs
  | discard _ h => simpa [consumed, received] using hs

/-- What is buffered is what was received and not consumed. -/
theorem Steps.buffered {cfg : Cfg W} {c : Bool} {w : W} {now : Nat} {s : Sim W}
    (h : Steps cfg c (init w now) s) :
    s.rbuf.length + consumed s.trace = (received s.trace).length :=
  Steps.inv (P := fun s => s.rbuf.length + consumed s.trace = (received s.trace).length)
    (fun _ _ _ _ st => st.buffered) h rfl

/-- Octets are read only while fewer than 49152 are buffered. -/
theorem Steps.read_bound {cfg : Cfg W} {c : Bool} {w : W} {now : Nat} {s : Sim W}
    (h : Steps cfg c (init w now) s) :
    Along (fun pre e => ∀ bs t, e = .read bs t →
      (received pre).length + 16384 < 65536 + consumed pre) s.trace := by
  have : (s.rbuf.length + consumed s.trace = (received s.trace).length) ∧
    Along (fun pre e => ∀ bs t, e = .read bs t →
      (received pre).length + 16384 < 65536 + consumed pre) s.trace := by
    refine Steps.inv (P := fun s => (s.rbuf.length + consumed s.trace = (received s.trace).length) ∧
      Along (fun pre e => ∀ bs t, e = .read bs t →
        (received pre).length + 16384 < 65536 + consumed pre) s.trace) ?_ h
      ⟨rfl, Along.nil _⟩
    intro b s t _ st ⟨i1, i2⟩
    refine ⟨st.buffered i1, ?_⟩
    obtain ⟨es, he, ha⟩ := st.adds
    rw [he]
    cases ha with
    | none => rw [List.append_nil]; exact i2
    | read bs n hw hr => exact i2.snoc fun _ _ _ => by omega
    | preface hs hw =>
      refine i2.append_triv ?_
      intro e he pre bs t h
      subst h
      simp at he
    | frame f evs h hr hev =>
      refine i2.append_triv ?_
      intro e hm pre bs t h
      subst h
      simp at hm
      exact (hev _ hm).elim
    | goaway cs h =>
      refine i2.append_triv ?_
      intro e hm pre bs t h
      subst h
      simp at hm
    | _ => exact i2.snoc fun _ _ h => by cases h
  exact this.2

/-! ### Finished calls -/

theorem Called.elim {cfg : Cfg W} {w : W} {now : Nat} {r : ProcRes} {s : Sim W}
    (h : Called cfg w now r s) :
    ∃ s1 s2, Steps cfg false (init w now) s1 ∧ Ends s1 r s2 ∧
      s = { s2 with trace := s2.trace ++ [.returned r] } := by
  obtain ⟨s0, env, h1, h2⟩ := h
  obtain ⟨s1, s2, k1, k2, k3⟩ := process_steps cfg h2
  exact ⟨s1, s2, h1.steps.trans k1, k2, k3⟩

theorem Called.inUse {cfg : Cfg W} {w : W} {now : Nat} {r : ProcRes} {s : Sim W}
    (h : Called cfg w now r s) (hr : r ≠ .discard) : InUse cfg w now s := by
  obtain ⟨s0, env, h1, h2⟩ := h
  exact .step s0 s env r h1 h2 hr

theorem Called.steps {cfg : Cfg W} {w : W} {now : Nat} {r : ProcRes} {s : Sim W}
    (h : Called cfg w now r s) : Steps cfg true (init w now) s := by
  obtain ⟨s0, env, h1, h2⟩ := h
  exact h1.steps.weaken.trans (process_steps' cfg h2)

theorem Called.inv {cfg : Cfg W} {w : W} {now : Nat} {r : ProcRes} {s : Sim W}
    (h : Called cfg w now r s) : Inv cfg w true s := Inv.steps h.steps (Inv.init cfg w true now)

/-- The invariant when `process()` waits for input. -/
theorem Called.waiting {cfg : Cfg W} {w : W} {now : Nat} {s : Sim W}
    (h : Called cfg w now .wantRead s) :
    ∃ passed evs, InvAt cfg w false passed evs [] s ∧
      (passed = false ∧ (received s.trace).length < 24 ∨
        passed = true ∧ s.st = .awaitingFrame ∧ NoFrame s.rbuf) := by
  obtain ⟨passed, evs, post, i⟩ := (h.inUse (by simp)).inv
  have hp := i.post_plain rfl
  subst hp
  refine ⟨passed, evs, i, ?_⟩
  obtain ⟨s1, s2, k1, k2, k3⟩ := h.elim
  rcases k2 with ⟨rfl, k2⟩ | ⟨k2, -⟩
  · have hst : s.st = s2.st := by rw [k3]
    have hrb : s.rbuf = s2.rbuf := by rw [k3]
    have hi := i.state
    have hr := i.recv
    rcases k2 with k | ⟨k, k', -⟩ | ⟨k, k', -⟩
    · left
      cases passed with
      | true => simp [hst, k] at hi
      | false =>
        simp only [Bool.false_eq_true, if_false] at hr
        exact ⟨rfl, by rw [hr.2, i.hs (hst.trans k)]; simp⟩
    · left
      cases passed with
      | true => simp [hst, k] at hi
      | false =>
        simp only [Bool.false_eq_true, if_false] at hr
        exact ⟨rfl, by rw [hr.2, hrb]; exact k'⟩
    · right
      cases passed with
      | true => exact ⟨rfl, hst.trans k, by rw [hrb]; exact k'⟩
      | false => simp [hst, k] at hi
  · cases k2

/-- Frames are told apart by their contents. -/
theorem asFrame_inj {f g : FrameReader} (hf : f.header.length.toNat = f.payload.length)
    (hg : g.header.length.toNat = g.payload.length) (h : asFrame f = asFrame g) : f = g := by
  obtain ⟨⟨l, t, fl, sid⟩, p⟩ := f
  obtain ⟨⟨l', t', fl', sid'⟩, p'⟩ := g
  simp only [asFrame, Frame.mk.injEq] at h hf hg
  obtain ⟨rfl, rfl, h3, rfl⟩ := h
  have h1 : l = l' := UInt32.toNat_inj.mp (hf.trans hg.symm)
  have h2 : sid = sid' := UInt32.toNat_inj.mp h3
  subst h1 h2
  rfl

theorem asFrames_inj : ∀ {fs gs : List FrameReader},
    (∀ f ∈ fs, f.header.length.toNat = f.payload.length) →
    (∀ f ∈ gs, f.header.length.toNat = f.payload.length) →
    fs.map asFrame = gs.map asFrame → fs = gs
  | [], [], _, _, _ => rfl
  | [], _ :: _, _, _, h => by simp at h
  | _ :: _, [], _, _, h => by simp at h
  | f :: fs, g :: gs, hf, hg, h => by
    simp only [List.map_cons, List.cons.injEq] at h
    rw [asFrame_inj (hf f (.head _)) (hg g (.head _)) h.1,
      asFrames_inj (fun x hx => hf x (.tail _ hx)) (fun x hx => hg x (.tail _ hx)) h.2]

end Sim

namespace Spec

theorem Oversized.no_frame {f : Frame} {w r rest : Bytes} (hr : Oversized rest) (h : FrameWire f w)
    (hl : f.payload.length ≤ 16384) (e : rest = w ++ r) : False := by
  obtain ⟨len, more, e1, h1, -, h2⟩ := hr
  obtain ⟨len', sid, h3, -, rfl, h4, -⟩ := h
  rw [e1, List.append_assoc] at e
  obtain ⟨rfl, -⟩ := List.append_inj e (by rw [h1, h3])
  omega

theorem Oversized.not_waiting {rest : Bytes} (h : Oversized rest) : ¬ Waiting rest := by
  obtain ⟨len, more, e, h1, h2, h3⟩ := h
  rintro (h | ⟨f, w, ext, h4, h5, -, h6⟩)
  · rw [e] at h; simp at h; omega
  · obtain ⟨len', sid, k1, k2, rfl, k3, -⟩ := h4
    rw [e, List.append_assoc] at h6
    obtain ⟨rfl, -⟩ := List.append_inj h6 (by rw [h1, k1])
    omega

/-- Frames of acceptable size before an oversized frame. -/
theorem FramesWire.prefix_oversized {fs fs' : List Frame} {w w' r r' : Bytes} (h : FramesWire fs w)
    (hl : ∀ f ∈ fs, f.payload.length ≤ 16384)
    (h' : FramesWire fs' w') (e : w ++ r = w' ++ r') (hr' : Oversized r') : fs <+: fs' := by
  induction h generalizing fs' w' with
  | nil => exact List.nil_prefix
  | cons f fs v vs hf hs ih =>
    cases h' with
    | nil =>
      exact (hr'.no_frame hf (hl f (.head _)) (r := vs ++ r) (by simpa using e.symm)).elim
    | cons f' fs' v' vs' hf' hs' =>
      simp only [List.append_assoc] at e
      obtain ⟨rfl, rfl, e2⟩ := hf.unique hf' e
      exact List.cons_prefix_cons.mpr ⟨rfl, ih (fun g hg => hl g (.tail _ hg)) hs' e2⟩

/-- Octets before an oversized frame never leave just a frame's beginning behind. -/
theorem FramesWire.oversized_not_waiting {fs fs' : List Frame} {w w' r r' : Bytes}
    (h : FramesWire fs w) (hl : ∀ f ∈ fs, f.payload.length ≤ 16384)
    (h' : FramesWire fs' w') (e : w ++ r = w' ++ r') (hr' : Oversized r') : ¬ Waiting r := by
  intro hw
  induction h generalizing fs' w' with
  | nil =>
    cases h' with
    | nil => simp at e; rw [e] at hw; exact hr'.not_waiting hw
    | cons f' fs' v' vs' hf' hs' => exact hw.no_frame hf' (r := vs' ++ r') (by simpa using e)
  | cons f fs v vs hf hs ih =>
    cases h' with
    | nil => exact hr'.no_frame hf (hl f (.head _)) (r := vs ++ r) (by simpa using e.symm)
    | cons f' fs' v' vs' hf' hs' =>
      simp only [List.append_assoc] at e
      obtain ⟨rfl, rfl, e2⟩ := hf.unique hf' e
      exact ih (fun g hg => hl g (.tail _ hg)) hs' e2

end Spec
end Ion
