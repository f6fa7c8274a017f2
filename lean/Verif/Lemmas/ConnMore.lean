import Verif.Lemmas.ConnOut
import Verif.Lemmas.ConnExample

/-!
# More about traces: retried writes, ended connections, answers
-/

namespace Ion
open Spec
namespace Sim
variable {W : Type}

theorem Steps.plain_inv {cfg : Cfg W} {P : Sim W → Prop} {w : W} {now : Nat}
    (h0 : P (Sim.init w now))
    (hp : ∀ s t, Steps cfg false (Sim.init w now) s → Step cfg false s t → P s → P t) {s : Sim W}
    (h : Steps cfg false (Sim.init w now) s) : P s := by
  generalize hi : Sim.init w now = i at h h0
  induction h with
  | refl => exact h0
  | @tail t u b hst hb st ih =>
    subst hi
    cases b with
    | false => exact hp _ _ hst st ih
    | true => simp at hb

theorem Steps.inv_false {cfg : Cfg W} {w : W} {now : Nat} {s : Sim W}
    (h : Steps cfg false (Sim.init w now) s) : Inv cfg w false s :=
  Inv.steps h (Inv.init cfg w false now)

/-- A property of every point of a plain trace that says nothing about produced octets and returns
holds for finished calls. -/
theorem Called.along {cfg : Cfg W} {w : W} {now : Nat} {r : ProcRes} {s : Sim W}
    {Q : List Ev → Ev → Prop} (h : Called cfg w now r s)
    (hq : ∀ s, Steps cfg false (Sim.init w now) s → Along Q s.trace)
    (h1 : ∀ pre bs, Q pre (.enqueue bs)) (h2 : ∀ pre r, Q pre (.returned r)) : Along Q s.trace := by
  obtain ⟨s1, s2, k1, k2, rfl⟩ := h.elim
  have ha := hq s1 k1
  rcases k2 with ⟨rfl, -⟩ | ⟨-, -, -, rfl⟩
  · exact ha.snoc (h2 _ _)
  · refine Along.snoc ?_ (h2 _ _)
    refine ha.append_triv ?_
    intro e he pre
    obtain ⟨b, -, rfl⟩ := List.mem_map.mp he
    exact h1 _ _

/-! ### Before the preface -/

theorem Steps.before_preface {cfg : Cfg W} {w : W} {now : Nat} {s : Sim W}
    (h : Steps cfg false (Sim.init w now) s) (hs : s.st = .awaitingPreface) :
    writeAttempts s.trace = [] ∧ frames s.trace = [] ∧ produced s.trace = [] := by
  have hr := h.replied
  obtain ⟨-, k2, -, k4⟩ := hr.silent (hr.before (.inr hs))
  obtain ⟨p, evs, post, i⟩ := h.inv_false
  refine ⟨?_, k2, k4⟩
  cases p with
  | false => exact i.silent rfl rfl
  | true => have := i.state; simp [hs] at this

theorem Steps.preface_first {cfg : Cfg W} {w : W} {now : Nat} {s : Sim W}
    (h : Steps cfg false (Sim.init w now) s) :
    Along (fun pre e => e = .prefaceOk →
      writeAttempts pre = [] ∧ frames pre = [] ∧ produced pre = []) s.trace := by
  refine Steps.plain_inv (P := fun s => Along (fun pre e => e = .prefaceOk →
      writeAttempts pre = [] ∧ frames pre = [] ∧ produced pre = []) s.trace) (Along.nil _) ?_ h
  intro s t hs st i
  obtain ⟨es, he, ha⟩ := st.adds
  rw [he]
  cases ha with
  | none => rw [List.append_nil]; exact i
  | preface h1 h2 =>
    have := hs.before_preface h1
    rw [show (Ev.prefaceOk :: settingsChunks.map Ev.enqueue) =
      [Ev.prefaceOk] ++ settingsChunks.map Ev.enqueue from rfl, ← List.append_assoc]
    refine (i.snoc fun _ => this).append_triv ?_
    intro e he pre h
    subst h
    simp at he
  | frame f evs h hr hev =>
    refine i.append_triv ?_
    intro e hm pre h
    subst h
    simp at hm
    exact (hev _ hm).elim
  | goaway cs h => cases h
  | _ => exact i.snoc fun h => by cases h

/-- What is pending when a frame is looked at. -/
theorem Steps.ready {cfg : Cfg W} {w : W} {now : Nat} {s : Sim W}
    (h : Steps cfg false (Sim.init w now) s) (hr : Ready s) :
    s.wbuf = [] ∨ (s.wbuf = settingsChunks.flatten ∧ writeAttempts s.trace = [] ∧
      frames s.trace = [] ∧ produced s.trace = settingsChunks.flatten) := by
  rcases hr with hr | ⟨hr, pre, hp⟩
  · exact .inl hr
  · obtain ⟨k1, k2, k3⟩ := h.preface_first pre .prefaceOk _ hp rfl
    refine .inr ⟨hr, ?_, ?_, ?_⟩
    · simp [hp, k1, writeAttempts]
    · simp [hp, k2, frames]
    · simp [hp, k3, produced]

/-! ### Retried writes -/

/-- After a failed write, nothing is produced and no frame is acted on before the next attempt. -/
def Retry (s : Sim W) : Prop :=
  ∀ pre a e mid, s.trace = pre ++ .write a (.fail e) :: mid → writeAttempts mid = [] →
    s.wbuf = a ∧ produced mid = [] ∧ frames mid = []

/-- The same, seen from the next attempt. -/
def Retried (pre' : List Ev) (ev : Ev) : Prop :=
  ∀ a' r', ev = .write a' r' → ∀ pre a e mid, pre' = pre ++ .write a (.fail e) :: mid →
    writeAttempts mid = [] → a' = a ∧ produced mid = [] ∧ frames mid = []

theorem Retry.quiet {s t : Sim W} {es : List Ev} (i : Retry s) (ht : t.trace = s.trace ++ es)
    (hw : ∀ a r, Ev.write a r ∉ es) (hf : writeAttempts s.trace ≠ [] → produced es = [] ∧ frames es = [] ∧
      t.wbuf = s.wbuf) : Retry t := by
  intro pre a e mid hs hm
  rw [ht] at hs
  rcases append_split hs with ⟨q, h'⟩ | ⟨p, h', -⟩
  · have hq : mid = q ++ es := by
      rw [h', List.append_assoc] at hs
      have := List.append_cancel_left hs
      simp only [List.cons_append, List.cons.injEq, true_and] at this
      exact this.symm
    subst hq
    simp only [writeAttempts_append, List.append_eq_nil_iff] at hm
    obtain ⟨k1, k2, k3⟩ := i pre a e q h' hm.1
    obtain ⟨f1, f2, f3⟩ := hf (by rw [h']; simp [writeAttempts])
    exact ⟨f3.trans k1, by simp [k2, f1], by simp [k3, f2]⟩
  · exact absurd (by rw [h']; simp) (hw a (.fail e))

theorem Steps.retry {cfg : Cfg W} {w : W} {now : Nat} {s : Sim W}
    (h : Steps cfg false (Sim.init w now) s) : Retry s ∧ Along Retried s.trace := by
  refine Steps.plain_inv (P := fun s => Retry s ∧ Along Retried s.trace)
    ⟨by intro pre a e mid h; simp [Sim.init] at h, Along.nil _⟩ ?_ h
  intro s t hs st ⟨i1, i2⟩
  refine ⟨?_, ?_⟩
  · -- the buffer
    have wrote : ∀ (r : WriteRes), t.trace = s.trace ++ [.write s.wbuf r] →
        ((∃ e, r = .fail e) → t.wbuf = s.wbuf) → Retry t := by
      intro r ht hw pre a e mid hsp hm
      rw [ht] at hsp
      rcases append_split hsp with ⟨q, h'⟩ | ⟨p, h', -⟩
      · rw [h', List.append_assoc] at hsp
        have := List.append_cancel_left hsp
        simp only [List.cons_append, List.cons.injEq, true_and] at this
        rw [← this] at hm
        simp [writeAttempts] at hm
      · cases p with
        | nil =>
          simp only [List.nil_append, List.cons.injEq, Ev.write.injEq] at h'
          obtain ⟨⟨rfl, rfl⟩, rfl⟩ := h'
          exact ⟨hw ⟨e, rfl⟩, rfl, rfl⟩
        | cons x p => simp at h'
    cases st with
    | env => exact i1
    | readsLeft => exact i1
    | handshake _ n h => exact i1.quiet rfl (by simp) fun _ => ⟨rfl, rfl, rfl⟩
    | writeBlocked _ ws h hst => exact wrote _ rfl fun _ => rfl
    | writeFailed _ ws e h he hst => exact wrote _ rfl fun _ => rfl
    | wrote _ ws n t h hn hst => exact wrote _ rfl fun ⟨e, he⟩ => by cases he
    | read _ bs t hw hst hr => exact i1.quiet rfl (by simp) fun _ => ⟨rfl, rfl, rfl⟩
    | readFailed _ e hw hst hr =>
      exact i1.quiet (es := [.readFail e]) (by cases e <;> rfl) (by simp)
        fun _ => ⟨rfl, rfl, by cases e <;> rfl⟩
    | oversized _ h hd hh hl hw => exact i1.quiet (es := []) (by simp) (by simp) fun _ => ⟨rfl, rfl, rfl⟩
    | shutdown _ h hw => exact i1.quiet rfl (by simp) fun _ => ⟨rfl, rfl, rfl⟩
    | wantRead _ h => exact i1.quiet rfl (by simp) fun _ => ⟨rfl, rfl, rfl⟩
    | wantWrite _ h => exact i1.quiet rfl (by simp) fun _ => ⟨rfl, rfl, rfl⟩
    | discard _ h => exact i1.quiet rfl (by simp) fun _ => ⟨rfl, rfl, rfl⟩
    | preface _ rest h hw hr =>
      exact i1.quiet (es := .prefaceOk :: settingsChunks.map Ev.enqueue) (by simp [enq, emit])
        (by simp) fun hne => absurd (hs.before_preface h).1 hne
    | frame _ s1 h hd hh hl hr hw ha =>
      intro pre a e mid hsp hm
      obtain ⟨evs, h1, h2⟩ := ha.events
      simp only at h1
      have hnw : ∀ a r, Ev.write a r ∉ Ev.frame ⟨hd, (s.rbuf.drop 9).take hd.length.toNat⟩ :: evs := by
        intro a r hmem
        rcases List.mem_cons.mp hmem with h | h
        · cases h
        · exact h2 _ h
      simp only [h1, List.append_assoc, List.singleton_append] at hsp
      rcases append_split hsp with ⟨q, h'⟩ | ⟨p, h', -⟩
      · exfalso
        rw [h', List.append_assoc] at hsp
        have hmid := List.append_cancel_left hsp
        simp only [List.cons_append, List.cons.injEq, true_and] at hmid
        have hq : writeAttempts q = [] := by
          rw [← hmid] at hm
          simp only [writeAttempts_append, List.append_eq_nil_iff] at hm
          exact hm.1
        obtain ⟨k1, -, -⟩ := i1 pre a e q h' hq
        rcases hs.ready hw with h0 | ⟨-, h0, -⟩
        · -- an attempt is never empty
          have : a ≠ [] := by
            have hne : Along (fun _ ev => ∀ a r, ev = .write a r → a ≠ []) s.trace := by
              refine Steps.plain_inv (P := fun s => Along (fun _ ev => ∀ a r, ev = .write a r → a ≠ [])
                s.trace) (Along.nil _) ?_ hs
              intro s t _ st i
              obtain ⟨es, he, ha⟩ := st.adds
              rw [he]
              cases ha with
              | none => rw [List.append_nil]; exact i
              | write r h => exact i.snoc fun a r' h' => by cases h'; exact h
              | preface h1 h2 =>
                refine i.append_triv ?_
                intro e hm pre a r h; subst h; simp at hm
              | frame f evs h hr hev =>
                refine i.append_triv ?_
                intro e hm pre a r h; subst h; simp at hm; exact (hev _ hm).elim
              | goaway cs h => cases h
              | _ => exact i.snoc fun _ _ h => by cases h
            exact hne pre _ q h' a _ rfl
          exact this (k1.symm.trans h0)
        · rw [h'] at h0
          simp [writeAttempts] at h0
      · exact absurd (by rw [h']; simp) (hnw a (.fail e))
  · obtain ⟨es, he, ha⟩ := st.adds
    rw [he]
    cases ha with
    | none => rw [List.append_nil]; exact i2
    | write r h =>
      refine i2.snoc ?_
      intro a' r' h' pre a e mid hsp hm
      cases h'
      exact i1 pre a e mid hsp hm
    | preface h1 h2 =>
      refine i2.append_triv ?_
      intro e hm pre a r h; subst h; simp at hm
    | frame f evs h hr hev =>
      refine i2.append_triv ?_
      intro e hm pre a r h; subst h; simp at hm; exact (hev _ hm).elim
    | goaway cs h => cases h
    | _ => exact i2.snoc fun _ _ h => by cases h

/-! ### Ended connections -/

theorem Step.ended {cfg : Cfg W} {b : Bool} {s t : Sim W} (h : Step cfg b s t) (hs : Ended s.st) :
    Ended t.st ∧ frames t.trace = frames s.trace ∧ handled t.trace = handled s.trace ∧
      responses t.trace = responses s.trace := by
  cases h with
  | handshake _ n h => simp [Ended, h] at hs
  | preface _ rest h hw hr => simp [Ended, h] at hs
  | frame _ s1 h hd hh hl hr hw ha => simp [Ended, h] at hs
  | readFailed _ e hw hst hr =>
    cases e <;> simp_all [Sim.readFailed, emit, updateState, Ended, frames, handled, responses]
  | close _ h => simp [Ended, enq]
  | oversized _ h hd hh hl hw => simp [Ended]
  | _ => simp_all [Ended, frames, handled, responses]

theorem Steps.ended {cfg : Cfg W} {c : Bool} {s t : Sim W} (h : Steps cfg c s t) (hs : Ended s.st) :
    Ended t.st ∧ frames t.trace = frames s.trace ∧ handled t.trace = handled s.trace ∧
      responses t.trace = responses s.trace := by
  induction h with
  | refl => exact ⟨hs, rfl, rfl, rfl⟩
  | tail _ _ st ih =>
    obtain ⟨k1, k2, k3, k4⟩ := st.ended ih.1
    exact ⟨k1, k2.trans ih.2.1, k3.trans ih.2.2.1, k4.trans ih.2.2.2⟩

/-- Events that end a connection. -/
def Ender : Ev → Prop
  | .frame f => f.header.type = 7 ∨
      (f.header.type = 4 ∧ f.header.flags &&& 1 = 0 ∧ f.payload.length % 6 ≠ 0)
  | .readFail .connectionClosed => True
  | .readFail .protocolError => True
  | .write _ (.fail .wantReadOrWrite) => False
  | .write _ (.fail _) => True
  | .shutdown => True
  | _ => False

theorem AnsEv.not_ender {e : Ev} (h : AnsEv e) : ¬ Ender e := by
  cases e <;> simp_all [AnsEv, Ender]

theorem Step.ender {cfg : Cfg W} {b : Bool} {s t : Sim W} (h : Step cfg b s t)
    (i : ∀ e ∈ s.trace, Ender e → Ended s.st) : ∀ e ∈ t.trace, Ender e → Ended t.st := by
  intro x hx hen
  by_cases hold : x ∈ s.trace
  · exact (h.ended (i x hold hen)).1
  · cases h with
    | env => exact absurd hx hold
    | readsLeft => exact absurd hx hold
    | oversized _ h hd hh hl hw => exact absurd hx hold
    | handshake _ n h => simp [hold] at hx; subst hx; exact hen.elim
    | writeBlocked _ ws h hst => simp [hold] at hx; subst hx; exact hen.elim
    | writeFailed _ ws e h he hst => simp [Ended]
    | wrote _ ws n t h hn hst => simp [hold] at hx; subst hx; exact hen.elim
    | read _ bs t hw hst hr => simp [hold] at hx; subst hx; exact hen.elim
    | readFailed _ e hw hst hr =>
      cases e with
      | connectionClosed => simp [Sim.readFailed, updateState, Ended]
      | protocolError => simp [Sim.readFailed, updateState, Ended]
      | _ => simp [Sim.readFailed, emit, hold] at hx; subst hx; exact hen.elim
    | shutdown _ h hw => simp [Ended]
    | close _ h => simp [Ended]
    | wantRead _ h => simp [hold] at hx; subst hx; exact hen.elim
    | wantWrite _ h => simp [hold] at hx; subst hx; exact hen.elim
    | discard _ h => simp [hold] at hx; subst hx; exact hen.elim
    | preface _ rest h hw hr =>
      simp [enq, emit, hold] at hx
      rcases hx with rfl | ⟨b, -, rfl⟩ <;> exact hen.elim
    | frame _ s1 h hd hh hl hr hw ha =>
      obtain ⟨evs, h1, h2⟩ := ha.events
      simp only at h1
      simp only [h1, List.mem_append, hold, false_or, List.mem_singleton] at hx
      rcases hx with rfl | hx
      · rcases hen with h7 | ⟨h4, hf, hl⟩
        · cases ha <;> simp_all [Ended]
        · cases ha with
          | badSettings e ht hf h => simp [Ended]
          | settings l ht hf h => exact absurd (readSettings_len h) hl
          | settingsAck ht hf' => exact absurd hf hf'
          | _ => simp_all
      · exact absurd hen (h2 x hx).not_ender

theorem Steps.enders {cfg : Cfg W} {c : Bool} {w : W} {now : Nat} {s : Sim W}
    (h : Steps cfg c (Sim.init w now) s) :
    (∀ e ∈ s.trace, Ender e → Ended s.st) ∧
    Along (fun pre e => ∀ f, e = .frame f → ∀ x ∈ pre, ¬ Ender x) s.trace := by
  refine Steps.inv (P := fun s => (∀ e ∈ s.trace, Ender e → Ended s.st) ∧
    Along (fun pre e => ∀ f, e = .frame f → ∀ x ∈ pre, ¬ Ender x) s.trace) ?_ h
    ⟨by simp [Sim.init], Along.nil _⟩
  intro b s t _ st ⟨i1, i2⟩
  refine ⟨st.ender i1, ?_⟩
  obtain ⟨es, he, ha⟩ := st.adds
  rw [he]
  cases ha with
  | none => rw [List.append_nil]; exact i2
  | frame f evs h hr hev =>
    rw [show Ev.frame f :: evs = [Ev.frame f] ++ evs from rfl, ← List.append_assoc]
    refine (i2.snoc ?_).append_triv ?_
    · intro _ _ x hx hen
      have := i1 x hx hen
      simp [Ended, h] at this
    · intro e hm pre g h
      subst h
      exact (hev _ hm).elim
  | preface h1 h2 =>
    refine i2.append_triv ?_
    intro e hm pre g h; subst h; simp at hm
  | goaway cs h =>
    refine i2.append_triv ?_
    intro e hm pre g h; subst h; simp at hm
  | _ => exact i2.snoc fun _ h => by cases h

/-! ### Answers -/

/-- What follows a HEADERS frame in a trace: the answer to the request, computed from the tables and
world the earlier frames left; or nothing more, if the header block is refused. -/
def Answer (cfg : Cfg W) (w0 : W) (pre : List Ev) (f : FrameReader) (post : List Ev) (st : CState) :
    Prop :=
  ∃ dec enc w evs0, Served cfg w0 (frames pre) dec enc w evs0 ∧
    ((∃ data hs dec' resp evs w' block enc' rest,
      (f.headersBlock : Outcome Stop _) = .ok data ∧ decodeBlock dec data = .ok hs dec' ∧
      Responds cfg w hs resp w' evs ∧
      (encodeBlock cfg.charSigned enc resp.headers : Outcome Stop _) = .ok (block, enc') ∧
      post = answerEvs evs f.header.streamId hs resp block ++ rest) ∨
    (∃ data e dec', (f.headersBlock : Outcome Stop _) = .ok data ∧
      decodeBlock dec data = .err e dec' ∧ Ended st ∧ frames post = [] ∧ handled post = [] ∧
      responses post = []))

/-- Every HEADERS frame is followed by its answer. -/
def Answers (cfg : Cfg W) (w0 : W) (s : Sim W) : Prop :=
  ∀ pre f post, s.trace = pre ++ .frame f :: post → f.header.type = 1 →
    Answer cfg w0 pre f post s.st

theorem Answer.extend {cfg : Cfg W} {w0 : W} {pre post es : List Ev} {f : FrameReader}
    {st st' : CState} (h : Answer cfg w0 pre f post st)
    (he : Ended st → Ended st' ∧ frames es = [] ∧ handled es = [] ∧ responses es = []) :
    Answer cfg w0 pre f (post ++ es) st' := by
  obtain ⟨dec, enc, w, evs0, h0, h | h⟩ := h
  · obtain ⟨data, hs, dec', resp, evs, w', block, enc', rest, h1, h2, h3, h4, rfl⟩ := h
    exact ⟨dec, enc, w, evs0, h0, .inl ⟨data, hs, dec', resp, evs, w', block, enc', rest ++ es, h1, h2,
      h3, h4, by simp⟩⟩
  · obtain ⟨data, e, dec', h1, h2, h3, h4, h5, h6⟩ := h
    obtain ⟨k1, k2, k3, k4⟩ := he h3
    exact ⟨dec, enc, w, evs0, h0, .inr ⟨data, e, dec', h1, h2, k1, by simp [h4, k2], by simp [h5, k3],
      by simp [h6, k4]⟩⟩

theorem Answers.step {cfg : Cfg W} {w0 : W} {c b : Bool} {s t : Sim W} (h : Step cfg b s t)
    (hi : Inv cfg w0 c s) (i : Answers cfg w0 s) : Answers cfg w0 t := by
  obtain ⟨es, he⟩ := h.trace_mono
  have old : ∀ pre f post, s.trace = pre ++ .frame f :: post → f.header.type = 1 →
      Answer cfg w0 pre f (post ++ es) t.st := by
    intro pre f post hs hf
    refine (i pre f post hs hf).extend ?_
    intro hend
    obtain ⟨k1, k2, k3, k4⟩ := h.ended hend
    rw [he] at k2 k3 k4
    simp only [frames_append, handled_append, responses_append, List.append_right_eq_self] at k2 k3 k4
    exact ⟨k1, k2, k3, k4⟩
  intro pre f post hs hf
  rw [he] at hs
  rcases append_split hs with ⟨q, h'⟩ | ⟨p, h', hp⟩
  · have hq : post = q ++ es := by
      rw [h', List.append_assoc] at hs
      have := List.append_cancel_left hs
      simp only [List.cons_append, List.cons.injEq, true_and] at this
      exact this.symm
    subst hq
    exact old pre f q h' hf
  · clear old
    obtain ⟨es', he', ha'⟩ := h.adds
    have hes : es' = es := by rw [he] at he'; exact (List.append_cancel_left he').symm
    subst hes
    have hmem : frames es' ≠ [] := by rw [h']; simp [frames]
    have hfr := congrArg frames he'
    rw [frames_append] at hfr
    cases h with
    | frame _ s1 h hd hh hl hr hw ha =>
      obtain ⟨evs, h1, h2⟩ := ha.events
      simp only at h1
      simp only [h1, List.append_assoc] at he
      have hes := List.append_cancel_left he
      rw [h'] at hes
      simp only [List.singleton_append] at hes
      have hpn : p = [] := by
        cases p with
        | nil => rfl
        | cons x p =>
          simp only [List.cons_append, List.cons.injEq] at hes
          have := h2 (.frame f) (by rw [hes.2]; simp)
          exact this.elim
      subst hpn
      simp only [List.nil_append, List.cons.injEq, Ev.frame.injEq] at hes
      obtain ⟨hff, hev⟩ := hes
      rw [List.append_nil] at hp
      subst hp
      obtain ⟨passed, evs', post', k⟩ := hi
      refine ⟨s.dec, s.enc, s.world, evs', k.served, ?_⟩
      rw [hff] at ha
      cases ha with
      | request data hs dec' resp evs2 w' block enc' ht hb hd hr he2 =>
        left
        refine ⟨data, hs, dec', resp, evs2, w', block, enc', [], hb, hd, hr, he2, ?_⟩
        simp only at h1
        rw [← hev, List.append_nil]
        rw [hff] at h1
        exact (List.append_cancel_left h1).symm
      | badHeaders block e dec' ht hb hd =>
        right
        have hnil : post = [] := by
          simp only at h1
          rw [← hev, hff] at *
          simpa using h1
        subst hnil
        exact ⟨block, e, dec', hb, hd, .inr (.inl rfl), rfl, rfl, rfl⟩
      | _ => simp_all
    | preface _ rest h hw hr =>
      refine absurd ?_ hmem
      simpa [enq, emit, frames] using hfr.symm
    | close _ h =>
      refine absurd ?_ hmem
      simpa [enq, emit, frames] using hfr.symm
    | readFailed _ e hw hst hr =>
      refine absurd ?_ hmem
      cases e <;> simpa [Sim.readFailed, updateState, emit, frames] using hfr.symm
    | _ =>
      refine absurd ?_ hmem
      simpa [emit, frames] using hfr.symm

theorem Steps.answers {cfg : Cfg W} {c : Bool} {w : W} {now : Nat} {s : Sim W}
    (h : Steps cfg c (Sim.init w now) s) : Answers cfg w s := by
  refine (Steps.inv (P := fun s => Inv cfg w c s ∧ Answers cfg w s) ?_ h
    ⟨Inv.init cfg w c now, by intro pre f post h; simp [Sim.init] at h⟩).2
  intro b s t hb st ⟨i1, i2⟩
  exact ⟨i1.step hb st, i2.step st i1⟩

/-- A step that adds a frame event acts on that frame. -/
theorem Step.acts {cfg : Cfg W} {b : Bool} {s t : Sim W} {f : FrameReader} {evs : List Ev}
    (h : Step cfg b s t) (he : t.trace = s.trace ++ .frame f :: evs) :
    ∃ s1, Acts cfg { s with trace := s.trace ++ [.frame f] } f s1 ∧ s1.trace = t.trace := by
  have hfr := congrArg frames he
  rw [frames_append] at hfr
  cases h with
  | frame _ s1 h hd hh hl hr hw ha =>
    obtain ⟨evs', h1, -⟩ := ha.events
    simp only [List.append_assoc, List.singleton_append] at h1
    simp only [h1] at he
    have hes := List.append_cancel_left he
    simp only [List.cons.injEq, Ev.frame.injEq] at hes
    rw [hes.1] at ha
    exact ⟨s1, ha, rfl⟩
  | preface _ rest h hw hr => simp [enq, emit, frames] at hfr
  | close _ h => simp [enq, frames] at hfr
  | readFailed _ e hw hst hr => cases e <;> simp [Sim.readFailed, updateState, emit, frames] at hfr
  | _ => simp [frames] at hfr

/-- Where a response comes from: the HEADERS frame just before it, decoded with the table the earlier
frames left, and at most one handler call in between. -/
def Origin (cfg : Cfg W) (w0 : W) (pre : List Ev) (e : Ev) : Prop :=
  ∀ sid resp block, e = .respond sid resp block →
    ∃ pre' f evs dec enc w evs0 data hs dec' w' enc',
      pre = pre' ++ .frame f :: evs ∧ f.header.type = 1 ∧ f.header.streamId = sid ∧
      Served cfg w0 (frames pre') dec enc w evs0 ∧
      (f.headersBlock : Outcome Stop _) = .ok data ∧ decodeBlock dec data = .ok hs dec' ∧
      Responds cfg w hs resp w' evs ∧
      (encodeBlock cfg.charSigned enc resp.headers : Outcome Stop _) = .ok (block, enc')

theorem Steps.origin {cfg : Cfg W} {c : Bool} {w : W} {now : Nat} {s : Sim W}
    (h : Steps cfg c (Sim.init w now) s) : Along (Origin cfg w) s.trace := by
  refine (Steps.inv (P := fun s => Inv cfg w c s ∧ Along (Origin cfg w) s.trace) ?_ h
    ⟨Inv.init cfg w c now, Along.nil _⟩).2
  intro b s t hb st ⟨i1, i2⟩
  refine ⟨i1.step hb st, ?_⟩
  obtain ⟨es, he, ha⟩ := st.adds
  rw [he]
  cases ha with
  | none => rw [List.append_nil]; exact i2
  | goaway cs h =>
    refine i2.append_triv ?_
    intro e hm pre sid resp block h; subst h; simp at hm
  | preface h1 h2 =>
    refine i2.append_triv ?_
    intro e hm pre sid resp block h; subst h; simp at hm
  | frame f evs h hr hev =>
    refine i2.append ?_
    intro p e q hpq sid resp block hre
    subst hre
    obtain ⟨s1, ha, hs1⟩ := st.acts he
    rw [← hs1] at he
    obtain ⟨passed, evs', post', k⟩ := i1
    have hmem : Ev.respond sid resp block ∈ Ev.frame f :: evs := by rw [hpq]; simp
    cases ha with
    | request data hs dec' resp' evs2 w' block' enc' ht hb hd' hr he2 =>
      simp only [List.append_assoc, List.singleton_append] at he
      have hes := List.append_cancel_left he
      simp only [List.cons.injEq, true_and] at hes
      have hin : p = .frame f :: evs2 ∧ sid = f.header.streamId ∧ resp = resp' ∧ block = block' := by
        rw [← hes] at hpq
        have hno : ∀ s r b, Ev.respond s r b ∉ evs2 := by
          intro s r b hm; cases hr <;> simp at hm
        cases p with
        | nil => simp at hpq
        | cons x p =>
          simp only [List.cons_append, List.cons.injEq, answerEvs, List.append_assoc] at hpq
          obtain ⟨rfl, hpq⟩ := hpq
          rcases append_split hpq with ⟨q', h'⟩ | ⟨p', h', hp'⟩
          · exact absurd (by rw [h']; simp) (hno sid resp block)
          · cases p' with
            | nil =>
              simp at h'
              obtain ⟨⟨rfl, rfl, rfl⟩, -⟩ := h'
              simp at hp'
              exact ⟨by rw [hp'], rfl, rfl, rfl⟩
            | cons y p' =>
              simp only [List.cons_append, List.cons.injEq, List.nil_append] at h'
              have : Ev.respond sid resp block ∈ (responseChunks f.header.streamId resp' block').map
                  Ev.enqueue ++ [.logged hs resp'.status resp'.body.length] := by
                rw [h'.2]; simp
              simp at this
      obtain ⟨rfl, rfl, rfl, rfl⟩ := hin
      exact ⟨s.trace, f, evs2, s.dec, s.enc, s.world, evs', data, hs, dec', w', enc',
        rfl, ht, rfl, k.served, hb, hd', hr, he2⟩
    | settings l ht hf h =>
      simp only [enq, List.append_assoc] at he
      rw [← List.append_cancel_left he] at hmem
      simp at hmem
    | _ =>
      rw [← List.append_cancel_left he] at hmem
      simp at hmem
  | _ => exact i2.snoc fun _ _ _ h => by cases h

end Sim
end Ion
