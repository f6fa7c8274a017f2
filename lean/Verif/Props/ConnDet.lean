import Verif.Lemmas.ConnExample
import Verif.Lemmas.ConnMore

/-! # C149: what a connection does is determined by what the client sends -/

namespace Ion.Spec

/-- Two readings of the beginning of one stream agree as far as both go. -/
theorem FramesWire.comparable {fs fs' : List Frame} {w w' r r' : Bytes} (h : FramesWire fs w)
    (h' : FramesWire fs' w') (e : w ++ r = w' ++ r') : fs <+: fs' ∨ fs' <+: fs := by
  induction h generalizing fs' w' with
  | nil => exact .inl List.nil_prefix
  | cons f fs v vs hf hs ih =>
    cases h' with
    | nil => exact .inr List.nil_prefix
    | cons f' fs' v' vs' hf' hs' =>
      simp only [List.append_assoc] at e
      obtain ⟨rfl, rfl, e2⟩ := hf.unique hf' e
      rcases ih hs' e2 with h | h
      · exact .inl (List.cons_prefix_cons.mpr ⟨rfl, h⟩)
      · exact .inr (List.cons_prefix_cons.mpr ⟨rfl, h⟩)

end Ion.Spec

namespace Ion.Sim
open Spec
variable {W : Type}

/-! ### Specification -/

/-- The second connection has done all that the first has, and maybe more: frames acted on, calls of handlers
with their requests and results, responses, and log entries. -/
structure Behind (s t : Sim W) : Prop where
  frames : frames s.trace <+: frames t.trace
  handled : handled s.trace <+: handled t.trace
  responses : responses s.trace <+: responses t.trace
  logs : logs s.trace <+: logs t.trace

/-! ### Proof -/

theorem frames_prefix {fs gs : List FrameReader} (hf : ∀ f ∈ fs, f.header.length.toNat = f.payload.length)
    (hg : ∀ f ∈ gs, f.header.length.toNat = f.payload.length) (h : fs.map asFrame <+: gs.map asFrame) :
    fs <+: gs := by
  rw [List.prefix_iff_eq_take, ← List.map_take, List.length_map] at h
  rw [List.prefix_iff_eq_take]
  exact asFrames_inj hf (fun f hx => hg f (List.mem_of_mem_take hx)) h

theorem Served.behind {cfg : Cfg W} {w0 : W} {fs gs : List FrameReader} {d1 e1 d2 e2 : DynTable}
    {w1 w2 : W} {v1 v2 : List Ev} (h2 : Served cfg w0 gs d2 e2 w2 v2) :
    Served cfg w0 fs d1 e1 w1 v1 → fs <+: gs → v1 <+: v2 := by
  induction h2 with
  | nil =>
    intro h1 hp
    have := List.prefix_nil.1 hp
    subst this
    exact (h1.det .nil).2.2.2 ▸ List.prefix_refl _
  | snoc gs g dec enc w evs s' h ha ih =>
    intro h1 hp
    rcases List.prefix_concat_iff.1 hp with rfl | hp
    · exact (h1.det (.snoc gs g dec enc w evs s' h ha)).2.2.2 ▸ List.prefix_refl _
    · exact (ih h1 hp).trans (List.prefix_append _ _)

theorem prefix_map {v1 v2 : List Ev} {α : Type} (f : List Ev → List α) (hf : ∀ a b, f (a ++ b) = f a ++ f b)
    (h : v1 <+: v2) : f v1 <+: f v2 := by
  obtain ⟨r, rfl⟩ := h
  rw [hf]
  exact List.prefix_append _ _

theorem InvAt.behind {cfg : Cfg W} {w0 : W} {c1 c2 p1 p2 : Bool} {v1 v2 : List Ev} {q1 q2 : Bytes}
    {s1 s2 : Sim W} (i1 : InvAt cfg w0 c1 p1 v1 q1 s1) (i2 : InvAt cfg w0 c2 p2 v2 q2 s2)
    (h : Sim.frames s1.trace <+: Sim.frames s2.trace) : Behind s1 s2 ∧ v1 <+: v2 := by
  have hv := i2.served.behind i1.served h
  refine ⟨⟨h, ?_, ?_, ?_⟩, hv⟩
  · rw [i1.handled, i2.handled]
    exact prefix_map _ handled_append hv
  · rw [i1.responses, i2.responses]
    exact prefix_map _ responses_append hv
  · rw [i1.logs, i2.logs]
    exact prefix_map _ logs_append hv

theorem InvAt.comparable {cfg : Cfg W} {w0 : W} {c1 c2 p1 p2 : Bool} {v1 v2 : List Ev} {q1 q2 : Bytes}
    {s1 s2 : Sim W} (i1 : InvAt cfg w0 c1 p1 v1 q1 s1) (i2 : InvAt cfg w0 c2 p2 v2 q2 s2) {x : Bytes}
    (h1 : received s1.trace <+: x) (h2 : received s2.trace <+: x) :
    Sim.frames s1.trace <+: Sim.frames s2.trace ∨ Sim.frames s2.trace <+: Sim.frames s1.trace := by
  have r1 := i1.recv
  have r2 := i2.recv
  cases p1 with
  | false => exact .inl (by simp only [Bool.false_eq_true, if_false] at r1; rw [r1.1]; exact List.nil_prefix)
  | true =>
    cases p2 with
    | false => exact .inr (by simp only [Bool.false_eq_true, if_false] at r2; rw [r2.1]; exact List.nil_prefix)
    | true =>
      simp only [if_true] at r1 r2
      obtain ⟨u1, f1, g1⟩ := r1
      obtain ⟨u2, f2, g2⟩ := r2
      obtain ⟨y1, rfl⟩ := h1
      obtain ⟨y2, h2⟩ := h2
      simp only [g1, g2, List.append_assoc] at h2
      have h2 := List.append_cancel_left h2
      rcases f1.comparable f2 h2.symm with h | h
      · exact .inl (frames_prefix (fun f hf => (i1.sizes f hf).2) (fun f hf => (i2.sizes f hf).2) h)
      · exact .inr (frames_prefix (fun f hf => (i2.sizes f hf).2) (fun f hf => (i1.sizes f hf).2) h)

/-- The plain part of a finished call. -/
theorem Called.plainPart {cfg : Cfg W} {w : W} {now : Nat} {r : ProcRes} {s : Sim W} (h : Called cfg w now r s) :
    ∃ s1 p v, InvAt cfg w false p v [] s1 ∧ received s.trace = received s1.trace ∧
      Sim.frames s.trace = Sim.frames s1.trace ∧ Sim.handled s.trace = Sim.handled s1.trace ∧
      Sim.responses s.trace = Sim.responses s1.trace ∧ Sim.logs s.trace = Sim.logs s1.trace ∧
      accepted s.trace = accepted s1.trace ∧ s.world = s1.world := by
  obtain ⟨s1, s2, k1, k2, k3⟩ := h.elim
  obtain ⟨p, v, q, i⟩ := k1.inv_false
  have hq := i.post_plain rfl
  subst hq
  refine ⟨s1, p, v, i, ?_⟩
  rcases k2 with ⟨rfl, -⟩ | ⟨-, -, -, rfl⟩ <;> subst k3 <;>
    simp [enq, received, Sim.frames, Sim.handled, Sim.responses, Sim.logs, accepted]

theorem accepted_comparable {cfg : Cfg W} {w0 : W} {p1 p2 : Bool} {v1 v2 : List Ev} {s1 s2 : Sim W}
    (i1 : InvAt cfg w0 false p1 v1 [] s1) (i2 : InvAt cfg w0 false p2 v2 [] s2) (hv : v1 <+: v2) :
    accepted s1.trace <+: accepted s2.trace ∨ accepted s2.trace <+: accepted s1.trace := by
  have a1 : accepted s1.trace <+: produced s1.trace := ⟨_, i1.acc.symm⟩
  have a2 : accepted s2.trace <+: produced s2.trace := ⟨_, i2.acc.symm⟩
  rw [i1.prod, List.append_nil] at a1
  rw [i2.prod, List.append_nil] at a2
  have hpv := prefix_map _ produced_append hv
  cases p1 with
  | false =>
    have : accepted s1.trace = [] := by
      have hw := i1.silent rfl rfl
      have : ∀ tr : List Ev, writeAttempts tr = [] → accepted tr = [] := by
        intro tr
        induction tr with
        | nil => exact fun _ => rfl
        | cons e tr ih => cases e <;> simp_all [writeAttempts, accepted]
      exact this _ hw
    rw [this]
    exact .inl List.nil_prefix
  | true =>
    cases p2 with
    | false =>
      have : accepted s2.trace = [] := by
        have hw := i2.silent rfl rfl
        have : ∀ tr : List Ev, writeAttempts tr = [] → accepted tr = [] := by
          intro tr
          induction tr with
          | nil => exact fun _ => rfl
          | cons e tr ih => cases e <;> simp_all [writeAttempts, accepted]
        exact this _ hw
      rw [this]
      exact .inr List.nil_prefix
    | true =>
      simp only [if_true] at a1 a2
      exact List.prefix_or_prefix_of_prefix
        (a1.trans ((List.prefix_append_right_inj _).2 hpv)) a2

/-! ### C149 -/

/-- C149: of two connections of the same application whose clients have sent beginnings of the same octets, one
has done exactly the first things the other has done (or both the same): the same frames acted on, the same
requests handed to handlers, the same responses, the same log entries; the octets one client was sent are the
first ones the other was. This holds after every call and whatever it returned, however the octets were cut into
reads and calls, however writes went, whatever failed, and whatever the clock said. If they have acted on the same
frames, their applications are in the same state. -/
theorem C149_determined {cfg : Cfg W} {w : W} {now1 now2 : Nat} {r1 r2 : ProcRes} {s1 s2 : Sim W}
    (h1 : Called cfg w now1 r1 s1) (h2 : Called cfg w now2 r2 s2) {x : Bytes}
    (hx1 : received s1.trace <+: x) (hx2 : received s2.trace <+: x) :
    (Behind s1 s2 ∨ Behind s2 s1) ∧
    (accepted s1.trace <+: accepted s2.trace ∨ accepted s2.trace <+: accepted s1.trace) ∧
    (frames s1.trace = frames s2.trace → Behind s1 s2 ∧ Behind s2 s1 ∧ s1.world = s2.world) := by
  obtain ⟨t1, p1, v1, i1, e1, e2, e3, e4, e5, e6, e7⟩ := h1.plainPart
  obtain ⟨t2, p2, v2, i2, g1, g2, g3, g4, g5, g6, g7⟩ := h2.plainPart
  have conv : Behind t1 t2 → Behind s1 s2 := fun b =>
    ⟨by rw [e2, g2]; exact b.frames, by rw [e3, g3]; exact b.handled, by rw [e4, g4]; exact b.responses,
      by rw [e5, g5]; exact b.logs⟩
  have conv' : Behind t2 t1 → Behind s2 s1 := fun b =>
    ⟨by rw [e2, g2]; exact b.frames, by rw [e3, g3]; exact b.handled, by rw [e4, g4]; exact b.responses,
      by rw [e5, g5]; exact b.logs⟩
  rw [e1] at hx1
  rw [g1] at hx2
  have hc := i1.comparable i2 hx1 hx2
  refine ⟨?_, ?_, fun hf => ?_⟩
  · rcases hc with h | h
    · exact .inl (conv (i1.behind i2 h).1)
    · exact .inr (conv' (i2.behind i1 h).1)
  · rw [e6, g6]
    rcases hc with h | h
    · exact accepted_comparable i1 i2 (i1.behind i2 h).2
    · exact (accepted_comparable i2 i1 (i2.behind i1 h).2).symm
  · rw [e2, g2] at hf
    refine ⟨conv (i1.behind i2 (hf ▸ List.prefix_refl _)).1, conv' (i2.behind i1 (hf ▸ List.prefix_refl _)).1, ?_⟩
    have hs := i1.served
    rw [hf] at hs
    rw [e7, g7]
    exact (hs.det i2.served).2.2.1

/-- Two connections whose clients have sent beginnings of the same octets: one was given the request in one
piece and has answered it; the other has been given it octet by octet up to the middle, and could not write. -/
example : (∃ r s, Called exCfg 0 0 r s ∧ ((handled s.trace).length == 1 && (accepted s.trace).length == 80 &&
      decide (received s.trace <+: clientPreface ++ exSettings ++ exGet)) = true) ∧
    ∃ r s, Called exCfg 0 0 r s ∧ ((handled s.trace).length == 0 && (accepted s.trace).length == 30 &&
      (received s.trace).length == 33 &&
      decide (received s.trace <+: clientPreface ++ exSettings ++ exGet)) = true :=
  ⟨Shows.called (e := exEnv (clientPreface ++ exSettings ++ exGet) [36, 44]) (es := []) (by decide +kernel),
    Shows.called (e := { hs := .done 7, reads := clientPreface.map fun b => .data [b] 8 })
      (es := [{ writes := [.wrote 20 9], reads := [] },
        { writes := [.wrote 7 9, .wrote 3 9], reads := exSettings.map fun b => .data [b] 10 }]) (by decide +kernel)⟩

end Ion.Sim
