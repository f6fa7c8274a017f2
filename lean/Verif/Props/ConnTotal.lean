import Verif.Lemmas.ConnLoop
import Verif.Lemmas.ConnExample
import Verif.Props.HeaderEncoder
import Verif.Props.Frames
import Verif.Props.ConnAnswer

/-!
# Termination, undefined behaviour and the idle clock: C46, C47, C48
-/

namespace Ion
namespace Sim
open Spec
variable {W : Type}

/-! ### C46 -/

/-- C46: whatever the transport does and whatever state the connection is in, the loop of `process()`
ends, within a number of iterations fixed by the octets at hand. -/
theorem C46_terminates (cfg : Cfg W) (env : Env) (s : Sim W) :
    s.process cfg env ≠ .err .fuel := by
  have := (loop_enough (cfg := cfg) _ { s with hs := env.hs, reads := env.reads, writes := env.writes }
    0 (Nat.le_refl _)).1
  simp only [process, budget]
  simp only [toRead] at this
  generalize loop cfg _ _ = x at this ⊢
  cases x with
  | ok x => simp
  | ub u => simp
  | err e => simpa using this

/-- C46: the budget of the model is not a restriction: every larger one gives the same result. -/
theorem C46_budget (cfg : Cfg W) (s : Sim W) (n : Nat) (hn : s.budget ≤ n) :
    s.loop cfg n = s.loop cfg s.budget := by
  obtain ⟨k, rfl⟩ : ∃ k, n = s.budget + k := ⟨n - s.budget, by omega⟩
  exact (loop_enough _ s k (Nat.le_refl _)).2

theorem framesWire_length {fs : List Frame} {w : Bytes} (h : FramesWire fs w) :
    9 * fs.length ≤ w.length := by
  induction h with
  | nil => simp
  | cons f fs w ws hf hs ih =>
    obtain ⟨len, sid, h1, h2, rfl, -⟩ := hf
    simp only [List.length_cons, List.length_append, List.length_nil]
    omega

/-- C46: every frame acted on accounts for at least nine octets received, after the preface. -/
theorem C46_frames {cfg : Cfg W} {w : W} {now : Nat} {calls : List Call} {s : Sim W}
    (h : run cfg calls (init w now) = .ok s) :
    9 * (frames s.trace).length ≤ (received s.trace).length - 24 := by
  obtain ⟨passed, evs, post, i⟩ := Inv.steps (run_steps cfg calls h) (Inv.init cfg w true now)
  have hr := i.recv
  cases passed with
  | false => rw [if_neg (by simp)] at hr; simp [hr.1]
  | true =>
    rw [if_pos rfl] at hr
    obtain ⟨v, h1, h2⟩ := hr
    have := framesWire_length h1
    rw [h2]
    simp only [List.length_map, List.length_append] at this ⊢
    have : preface.length = 24 := rfl
    omega

/-- Two frames in one call. -/
example : ∃ calls s, run exCfg calls (init 0 0) = .ok s ∧ (frames s.trace).length = 2 := by
  obtain ⟨calls, s, h1, h2⟩ := Shows.run (cfg := exCfg) (w := 0)
    (e := exEnv (preface ++ exSettings ++ exGet) [36]) (es := [])
    (p := fun s => decide ((frames s.trace).length = 2)) (by decide +kernel)
  exact ⟨calls, s, h1, by simpa using h2⟩

/-! ### C47 -/

theorem of_ending {ε α : Type} {x : Outcome ε α} :
    (∀ u, ending x = some (.inr u) → x = .ub u) ∧ (∀ e, ending x = some (.inl e) → x = .err e) := by
  cases x <;> simp [ending]

/-- C47, refuted: after the preface, a HEADERS frame with a header block of one octet makes `process()`
dereference an error value; one with the PRIORITY flag and an empty payload, or a WINDOW_UPDATE frame of
one octet, is read out of bounds. A handler that throws something other than a `std::exception` ends
`process()` with an exception. -/
theorem C47_refuted :
    (init 0 0).process exCfg (exEnv (preface ++ [0, 0, 1, 1, 5, 0, 0, 0, 1, 0xff]) []) =
      .ub .derefError ∧
    (init 0 0).process exCfg (exEnv (preface ++ [0, 0, 0, 1, 0x25, 0, 0, 0, 1]) []) = .ub .subspan ∧
    (init 0 0).process exCfg (exEnv (preface ++ [0, 0, 1, 8, 0, 0, 0, 0, 0, 1]) []) = .ub .subspan ∧
    (init () 0).process { getHandler := fun _ _ => fun _ w => (.otherExn, w) }
      (exEnv (preface ++ exGet) []) = .err .escaped :=
  ⟨of_ending.1 _ (by decide +kernel), of_ending.1 _ (by decide +kernel),
    of_ending.1 _ (by decide +kernel), of_ending.2 _ (by decide +kernel)⟩

theorem encodeHeader_wf {ε : Type} {sgn : Bool} {t t' : DynTable} {h : Header} {w : Bytes}
    (hwf : t.WF) (he : (encodeHeader sgn t h : Outcome ε _) = .ok (w, t')) : t'.WF := by
  obtain ⟨t1, h1, h2, -⟩ := DynTable.insert_spec (ε := ε) t h hwf
  have tail : ∀ g : Bytes → Bytes, ((do
      let v ← writeLengthAndString sgn h.value
      let t ← t.insert h
      .ok (g v, t)) : Outcome ε (Bytes × DynTable)) = .ok (w, t') → t'.WF := by
    intro g hg
    obtain ⟨v, -, hg⟩ := Outcome.bind_eq_ok.mp hg
    rw [h1] at hg
    cases hg
    exact h2
  unfold encodeHeader at he
  split at he
  · cases he; exact hwf
  · split at he
    · cases he; exact hwf
    · split at he
      · exact tail _ he
      · split at he
        · exact tail _ he
        · obtain ⟨n, -, he⟩ := Outcome.bind_eq_ok.mp he
          exact tail (fun v => 0x40 :: (n ++ v)) he

theorem encodeBlock_wf {ε : Type} {sgn : Bool} : ∀ {hs : List Header} {t t' : DynTable} {w : Bytes},
    t.WF → (encodeBlock sgn t hs : Outcome ε _) = .ok (w, t') → t'.WF
  | [], t, t', w, hwf, he => by cases he; exact hwf
  | h :: hs, t, t', w, hwf, he => by
    rw [encodeBlock] at he
    obtain ⟨⟨b, t1⟩, h1, he⟩ := Outcome.bind_eq_ok.mp he
    obtain ⟨⟨bs, t2⟩, h2, he⟩ := Outcome.bind_eq_ok.mp he
    cases he
    exact encodeBlock_wf (encodeHeader_wf hwf h1) h2

/-- The tables of a connection that has not ended are well formed. -/
theorem Steps.tables {cfg : Cfg W} {c : Bool} {w : W} {now : Nat} {s : Sim W}
    (h : Steps cfg c (init w now) s) : Ended s.st ∨ (s.dec.WF ∧ s.enc.WF) := by
  refine Steps.inv (P := fun s => Ended s.st ∨ (s.dec.WF ∧ s.enc.WF)) ?_ h
    (.inr ⟨⟨rfl, Nat.zero_le _⟩, ⟨rfl, Nat.zero_le _⟩⟩)
  intro b s t _ st hs
  rcases hs with hs | ⟨hd, he⟩
  · exact .inl (st.ended hs).1
  · cases st with
    | frame _ s1 hst hdr hh hl hr hw ha =>
      cases ha with
      | badHeaders block e dec' ht hb hdd => exact .inl (.inr (.inl rfl))
      | request data hs dec' resp evs w' block enc' ht hb hdd hr he' =>
        obtain ⟨-, -, -, hwf⟩ := C13_decode_sound _ _ hd _ _ hdd
        exact .inr ⟨hwf, encodeBlock_wf he he'⟩
      | _ => exact .inr ⟨hd, he⟩
    | readFailed _ e =>
      cases e <;> exact .inr ⟨hd, he⟩
    | _ => exact .inr ⟨hd, he⟩

/-- An indexed field or literal with an unreadable leading integer follows the first fields of the
block. -/
def BadBlock (block : Bytes) : Prop :=
  ∃ reps w r, block = w ++ r ∧ BlockWire Dialect.lenient reps w ∧ BadIndexField r

/-- The header block of a HEADERS frame, as ion takes it: the payload, without the five octets of
priority information if flag 0x20 is set. -/
def blockOf (f : Frame) : Bytes := if f.flags &&& 0x20 = 0 then f.payload else f.payload.drop 5

/-- A frame free of the defects of C17 and C24. -/
def Safe (f : Frame) : Prop :=
  (f.type = 8 → 4 ≤ f.payload.length) ∧
  (f.type = 1 → (f.flags &&& 0x20 ≠ 0 → 5 ≤ f.payload.length) ∧ ¬ BadBlock (blockOf f))

/-- The condition of C21 on a header. -/
def Plain (sgn : Bool) (h : Header) : Prop :=
  ∀ x ∈ [h.name, h.value], sgn = false ∨ x.length ≤ 3 ∨ ∀ c ∈ x, c.toNat < 128

/-- Handlers return responses with headers that can be encoded, or throw a `std::exception`. -/
def GoodApp (cfg : Cfg W) : Prop :=
  ∀ path method req w,
    (∃ r, (cfg.getHandler path method req w).1 = .resp r ∧ ∀ h ∈ r.headers, Plain cfg.charSigned h) ∨
      (cfg.getHandler path method req w).1 = .stdExn

theorem encodeBlock_defined {ε : Type} {sgn : Bool} {hs : List Header} {t : DynTable}
    (h : ∀ x ∈ hs, Plain sgn x) (hwf : t.WF) :
    ∃ x, (encodeBlock sgn t hs : Outcome ε (Bytes × DynTable)) = .ok x := by
  induction hs generalizing t with
  | nil => exact ⟨_, rfl⟩
  | cons x xs ih =>
    obtain ⟨wn, hwn⟩ := writeLengthAndString_no_ub (ε := ε) sgn x.name (h x (by simp) _ (by simp))
    obtain ⟨wv, hwv⟩ := writeLengthAndString_no_ub (ε := ε) sgn x.value (h x (by simp) _ (by simp))
    obtain ⟨t', hins, hwf', -⟩ := DynTable.insert_spec (ε := ε) t x hwf
    have h1 : ∃ y, (encodeHeader sgn t x : Outcome ε (Bytes × DynTable)) = .ok y := by
      unfold encodeHeader
      split
      · exact ⟨_, rfl⟩
      · split
        · exact ⟨_, rfl⟩
        · split
          · exact ⟨_, by simp only [hwv, hins, Outcome.bind_ok]; rfl⟩
          · split
            · exact ⟨_, by simp only [hwv, hins, Outcome.bind_ok]; rfl⟩
            · exact ⟨_, by simp only [hwn, hwv, hins, Outcome.bind_ok]; rfl⟩
    obtain ⟨⟨b, t1⟩, g1⟩ := h1
    obtain ⟨⟨bs, t2⟩, g2⟩ := ih (fun y hy => h y (by simp [hy])) (encodeHeader_wf hwf g1)
    exact ⟨(b ++ bs, t2), by simp [encodeBlock, g1, g2]⟩

theorem decimal_plain (sgn : Bool) (name : Bytes) (hn : sgn = false ∨ name.length ≤ 3 ∨
    ∀ c ∈ name, c.toNat < 128) (n : Nat) : Plain sgn ⟨name, decimal n⟩ := by
  intro x hx
  simp only [List.mem_cons, List.not_mem_nil, or_false] at hx
  rcases hx with rfl | rfl
  · exact hn
  · exact .inr (.inr fun c hc => by have := (decimal_spec n).2.1 c hc; omega)

theorem finishResponse_plain {sgn : Bool} {r : HttpResponse} (h : ∀ x ∈ r.headers, Plain sgn x) :
    ∀ x ∈ (finishResponse r).headers, Plain sgn x := by
  have h1 : Plain sgn ⟨b!":status", decimal r.status.toNat⟩ :=
    decimal_plain sgn _ (.inr (.inr (by decide +kernel))) _
  have h2 : Plain sgn ⟨b!"content-length", decimal r.body.length⟩ :=
    decimal_plain sgn _ (.inr (.inr (by decide +kernel))) _
  have h3 : Plain sgn ⟨b!"server", serverHeader⟩ := by
    intro x hx; right; right; revert x; decide +kernel
  have h4 : Plain sgn ⟨b!"x-powered-by", serverHeader⟩ := by
    intro x hx; right; right; revert x; decide +kernel
  intro x hx
  simp only [finishResponse] at hx
  split at hx
  · simp only [List.mem_append, List.mem_cons, List.not_mem_nil, or_false] at hx
    rcases hx with (((rfl | hx) | rfl) | rfl) | rfl
    · exact h1
    · exact h x hx
    · exact h2
    · exact h3
    · exact h4
  · simp only [List.mem_append, List.mem_cons, List.not_mem_nil, or_false] at hx
    rcases hx with ((rfl | hx) | rfl) | rfl
    · exact h1
    · exact h x hx
    · exact h3
    · exact h4

theorem answerRequest_defined {cfg : Cfg W} (happ : GoodApp cfg) {s : Sim W} (hwf : s.enc.WF)
    (sid : UInt32) (hs : List Header) : ∃ s', answerRequest cfg s sid hs = .ok s' := by
  have fin : ∀ (resp : HttpResponse) (s1 : Sim W), (∀ x ∈ resp.headers, Plain cfg.charSigned x) →
      s1.enc = s.enc → processRequest cfg s hs = .ok (resp, s1) →
      ∃ s', answerRequest cfg s sid hs = .ok s' := by
    intro resp s1 h1 h2 h3
    obtain ⟨⟨b, t⟩, hx⟩ := encodeBlock_defined (ε := Stop) h1 hwf
    exact ⟨_, by simp only [answerRequest, h3, Outcome.bind_ok, h2, hx]; rfl⟩
  cases hp : getHeader hs b!":path" with
  | none => exact fin { status := 400 } s (by simp) rfl (by simp [processRequest, hp])
  | some path =>
    cases hm : getHeader hs b!":method" with
    | none => exact fin { status := 400 } s (by simp) rfl (by simp [processRequest, hm])
    | some method =>
      have ha := happ path method ⟨method, path, hs⟩ s.world
      rcases hh : cfg.getHandler path method ⟨method, path, hs⟩ s.world with ⟨o, w'⟩
      rw [hh] at ha
      rcases ha with ⟨r, rfl, hr⟩ | rfl
      · exact fin (finishResponse r) ({ s with world := w' }.emit (.handled ⟨method, path, hs⟩ (.resp r)))
          (finishResponse_plain hr) rfl (by simp only [processRequest, hp, hm, hh])
      · exact fin (finishResponse { status := 500 })
          ({ s with world := w' }.emit (.handled ⟨method, path, hs⟩ .stdExn))
          (finishResponse_plain (by simp)) rfl (by simp only [processRequest, hp, hm, hh])

theorem processFrame_defined {cfg : Cfg W} (happ : GoodApp cfg) {s : Sim W} (hd : s.dec.WF)
    (he : s.enc.WF) {f : FrameReader} (hsafe : Safe (asFrame f)) :
    ∃ s', processFrame cfg s f = .ok s' := by
  obtain ⟨h8, h1⟩ := hsafe
  unfold processFrame
  split
  · split
    · exact ⟨_, rfl⟩
    · split
      · exact ⟨_, rfl⟩
      · rename_i u hu; exact absurd hu ((C24_in_bounds_partial f).1 u)
      · exact ⟨_, rfl⟩
  · split
    · rename_i ht
      obtain ⟨h5, hb⟩ := h1 ht
      have hblk : (f.headersBlock : Outcome Stop Bytes) = .ok (blockOf (asFrame f)) := by
        unfold FrameReader.headersBlock FrameReader.priority FrameReader.hasFlag blockOf
        simp only [asFrame] at h5 ⊢
        by_cases hp : f.header.flags &&& 0x20 = 0
        · simp [hp]
        · have := h5 hp
          simp [hp]
          omega
      rw [hblk, Outcome.bind_ok]
      split
      · rename_i u hu
        obtain ⟨-, reps, w, r, out, T, hr, hw, -, hbad⟩ := (C17_ub_exact _ hd _ u).mp hu
        exact absurd ⟨reps, w, r, hr, hw, hbad⟩ hb
      · exact ⟨_, rfl⟩
      · rename_i hs dec' _
        exact answerRequest_defined happ (s := { s with dec := dec' }) he _ _
    · split
      · rename_i ht
        have := h8 ht
        simp only [asFrame] at this
        unfold FrameReader.readWindowUpdate WindowUpdate.parse
        match hp : f.payload, this with
        | a :: b :: c :: d :: rest, _ => exact ⟨_, by simp; rfl⟩
      · split <;> exact ⟨_, rfl⟩

/-- The states at the start of the iterations of a call. -/
inductive Loops (cfg : Cfg W) : Sim W → Sim W → Prop
  | refl (s : Sim W) : Loops cfg s s
  | step {s t u : Sim W} (h : s.iter cfg = .ok (none, t)) (ht : Loops cfg t u) : Loops cfg s u

theorem Loops.steps {cfg : Cfg W} {s t : Sim W} (h : Loops cfg s t) :
    Steps cfg false s t ∧ t.offered = s.offered := by
  induction h with
  | refl s => exact ⟨.refl s, rfl⟩
  | step h _ ih =>
    rcases iter_steps cfg h with ⟨-, k⟩ | ⟨x, s2, k, -⟩
    · exact ⟨k.trans ih.1, ih.2.trans (iter_keeps h).1⟩
    · cases k

/-- In this call, no write reports more octets written than it was given. -/
def Honest (cfg : Cfg W) (env : Env) (s : Sim W) : Prop :=
  ∀ s1, Loops cfg { s with hs := env.hs, reads := env.reads, writes := env.writes } s1 →
    s1.wbuf ≠ [] → ∀ n t, s1.writes.head? = some (.wrote n t) → n ≤ s1.wbuf.length

theorem loop_fails {cfg : Cfg W} (n : Nat) : ∀ s : Sim W, (∀ x, s.loop cfg n ≠ .ok x) →
    s.loop cfg n = .err .fuel ∨ ∃ s1, Loops cfg s s1 ∧ ∀ x, s1.iter cfg ≠ .ok x := by
  induction n with
  | zero => intro s _; exact .inl rfl
  | succ n ih =>
    intro s h
    rw [loop] at h ⊢
    cases hi : s.iter cfg with
    | ub u => exact .inr ⟨s, .refl s, by simp [hi]⟩
    | err e => exact .inr ⟨s, .refl s, by simp [hi]⟩
    | ok x =>
      obtain ⟨r, t⟩ := x
      rw [hi] at h
      cases r with
      | some r => exact absurd rfl (h (r, t))
      | none =>
        simp only [Outcome.bind_ok] at h ⊢
        rcases ih t h with k | ⟨s1, k1, k2⟩
        · exact .inl k
        · exact .inr ⟨s1, .step hi k1, k2⟩

/-- C47, what does hold: `process()` returns, without undefined behaviour or an exception, provided the
frames received so far or in this call are free of the defects of C17 and C24, the application is free
of the defects of C21 and throws only `std::exception`s, and the transport does not claim to have
written more than it was given. Missing from C47: exactly those defects. -/
theorem C47_defined_partial {cfg : Cfg W} {w : W} {now : Nat} {s : Sim W} {env : Env}
    (hu : InUse cfg w now s) (hon : Honest cfg env s) (happ : GoodApp cfg)
    (hsafe : ∀ fs v rest, received s.trace ++ pending env.reads = preface ++ (v ++ rest) →
      FramesWire fs v → (∀ f ∈ fs, f.payload.length ≤ 16384) → ∀ f ∈ fs, Safe f) :
    ∃ r s', s.process cfg env = .ok (r, s') := by
  cases hp : s.process cfg env with
  | ok x => exact ⟨x.1, x.2, rfl⟩
  | _ =>
    exfalso
    have hnl : ∀ x, loop cfg
        { s with hs := env.hs, reads := env.reads, writes := env.writes : Sim W }.budget
        { s with hs := env.hs, reads := env.reads, writes := env.writes } ≠ .ok x := by
      intro x hx
      simp [process, hx] at hp
    rcases loop_fails _ _ hnl with h | ⟨s1, h1, h2⟩
    · exact (loop_enough (cfg := cfg) _ _ 0 (Nat.le_refl _)).1 h
    · obtain ⟨hs1, ho1⟩ := h1.steps
      rcases iter_fails h2 with ⟨n, t, k1, k2, k3⟩ | ⟨s2, k1, k2, hst, hd, hh, hsz, hl, hf⟩
      · have := hon s1 h1 k1 n t k2
        omega
      · have hsteps : Steps cfg false (init w now) s2 :=
          (hu.steps.trans ((Steps.one (.env s env)).trans hs1)).trans k1
        obtain ⟨passed, evs, post, i⟩ := Inv.steps hsteps (Inv.init cfg w false now)
        have hps : passed = true := by
          cases passed with
          | true => rfl
          | false => exact absurd hst (by simpa using i.state)
        subst hps
        have hr := i.recv
        rw [if_pos rfl] at hr
        obtain ⟨v, hv, hr⟩ := hr
        obtain ⟨g1, g2⟩ := hh.wire hl
        have e : received s.trace ++ pending env.reads =
            preface ++ ((v ++ s2.rbuf.take (9 + hd.length.toNat)) ++
              (s2.rbuf.drop (9 + hd.length.toNat) ++ pending s2.reads)) := by
          have : s2.offered = received s.trace ++ pending env.reads := k2.trans ho1
          rw [← this, offered, hr]
          rw [List.append_assoc, List.append_assoc, List.append_assoc, ← List.append_assoc (s2.rbuf.take _),
            List.take_append_drop]
        have hsf := hsafe _ _ _ e (hv.snoc g1) (by
          intro f hf
          simp only [List.mem_append, List.mem_map, List.mem_singleton] at hf
          rcases hf with ⟨f, hf, rfl⟩ | rfl
          · exact (i.sizes f hf).1
          · simp only [asFrame, g2]; exact hsz) _ (List.mem_append_right _ (List.mem_singleton.mpr rfl))
        rcases hsteps.tables with he | ⟨hd', he⟩
        · simp [Ended, hst] at he
        · obtain ⟨s', hs'⟩ := processFrame_defined happ (s := { s2 with trace := s2.trace ++
            [.frame ⟨hd, (s2.rbuf.drop 9).take hd.length.toNat⟩] }) hd' he hsf
          exact hf s' hs'

/-- Checks the writes of one call. -/
def honest (cfg : Cfg W) : Nat → Sim W → Bool
  | 0, _ => false
  | n + 1, s =>
    (match s.writes.head? with
      | some (.wrote k _) => s.wbuf.isEmpty || decide (k ≤ s.wbuf.length)
      | _ => true) &&
    (match s.iter cfg with
      | .ok (none, t) => honest cfg n t
      | _ => true)

theorem honest_loops {cfg : Cfg W} {s t : Sim W} (h : Loops cfg s t) : ∀ n, honest cfg n s = true →
    t.wbuf ≠ [] → ∀ k u, t.writes.head? = some (.wrote k u) → k ≤ t.wbuf.length := by
  induction h with
  | refl s =>
    intro n hn hw k u hk
    cases n with
    | zero => cases hn
    | succ n =>
      simp only [honest, hk, Bool.and_eq_true, Bool.or_eq_true, List.isEmpty_iff,
        decide_eq_true_eq] at hn
      exact hn.1.resolve_left hw
  | step h _ ih =>
    intro n hn
    cases n with
    | zero => cases hn
    | succ n =>
      simp only [honest, h, Bool.and_eq_true] at hn
      exact ih n hn.2

/-- A client that sends the preface, SETTINGS and a request, meets the hypotheses. -/
example : ∃ r s, (init 0 0).process exCfg (exEnv (preface ++ (exSettings ++ exGet)) [36]) = .ok (r, s) := by
  refine C47_defined_partial (w := 0) (now := 0) .new ?_ ?_ ?_
  · exact fun s1 h => honest_loops h 5 (by decide +kernel)
  · exact fun _ _ _ _ => .inl ⟨_, rfl, by simp⟩
  · intro fs v rest e hv hsz f hf
    have e : v ++ rest = (exSettings ++ (exGet ++ [])) ++ [] := by
      have : preface ++ (exSettings ++ exGet) = preface ++ (v ++ rest) := by
        simpa [init, received, exEnv, pending] using e
      simpa using (List.append_cancel_left this).symm
    have hw : FramesWire [⟨4, 0, 0, []⟩, ⟨1, 5, 1, [0x82, 0x84]⟩] (exSettings ++ (exGet ++ [])) :=
      .cons _ _ _ _ ⟨[0, 0, 0], [0, 0, 0, 0], rfl, rfl, rfl, rfl, rfl⟩
        (.cons _ _ _ _ ⟨[0, 0, 2], [0, 0, 0, 1], rfl, rfl, rfl, rfl, rfl⟩ .nil)
    have := (hv.prefix hw e (.inl (by decide))).subset hf
    simp only [List.mem_cons, List.not_mem_nil, or_false] at this
    rcases this with rfl | rfl
    · exact ⟨by decide, fun h => absurd h (by decide)⟩
    · refine ⟨by decide, fun _ => ⟨fun h => absurd h (by decide), ?_⟩⟩
      rintro ⟨reps, w, r, hb, -, b, r', rfl, h⟩
      have hi : ∀ b : UInt8, b = 0x82 ∨ b = 0x84 → HasInt 7 (b :: r') := by
        rintro b (rfl | rfl)
        · exact ⟨1, 2, [0x82], r', rfl, .short _ (by decide) (by decide), by decide, by decide⟩
        · exact ⟨1, 4, [0x84], r', rfl, .short _ (by decide) (by decide), by decide, by decide⟩
      have hm : b ∈ blockOf ⟨1, 5, 1, [0x82, 0x84]⟩ := by rw [hb]; simp
      have hm : b = 0x82 ∨ b = 0x84 := by
        rw [show blockOf ⟨1, 5, 1, [0x82, 0x84]⟩ = [0x82, 0x84] from rfl] at hm
        simpa using hm
      rcases h with ⟨-, h⟩ | ⟨-, h, -⟩ | ⟨h, -⟩
      · exact h (hi b hm)
      · rcases hm with rfl | rfl <;> exact absurd h (by decide)
      · rcases hm with rfl | rfl <;> exact absurd h (by decide)

/-! ### C48 -/

/-- The clock value of the last progress event of a trace: a completed handshake, a successful read or
a successful write. -/
def lastProgress (start : Nat) : List Ev → Nat
  | [] => start
  | .handshake t :: es => lastProgress t es
  | .read _ t :: es => lastProgress t es
  | .write _ (.wrote _ t) :: es => lastProgress t es
  | _ :: es => lastProgress start es

theorem lastProgress_append (start : Nat) (a b : List Ev) :
    lastProgress start (a ++ b) = lastProgress (lastProgress start a) b := by
  induction a generalizing start with
  | nil => rfl
  | cons e a ih =>
    cases e with
    | write x r => cases r <;> simp [lastProgress, ih]
    | _ => simp [lastProgress, ih]

theorem lastProgress_quiet (start : Nat) {evs : List Ev} (h : ∀ e ∈ evs, AnsEv e) :
    lastProgress start evs = start := by
  induction evs with
  | nil => rfl
  | cons e evs ih =>
    have h1 := h e (by simp)
    have h2 := ih fun x hx => h x (by simp [hx])
    cases e <;> simp [AnsEv] at h1 <;> simp [lastProgress, h2]

theorem lastProgress_enqueues (start : Nat) (cs : List Bytes) :
    lastProgress start (cs.map Ev.enqueue) = start := by
  induction cs with
  | nil => rfl
  | cons c cs ih => simpa [lastProgress] using ih

theorem Steps.last {cfg : Cfg W} {c : Bool} {w : W} {now : Nat} {s : Sim W}
    (h : Steps cfg c (init w now) s) : s.last = lastProgress now s.trace := by
  refine Steps.inv (P := fun s => s.last = lastProgress now s.trace) ?_ h rfl
  intro b s t _ st hs
  cases st with
  | frame _ s1 hst hd hh hl hr hw ha =>
    obtain ⟨evs, e1, e2⟩ := ha.events
    have := ha.rbuf.2.1
    simp only at this e1 ⊢
    rw [this, e1, lastProgress_append, lastProgress_append, ← hs, lastProgress_quiet _ e2]
    rfl
  | readFailed _ e =>
    cases e <;> simp [Sim.readFailed, emit, updateState, lastProgress_append, ← hs, lastProgress]
  | preface =>
    simp [enq, emit, lastProgress_append, lastProgress, lastProgress_enqueues, hs]
  | close =>
    simp [enq, lastProgress_append, lastProgress_enqueues, hs]
  | writeFailed _ ws e => simp [lastProgress_append, lastProgress, hs]
  | _ => simp [lastProgress_append, lastProgress, hs]

/-- C48: at any point of a connection's life, at any clock value, it counts as timed out exactly if
more than five seconds have passed since the last progress event (or since its creation if there was
none). -/
theorem C48_idle {cfg : Cfg W} {w : W} {now : Nat} {calls : List Call} {s : Sim W}
    (h : run cfg calls (init w now) = .ok s) (t : Nat) :
    hasTimedOut s t = true ↔ lastProgress now s.trace + 5 * 10 ^ 9 < t := by
  rw [← (run_steps cfg calls h).last]
  rw [hasTimedOut, idleTimeout, decide_eq_true_iff]
  omega

/-- A connection that made progress at clock values 1, 2 and 3. -/
example : ∃ calls s, run exCfg calls (init 0 0) = .ok s ∧ lastProgress 0 s.trace = 3 := by
  obtain ⟨calls, s, h1, h2⟩ := Shows.run (cfg := exCfg) (w := 0)
    (e := exEnv (preface ++ exSettings ++ exGet) [36]) (es := [])
    (p := fun s => decide (lastProgress 0 s.trace = 3)) (by decide +kernel)
  exact ⟨calls, s, h1, by simpa using h2⟩

end Sim
end Ion
