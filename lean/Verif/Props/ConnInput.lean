import Verif.Lemmas.ConnExample

/-!
# Properties of what a connection does with its input: C25–C29, C74
-/

namespace Ion
namespace Sim
open Spec
variable {W : Type}

/-! ### C25 -/

/-- C25: whenever two connections with the same application have received the same octets and both
wait for input, they have done the same: however the octets were cut into reads and calls, and however
writes blocked. -/
theorem C25_segmentation (cfg : Cfg W) (w : W) (now1 now2 : Nat) (s1 s2 : Sim W)
    (h1 : Called cfg w now1 .wantRead s1) (h2 : Called cfg w now2 .wantRead s2)
    (h : received s1.trace = received s2.trace) :
    handled s1.trace = handled s2.trace ∧ responses s1.trace = responses s2.trace ∧
      produced s1.trace = produced s2.trace ∧ logs s1.trace = logs s2.trace ∧
      frames s1.trace = frames s2.trace ∧ s1.world = s2.world := by
  obtain ⟨p1, e1, i1, c1⟩ := h1.waiting
  obtain ⟨p2, e2, i2, c2⟩ := h2.waiting
  have hr1 := i1.recv
  have hr2 := i2.recv
  have long : ∀ {p : Bool} {s : Sim W}, p = true →
      (if p then ∃ w, FramesWire ((frames s.trace).map asFrame) w ∧
        received s.trace = Spec.preface ++ (w ++ s.rbuf) else
        frames s.trace = [] ∧ received s.trace = s.rbuf) → 24 ≤ (received s.trace).length := by
    intro p s hp hr
    subst hp
    simp only [if_true] at hr
    obtain ⟨w, -, hr⟩ := hr
    rw [hr, List.length_append, show Spec.preface.length = 24 from rfl]
    omega
  have hp : p1 = p2 ∧ frames s1.trace = frames s2.trace := by
    rcases c1 with ⟨q1, l1⟩ | ⟨q1, -, n1⟩ <;> rcases c2 with ⟨q2, l2⟩ | ⟨q2, -, n2⟩
    · subst q1 q2
      simp only [Bool.false_eq_true, if_false] at hr1 hr2
      exact ⟨rfl, by rw [hr1.1, hr2.1]⟩
    · have := long q2 hr2; rw [h] at l1; omega
    · have := long q1 hr1; rw [h] at this; omega
    · subst q1 q2
      simp only [if_true] at hr1 hr2
      obtain ⟨w1, f1, g1⟩ := hr1
      obtain ⟨w2, f2, g2⟩ := hr2
      rw [g1, g2] at h
      have h' := List.append_cancel_left h
      have := (f1.unique f2 h' n1.waiting n2.waiting).1
      exact ⟨rfl, asFrames_inj (fun f hf => (i1.sizes f hf).2) (fun f hf => (i2.sizes f hf).2) this⟩
  obtain ⟨rfl, hf⟩ := hp
  have hs := i1.served
  rw [hf] at hs
  obtain ⟨-, -, d3, rfl⟩ := hs.det i2.served
  refine ⟨i1.handled.trans i2.handled.symm, i1.responses.trans i2.responses.symm, ?_,
    i1.logs.trans i2.logs.symm, hf, d3⟩
  rw [i1.prod, i2.prod]

/-- Two connections meeting the hypotheses of `C25_segmentation`, one fed at once, one octet by octet
in two calls with a blocked write. -/
example : (∃ r s, Called exCfg 0 0 r s ∧ (r == .wantRead && (handled s.trace).length == 1 &&
      received s.trace == clientPreface ++ exSettings ++ exGet) = true) ∧
    ∃ r s, Called exCfg 0 0 r s ∧ (r == .wantRead && (handled s.trace).length == 1 &&
      received s.trace == clientPreface ++ exSettings ++ exGet) = true :=
  ⟨Shows.called (e := exEnv (clientPreface ++ exSettings ++ exGet) [36, 44]) (es := [])
      (by decide +kernel),
    Shows.called (e := { hs := .done 7, reads := clientPreface.map fun b => .data [b] 8 })
      (es := [{ writes := [.wrote 20 9], reads := [] },
        { writes := [.wrote 7 9], reads := (exSettings ++ exGet).map fun b => .data [b] 10 },
        { writes := [.wrote 9 11, .wrote 42 12] },
        { writes := [.fail .wantReadOrWrite] }, { writes := [.wrote 2 13] }]) (by decide +kernel)⟩

/-! ### C26 -/

/-- C26: whenever a frame is acted on, it and the frames before it are exactly the leading frames of
the octets received so far after the preface. This holds for every sequence of `process()` and
`close()` calls. -/
theorem C26_frames (cfg : Cfg W) (w : W) (now : Nat) (calls : List Call) (s : Sim W)
    (h : run cfg calls (init w now) = .ok s) (pre post : List Ev) (f : FrameReader)
    (ht : s.trace = pre ++ .frame f :: post) :
    ∃ v rest, received pre = Spec.preface ++ (v ++ rest) ∧
      FramesWire ((frames pre ++ [f]).map asFrame) v := by
  have h := run_steps cfg calls h
  have key : Inv cfg w true s ∧ Along (fun pre e => ∀ f, e = .frame f →
      ∃ v rest, received pre = Spec.preface ++ (v ++ rest) ∧
        FramesWire ((frames pre ++ [f]).map asFrame) v) s.trace := by
    refine Steps.inv (P := fun s => Inv cfg w true s ∧ Along (fun pre e => ∀ f, e = .frame f →
      ∃ v rest, received pre = Spec.preface ++ (v ++ rest) ∧
        FramesWire ((frames pre ++ [f]).map asFrame) v) s.trace) ?_ h
      ⟨Inv.init cfg w true now, Along.nil _⟩
    intro b s t hb st ⟨i1, i2⟩
    have j := i1.step hb st
    refine ⟨j, ?_⟩
    obtain ⟨es, he, ha⟩ := st.adds
    cases ha with
    | none => rw [he, List.append_nil]; exact i2
    | frame f evs h hr hev =>
      obtain ⟨passed, evs', post', k⟩ := j
      have hrecv := k.recv
      have hf : frames t.trace = frames s.trace ++ [f] := by
        simp [he, frames, (AnsEv.proj hev).2.2.1]
      cases passed with
      | false =>
        simp only [Bool.false_eq_true, if_false] at hrecv
        rw [hf] at hrecv
        simp at hrecv
      | true =>
        simp only [if_true] at hrecv
        obtain ⟨v, k1, k2⟩ := hrecv
        rw [he]
        refine i2.append ?_
        intro p e q hpq g hg
        cases p with
        | nil =>
          simp only [List.nil_append, List.cons.injEq] at hpq
          obtain ⟨rfl, -⟩ := hpq
          cases hg
          rw [List.append_nil]
          refine ⟨v, t.rbuf, ?_, by rw [← hf]; exact k1⟩
          rw [← k2, he]
          simp [received, (AnsEv.proj hev).1]
        | cons x p =>
          simp only [List.cons_append, List.cons.injEq] at hpq
          have := hev e (by rw [hpq.2]; simp)
          rw [hg] at this
          exact this.elim
    | goaway cs h =>
      rw [he]
      refine i2.append_triv ?_
      intro e hm pre f h
      subst h
      simp at hm
    | preface hs hw =>
      rw [he]
      refine i2.append_triv ?_
      intro e hm pre f h
      subst h
      simp at hm
    | _ => rw [he]; exact i2.snoc fun _ h => by cases h
  exact key.2 pre (.frame f) post ht f rfl

/-- C26, completeness: when a connection waits for input, either the preface is still incomplete, or
everything received after it is the frames acted on followed by the beginning of one more frame. -/
theorem C26_frames_complete (cfg : Cfg W) (w : W) (now : Nat) (s : Sim W)
    (h : Called cfg w now .wantRead s) :
    (frames s.trace = [] ∧ (received s.trace).length < 24) ∨
    ∃ v rest, received s.trace = Spec.preface ++ (v ++ rest) ∧
      FramesWire ((frames s.trace).map asFrame) v ∧ Waiting rest := by
  obtain ⟨p, evs, i, c⟩ := h.waiting
  have hr := i.recv
  rcases c with ⟨rfl, l⟩ | ⟨rfl, -, n⟩
  · simp only [Bool.false_eq_true, if_false] at hr
    exact .inl ⟨hr.1, l⟩
  · simp only [if_true] at hr
    obtain ⟨v, h1, h2⟩ := hr
    exact .inr ⟨v, s.rbuf, h2, h1, n.waiting⟩

/-- A connection that has acted on two frames and waits with the beginning of a third. -/
example : ∃ r s, Called exCfg 0 0 r s ∧
    (r == .wantRead && (frames s.trace).length == 2 && s.rbuf.length == 5) = true :=
  Shows.called (e := exEnv (clientPreface ++ exSettings ++ exGet ++ exGet.take 5) [36, 44]) (es := [])
    (by decide +kernel)

/-! ### C27 -/

/-- C27: if the transport's `read()` keeps within the 16384 octets it is offered, then at every moment
fewer than 65536 octets are received and not yet used. -/
theorem C27_bounded (cfg : Cfg W) (w : W) (now : Nat) (calls : List Call) (s : Sim W)
    (h : run cfg calls (init w now) = .ok s)
    (hl : ∀ bs t, Ev.read bs t ∈ s.trace → bs.length ≤ 16384)
    (pre post : List Ev) (ht : s.trace = pre ++ post) :
    (received pre).length < consumed pre + 65536 := by
  have hs := (run_steps cfg calls h).read_bound
  clear h
  have : ∀ (n : Nat) (pre post : List Ev), pre.length = n → s.trace = pre ++ post →
      (received pre).length < consumed pre + 65536 := by
    intro n
    induction n with
    | zero =>
      intro pre post hn ht
      have : pre = [] := List.length_eq_zero_iff.mp hn
      subst this
      simp [received, consumed]
    | succ n ih =>
      intro pre post hn ht
      have hne : pre ≠ [] := by intro h0; rw [h0] at hn; simp at hn
      have hsplit := List.dropLast_concat_getLast hne
      generalize pre.dropLast = p at hsplit
      generalize pre.getLast hne = e at hsplit
      subst hsplit
      simp only [List.append_assoc, List.singleton_append] at ht
      have h1 := ih p (e :: post) (by simpa using hn) ht
      have h2 := hs p e post ht
      cases e with
      | read bs t =>
        have h3 := h2 bs t rfl
        have h4 := hl bs t (by rw [ht]; simp)
        simp [received, consumed]
        omega
      | _ => simp [received, consumed] <;> omega
  exact this _ pre post rfl ht

/-- C27, no stall: a connection that waits for input buffers fewer than 16393 octets, so the
buffer-full test (49152 octets or more) fails and it will read. -/
theorem C27_no_stall (cfg : Cfg W) (w : W) (now : Nat) (s : Sim W)
    (h : Called cfg w now .wantRead s) :
    (received s.trace).length < consumed s.trace + 16393 := by
  have hb := (h.inUse (by simp)).steps.buffered
  obtain ⟨p, evs, i, c⟩ := h.waiting
  rcases c with ⟨rfl, l⟩ | ⟨rfl, -, n⟩
  · have := consumed s.trace
    omega
  · have := n.length
    omega

/-- A connection whose buffer filled up: reading stopped with 64060 octets buffered, and four
frames of 16000 octets were acted on. -/
example : ∃ r s, Called exCfg 0 0 r s ∧
    (r == .wantRead && (frames s.trace).length == 4 && s.rbuf.length == 0 &&
      s.trace.all (fun e => match e with | .read bs _ => decide (bs.length ≤ 16384) | _ => true)) =
        true :=
  Shows.called (e := ⟨.done 1,
      [.data (clientPreface ++ exData) 2, .data exData 2, .data exData 2, .data exData 2],
      [.wrote 27 2]⟩) (es := []) (by decide +kernel)

/-! ### C28 -/

/-- C28: if the octets received after the preface are frames `fs` followed by a frame header
announcing more than 16384 octets, then only frames among `fs` were acted on, and the connection is
discarded unless output is still waiting to be sent; it never waits for more input. -/
theorem C28_oversized (cfg : Cfg W) (w : W) (now : Nat) (r : ProcRes) (s : Sim W)
    (h : Called cfg w now r s) (fs : List Frame) (v rest : Bytes)
    (hr : received s.trace = Spec.preface ++ (v ++ rest)) (hf : FramesWire fs v)
    (ho : Oversized rest) :
    (frames s.trace).map asFrame <+: fs ∧
      (r = .discard ∨ (r = .wantWrite ∧ accepted s.trace ≠ produced s.trace)) := by
  have first : (frames s.trace).map asFrame <+: fs := by
    obtain ⟨p, evs, post, i⟩ := h.inv
    have hrecv := i.recv
    cases p with
    | false =>
      simp only [Bool.false_eq_true, if_false] at hrecv
      rw [hrecv.1]
      exact List.nil_prefix
    | true =>
      simp only [if_true] at hrecv
      obtain ⟨v', h1, h2⟩ := hrecv
      rw [hr] at h2
      refine h1.prefix_oversized ?_ hf (List.append_cancel_left h2).symm ho
      intro f hf
      obtain ⟨g, hg, rfl⟩ := List.mem_map.mp hf
      exact (i.sizes g hg).1
  refine ⟨first, ?_⟩
  cases r with
  | discard => exact .inl rfl
  | wantWrite =>
    refine .inr ⟨rfl, ?_⟩
    obtain ⟨p, evs, post, i⟩ := h.inv
    obtain ⟨s1, s2, -, k2, k3⟩ := h.elim
    rcases k2 with ⟨rfl, k2⟩ | ⟨k2, -⟩
    · intro he
      have hacc := i.acc
      rw [he] at hacc
      have : s.wbuf = [] := by
        have := congrArg List.length hacc
        simp at this
        exact this
      rw [k3] at this
      exact k2 this
    · cases k2
  | wantRead =>
    exfalso
    obtain ⟨p, evs, i, c⟩ := h.waiting
    have hrecv := i.recv
    rcases c with ⟨rfl, l⟩ | ⟨rfl, -, n⟩
    · rw [hr, List.length_append, show Spec.preface.length = 24 from rfl] at l
      omega
    · simp only [if_true] at hrecv
      obtain ⟨v', h1, h2⟩ := hrecv
      rw [hr] at h2
      refine h1.oversized_not_waiting ?_ hf (List.append_cancel_left h2).symm ho n.waiting
      intro f hf
      obtain ⟨g, hg, rfl⟩ := List.mem_map.mp hf
      exact (i.sizes g hg).1

/-- A connection that received a SETTINGS frame, an oversized frame and a request. -/
example : (∃ r s, Called exCfg 0 0 r s ∧ (r == .discard && (frames s.trace).length == 1 &&
      received s.trace == Spec.preface ++ (exSettings ++ (exBig ++ exGet))) = true) ∧
    Oversized (exBig ++ exGet) ∧ FramesWire [⟨4, 0, 0, []⟩] exSettings :=
  ⟨Shows.called (e := exEnv (clientPreface ++ exSettings ++ exBig ++ exGet) [36]) (es := [])
      (by decide +kernel),
    ⟨[0, 64, 1], [0, 0, 0, 0, 0, 1] ++ exGet, rfl, rfl, by decide, by decide⟩,
    .one ⟨[0, 0, 0], [0, 0, 0, 0], rfl, rfl, rfl, rfl, rfl⟩⟩

/-! ### C29 -/

/-- C29: as long as what was received does not begin with the whole preface, no frame is acted on, no
handler called and nothing written; if it cannot become one (24 octets were received) the connection
is discarded. -/
theorem C29_preface_gate (cfg : Cfg W) (w : W) (now : Nat) (r : ProcRes) (s : Sim W)
    (h : Called cfg w now r s) (hp : ¬ Spec.preface <+: received s.trace) :
    frames s.trace = [] ∧ handled s.trace = [] ∧ writeAttempts s.trace = [] ∧
      (24 ≤ (received s.trace).length → r = .discard) := by
  obtain ⟨s1, s2, k1, k2, k3⟩ := h.elim
  obtain ⟨p, evs, post, i⟩ := Inv.steps k1 (Inv.init cfg w false now)
  have htr : received s.trace = received s1.trace ∧ frames s.trace = frames s1.trace ∧
      handled s.trace = handled s1.trace ∧ writeAttempts s.trace = writeAttempts s1.trace := by
    rcases k2 with ⟨rfl, -⟩ | ⟨-, -, -, rfl⟩ <;> subst k3 <;>
      simp [enq, received, frames, handled, writeAttempts]
  obtain ⟨t1, t2, t3, t4⟩ := htr
  have hrecv := i.recv
  cases p with
  | true =>
    simp only [if_true] at hrecv
    obtain ⟨v, -, h2⟩ := hrecv
    exact absurd ⟨_, (t1.trans h2).symm⟩ hp
  | false =>
    simp only [Bool.false_eq_true, if_false] at hrecv
    have hserved := i.served
    rw [hrecv.1] at hserved
    have hev := (hserved.det .nil).2.2.2
    have hh := i.handled
    rw [hev] at hh
    refine ⟨t2.trans hrecv.1, t3.trans hh, t4.trans (i.silent rfl rfl), ?_⟩
    intro hl
    rw [t1, hrecv.2] at hl
    rcases k2 with ⟨rfl, k⟩ | ⟨k, -⟩
    · cases r with
      | discard => rfl
      | wantRead =>
        exfalso
        rcases k with k | ⟨-, k, -⟩ | ⟨k, -⟩
        · rw [i.hs k] at hl; simp at hl
        · omega
        · have := i.state; simp [k] at this
      | wantWrite =>
        exfalso
        have h1 := i.prod
        rw [i.acc, hev, i.post_plain rfl] at h1
        simp [produced] at h1
        exact k h1.2
    · exact k

/-- A connection that received 24 wrong octets, and one that has received too few. -/
example : (∃ r s, Called exCfg 0 0 r s ∧ (r == .discard && (received s.trace).length == 27 &&
      !(Spec.preface.isPrefixOf (received s.trace))) = true) ∧
    ∃ r s, Called exCfg 0 0 r s ∧ (r == .wantRead && (received s.trace).length == 23 &&
      !(Spec.preface.isPrefixOf (received s.trace))) = true :=
  ⟨Shows.called (e := exEnv b!"GET / HTTP/1.1\r\nHost: x\r\n\r\n" []) (es := []) (by decide +kernel),
    Shows.called (e := exEnv (clientPreface.take 23) []) (es := []) (by decide +kernel)⟩

/-! ### C74 -/

/-- C74: when a connection whose handshake is done waits for input, the transport itself had reported
that it had nothing more (or an error) at its last `read()`, and nothing was read after that. So no
received octet is left behind in the transport, where no poll event would announce it. -/
theorem C74_drained (cfg : Cfg W) (w : W) (now : Nat) (s : Sim W)
    (h : Called cfg w now .wantRead s) (hs : s.st ≠ .awaitingHandshake) :
    ∃ pre e post, s.trace = pre ++ .readFail e :: post ∧ received post = [] ∧ frames post = [] ∧
      handled post = [] ∧ writeAttempts post = [] := by
  obtain ⟨s1, s2, -, k2, k3⟩ := h.elim
  rcases k2 with ⟨rfl, k⟩ | ⟨k, -⟩
  · have hd : Drained s2.trace := by
      rcases k with k | ⟨-, -, -, k⟩ | ⟨-, -, -, k⟩
      · rw [k3] at hs; exact absurd k hs
      · exact k
      · exact k
    obtain ⟨pre, e, hd | hd⟩ := hd
    · exact ⟨pre, e, [.returned .wantRead], by rw [k3]; simp [hd], rfl, rfl, rfl, rfl⟩
    · exact ⟨pre, e, .prefaceOk :: settingsChunks.map Ev.enqueue ++ [.returned .wantRead],
        by rw [k3]; simp [hd], rfl, rfl, rfl, rfl⟩
  · cases k

example : ∃ r s, Called exCfg 0 0 r s ∧
    (r == .wantRead && s.st == .awaitingFrame && (handled s.trace).length == 1) = true :=
  Shows.called (e := exEnv (clientPreface ++ exSettings ++ exGet) [36, 44]) (es := [])
    (by decide +kernel)

end Sim
end Ion
