import Verif.Spec.Conform
import Verif.Props.ConnClient
import Verif.Props.ConnFlow
import Verif.Props.ConnSend
import Verif.Props.ConnServe

/-!
# Where a connection departs from RFC 9113, and where it does not: C87–C91
-/

namespace Ion
open Spec

namespace Spec

theorem FramesWire.det {fs fs' : List Frame} {w : Bytes} (h : FramesWire fs w)
    (h' : FramesWire fs' w) : fs = fs' :=
  (h.unique h' rfl (r := []) (.inl (by simp)) (.inl (by simp))).1

theorem Replies.types {ins : List Frame} {rs : List (Nat × Bytes × Bytes)} {outs : List Frame}
    (h : Replies ins rs outs) : ∀ f ∈ outs, f.type = 0 ∨ f.type = 1 ∨ f.type = 4 := by
  induction h with
  | nil => simp
  | settings ins rs outs f h ht hf hl ih =>
    intro g hg
    rcases List.mem_append.mp hg with hg | hg
    · exact ih g hg
    · simp at hg; subst hg; exact .inr (.inr rfl)
  | request ins rs outs f block body ds h ht hd ih =>
    intro g hg
    rcases List.mem_append.mp hg with hg | hg
    · exact ih g hg
    · rcases List.mem_cons.mp hg with rfl | hg
      · exact .inr (.inl rfl)
      · exact .inl (hd.data g hg).1
  | other ins rs outs f h h1 h4 ih => exact ih

theorem Replies.streams {ins : List Frame} {rs : List (Nat × Bytes × Bytes)} {outs : List Frame}
    (h : Replies ins rs outs) : headerStreams outs = headerStreams ins := by
  induction h with
  | nil => rfl
  | settings ins rs outs f h ht hf hl ih =>
    unfold headerStreams at ih ⊢
    simp [List.filter_append, ih, ht]
  | request ins rs outs f block body ds h ht hd ih =>
    have : ds.filter (fun f => f.type == 1) = [] := by
      rw [List.filter_eq_nil_iff]
      intro g hg
      simp [(hd.data g hg).1]
    unfold headerStreams at ih ⊢
    simp [List.filter_append, ih, ht, this]
  | other ins rs outs f h h1 h4 ih =>
    unfold headerStreams at ih ⊢
    simp [List.filter_append, ih, h1]

theorem Replies.fits {ins : List Frame} {rs : List (Nat × Bytes × Bytes)} {outs : List Frame}
    (h : Replies ins rs outs) (hb : ∀ x ∈ rs, x.2.1.length ≤ 16384) : FitsFrameSize outs := by
  induction h with
  | nil => intro f hf; simp at hf
  | settings ins rs outs f h ht hf hl ih =>
    intro g hg
    rcases List.mem_append.mp hg with hg | hg
    · exact ih hb g hg
    · simp at hg; subst hg; simp
  | request ins rs outs f block body ds h ht hd ih =>
    intro g hg
    rcases List.mem_append.mp hg with hg | hg
    · exact ih (fun x hx => hb x (by simp [hx])) g hg
    · rcases List.mem_cons.mp hg with rfl | hg
      · exact hb (f.stream, block, body) (by simp)
      · exact (hd.data g hg).2.2.2
  | other ins rs outs f h h1 h4 ih => exact ih hb

theorem Replies.block_sent {ins : List Frame} {rs : List (Nat × Bytes × Bytes)} {outs : List Frame}
    (h : Replies ins rs outs) : ∀ y ∈ rs, ∃ f ∈ outs, f.payload = y.2.1 := by
  induction h with
  | nil => simp
  | settings ins rs outs f h ht hf hl ih =>
    intro y hy
    obtain ⟨g, hg, he⟩ := ih y hy
    exact ⟨g, by simp [hg], he⟩
  | request ins rs outs f block body ds h ht hd ih =>
    intro y hy
    rcases List.mem_append.mp hy with hy | hy
    · obtain ⟨g, hg, he⟩ := ih y hy
      exact ⟨g, by simp [hg], he⟩
    · simp at hy; subst hy
      exact ⟨_, List.mem_append_right _ List.mem_cons_self, rfl⟩
  | other ins rs outs f h h1 h4 ih => exact ih

theorem ServerPreface.length {f : Frame} (h : ServerPreface f) : f.payload.length = 18 := by
  obtain ⟨-, -, -, h⟩ := h
  have : ∀ l p, SettingsPayload l p → p.length = 6 * l.length := by
    intro l p h
    induction h with
    | nil => rfl
    | cons i v rest wi wv ws hi hv ei ev hs ih => simp [hi, hv, ih]; omega
  exact this _ _ h

/-- Without padding and CONTINUATION frames, ion's reading of HEADERS frames is the RFC's. -/
theorem Serves.rfc {W : Type} {cfg : Cfg W} {w0 w : W} {ins : List Frame}
    {calls : List (HttpRequest × HOut)} {answers : List (Nat × List Header × Bytes)} {T : Table}
    (h : Serves cfg w0 ins calls answers T w)
    (h1 : ∀ f ∈ ins, f.type = 1 → f.flags &&& 8 = 0 ∧ f.flags &&& 4 ≠ 0)
    (h9 : ∀ f ∈ ins, f.type ≠ 9) : ServesRfc cfg w0 ins calls answers T w := by
  have frag : ∀ (f : Frame) block, f.flags &&& 8 = 0 → FieldBlock f block → Fragment f block := by
    intro f block hp hb
    unfold FieldBlock at hb
    by_cases h : f.flags &&& 0x20 = 0
    · rw [if_pos h] at hb
      refine ⟨[], [], [], by simp [hb], ?_, ?_⟩
      · rw [if_pos hp]; exact ⟨rfl, rfl⟩
      · rw [if_pos h]
    · rw [if_neg h] at hb
      obtain ⟨pr, hl, hb⟩ := hb
      refine ⟨[], pr, [], by simp [hb], ?_, ?_⟩
      · rw [if_pos hp]; exact ⟨rfl, rfl⟩
      · rw [if_neg h]; exact hl
  have plain : ∀ b : Nat × Bytes, FieldBlock (plainHeaders b) b.2 := by
    intro b
    unfold FieldBlock
    rw [if_pos (by show (5 : UInt8) &&& 0x20 = 0; decide)]
    rfl
  induction h with
  | nil => exact ⟨[], .nil, .nil⟩
  | request ins calls answers T T' w w' f block fields path method o r out h ht hb hr hp hm hh ho hf ih =>
    obtain ⟨blocks, k1, k2⟩ := ih (fun f hf => h1 f (by simp [hf])) (fun f hf => h9 f (by simp [hf]))
    obtain ⟨m1, m2⟩ := h1 f (by simp) ht
    refine ⟨blocks ++ [(f.stream, block)], .whole _ _ _ _ k1 ht m2 (frag f block m1 hb), ?_⟩
    rw [List.map_append]
    exact Serves.request _ _ _ _ _ _ _ (plainHeaders (f.stream, block)) block fields path method o r out k2 rfl
      (plain _) hr hp hm hh ho hf
  | incomplete ins calls answers T T' w f block fields h ht hb hr hn ih =>
    obtain ⟨blocks, k1, k2⟩ := ih (fun f hf => h1 f (by simp [hf])) (fun f hf => h9 f (by simp [hf]))
    obtain ⟨m1, m2⟩ := h1 f (by simp) ht
    refine ⟨blocks ++ [(f.stream, block)], .whole _ _ _ _ k1 ht m2 (frag f block m1 hb), ?_⟩
    rw [List.map_append]
    exact Serves.incomplete _ _ _ _ _ _ (plainHeaders (f.stream, block)) block fields k2 rfl (plain _) hr hn
  | other ins calls answers T w f h ht hs ih =>
    obtain ⟨blocks, k1, k2⟩ := ih (fun f hf => h1 f (by simp [hf])) (fun f hf => h9 f (by simp [hf]))
    exact ⟨blocks, .other _ _ _ k1 ht (h9 f (by simp)), k2⟩

end Spec

namespace Sim
variable {W : Type}

/-! ### C87 -/

/-- C87, what happens instead: no PING frame is ever produced, so no PING is answered. -/
theorem C87_never (cfg : Cfg W) (w : W) (now : Nat) (r : ProcRes) (s : Sim W)
    (h : Called cfg w now r s) (hb : ∀ x ∈ responses s.trace, x.2.2.length < 2 ^ 24) :
    ∀ outs, FramesWire outs (produced s.trace) → ∀ f ∈ outs, f.type ≠ 6 := by
  intro os hw
  obtain ⟨good, bad, first, outs, extra, h1, h2, h3, h4, h5, h6⟩ := C31_replies cfg w now r s h hb
  rw [hw.det h3]
  intro f hf
  rcases List.mem_append.mp hf with hf | hf
  · rcases List.mem_append.mp hf with hf | hf
    · rcases h4 with ⟨rfl, -⟩ | ⟨g, rfl, hg⟩
      · simp at hf
      · simp at hf; subst hf; rw [hg.1]; decide
    · rcases h2.types f hf with h | h | h <;> rw [h] <;> decide
  · rcases h6 with rfl | ⟨-, g, rfl, hg, -⟩
    · simp at hf
    · simp at hf; subst hf; rw [hg]; decide

/-- A PING frame. -/
def exPing : Bytes := [0, 0, 8, 6, 0, 0, 0, 0, 0, 1, 2, 3, 4, 5, 6, 7, 8]

/-- C87 is false: a PING is acted on, everything produced has been sent, the connection waits for
input, and the answer is not among the frames sent. -/
theorem C87_refuted : ∃ s f, Called exCfg 0 0 .wantRead s ∧ frames s.trace = [f] ∧
    PingRequest (asFrame f) ∧ accepted s.trace = produced s.trace ∧
    ∃ outs, FramesWire outs (accepted s.trace) ∧ pingAnswer (asFrame f) ∉ outs := by
  obtain ⟨r, s, h1, h2⟩ : ∃ r s, Called exCfg 0 0 r s ∧ (r == .wantRead &&
      frames s.trace == [⟨⟨8, 6, 0, 0⟩, [1, 2, 3, 4, 5, 6, 7, 8]⟩] && responses s.trace == [] &&
      accepted s.trace == produced s.trace) = true :=
    Shows.called (e := exEnv (clientPreface ++ exPing) [27]) (es := []) (by decide +kernel)
  simp only [Bool.and_eq_true, beq_iff_eq] at h2
  obtain ⟨⟨⟨rfl, h3⟩, h4⟩, h5⟩ := h2
  have hb : ∀ x ∈ responses s.trace, x.2.2.length < 2 ^ 24 := by rw [h4]; simp
  obtain ⟨good, bad, first, outs, extra, -, -, k, -⟩ := C31_replies _ _ _ _ s h1 hb
  refine ⟨s, _, h1, h3, ⟨rfl, rfl, rfl, rfl⟩, h5, _, by rw [h5]; exact k, ?_⟩
  intro hm
  exact C87_never _ _ _ _ s h1 hb _ k _ hm rfl

/-- C87 for connections that act on no PING that has to be answered: exactly the PINGs without ACK are
answered, namely none; in particular an ACK is not answered. Missing: all others. -/
theorem C87_answered_partial (cfg : Cfg W) (w : W) (now : Nat) (r : ProcRes) (s : Sim W)
    (h : Called cfg w now r s) (hb : ∀ x ∈ responses s.trace, x.2.2.length < 2 ^ 24)
    (hp : ∀ f ∈ (frames s.trace).map asFrame, ¬ PingRequest f) :
    ∀ outs, FramesWire outs (produced s.trace) → ∀ g, g.type = 6 →
      (g ∈ outs ↔ ∃ f ∈ (frames s.trace).map asFrame, PingRequest f ∧ g = pingAnswer f) := by
  intro outs hw g hg
  constructor
  · intro hm; exact absurd hg (C87_never cfg w now r s h hb outs hw g hm)
  · rintro ⟨f, hf, hq, -⟩; exact absurd hq (hp f hf)

/-- A connection that has acted on a PING with ACK. -/
example : ∃ r s, Called exCfg 0 0 r s ∧ (r == .wantRead &&
    frames s.trace == [⟨⟨8, 6, 1, 0⟩, [1, 2, 3, 4, 5, 6, 7, 8]⟩] && responses s.trace == []) = true :=
  Shows.called (e := exEnv (clientPreface ++ [0, 0, 8, 6, 1, 0, 0, 0, 0, 1, 2, 3, 4, 5, 6, 7, 8]) [27]) (es := [])
    (by decide +kernel)

/-! ### C88 -/

/-- C88 is false because of padding: `GET /` in a PADDED HEADERS frame does not reach the handler. -/
theorem C88_refuted_padding : ∃ r s calls answers T w', Called exCfg 0 0 r s ∧
    ServesRfc exCfg 0 ((frames s.trace).map asFrame) calls answers T w' ∧ calls ≠ [] ∧
    handled s.trace = [] := by
  obtain ⟨r, s, h1, h2⟩ : ∃ r s, Called exCfg 0 0 r s ∧ (handled s.trace == [] &&
      frames s.trace == [⟨⟨4, 1, 13, 1⟩, [1, 0x82, 0x84, 0]⟩]) = true :=
    Shows.called (e := exEnv (clientPreface ++ [0, 0, 4, 1, 13, 0, 0, 0, 1, 1, 0x82, 0x84, 0]) [27])
      (es := []) (by decide +kernel)
  obtain ⟨calls, t, k1, k2⟩ := Shows.run (cfg := exCfg) (w := 0)
    (p := fun t => (handled t.trace).length == 1 && frames t.trace == [⟨⟨2, 1, 5, 1⟩, [0x82, 0x84]⟩] &&
      t.st == .awaitingFrame)
    (e := exEnv (clientPreface ++ exGet) [71]) (es := []) (by decide +kernel)
  simp only [Bool.and_eq_true, beq_iff_eq] at h2 k2
  obtain ⟨⟨k2, k3⟩, k4⟩ := k2
  obtain ⟨good, bad, T, m1, m2, m3⟩ := C83_served _ _ _ _ t k1
  have : bad = [] := by
    rcases m3 with m3 | ⟨m3, -⟩
    · exact m3
    · simp [Ended, k4] at m3
  subst this
  rw [List.append_nil] at m1
  rw [← m1, k3] at m2
  refine ⟨r, s, _, _, T, _, h1, ⟨[(1, [0x82, 0x84])], ?_, m2⟩, ?_, h2.1⟩
  · rw [h2.2]
    exact RequestBlocks.whole [] [] ⟨1, 13, 1, [1, 0x82, 0x84, 0]⟩ [0x82, 0x84] .nil rfl (by decide)
      ⟨[1], [], [0], rfl, by decide, by decide⟩
  · intro h; rw [h] at k2; simp at k2

/-- C88 is false because of CONTINUATION frames: `GET /` in a HEADERS frame without END_HEADERS and a
CONTINUATION frame does not reach the handler. -/
theorem C88_refuted_continuation : ∃ s calls answers T w', Called exCfg 0 0 .wantRead s ∧
    ServesRfc exCfg 0 ((frames s.trace).map asFrame) calls answers T w' ∧ calls ≠ [] ∧
    handled s.trace = [] := by
  obtain ⟨r, s, h1, h2⟩ : ∃ r s, Called exCfg 0 0 r s ∧ (r == .wantRead && handled s.trace == [] &&
      frames s.trace == [⟨⟨1, 1, 1, 1⟩, [0x82]⟩, ⟨⟨1, 9, 4, 1⟩, [0x84]⟩]) = true :=
    Shows.called (e := exEnv (clientPreface ++ [0, 0, 1, 1, 1, 0, 0, 0, 1, 0x82] ++
      [0, 0, 1, 9, 4, 0, 0, 0, 1, 0x84]) [36])
      (es := []) (by decide +kernel)
  obtain ⟨calls, t, k1, k2⟩ := Shows.run (cfg := exCfg) (w := 0)
    (p := fun t => (handled t.trace).length == 1 && frames t.trace == [⟨⟨2, 1, 5, 1⟩, [0x82, 0x84]⟩] &&
      t.st == .awaitingFrame)
    (e := exEnv (clientPreface ++ exGet) [71]) (es := []) (by decide +kernel)
  simp only [Bool.and_eq_true, beq_iff_eq] at h2 k2
  obtain ⟨⟨k2, k3⟩, k4⟩ := k2
  obtain ⟨⟨rfl, h2⟩, h3⟩ := h2
  obtain ⟨good, bad, T, m1, m2, m3⟩ := C83_served _ _ _ _ t k1
  have : bad = [] := by
    rcases m3 with m3 | ⟨m3, -⟩
    · exact m3
    · simp [Ended, k4] at m3
  subst this
  rw [List.append_nil] at m1
  rw [← m1, k3] at m2
  refine ⟨s, _, _, T, _, h1, ⟨[(1, [0x82, 0x84])], ?_, m2⟩, ?_, h2⟩
  · rw [h3]
    refine RequestBlocks.split [] [] ⟨1, 1, 1, [0x82]⟩ [0x82] [⟨9, 4, 1, [0x84]⟩] .nil rfl (by decide)
      ⟨[], [], [], rfl, by decide, by decide⟩ ⟨by simp, by simp, ?_⟩
    intro pre c post he
    cases pre with
    | nil => simp at he; obtain ⟨rfl, rfl⟩ := he; decide
    | cons x pre => simp at he
  · intro h; rw [h] at k2; simp at k2

/-- C88 for clients that send neither padded HEADERS frames nor CONTINUATION frames: handler calls and
responses are those of a server that assembles field blocks as the RFC says. Missing: padding and
CONTINUATION. -/
theorem C88_assembled_partial (cfg : Cfg W) (calls : List Call) (w : W) (now : Nat) (s : Sim W)
    (h : run cfg calls (init w now) = .ok s)
    (h1 : ∀ f ∈ (frames s.trace).map asFrame, f.type = 1 → f.flags &&& 8 = 0 ∧ f.flags &&& 4 ≠ 0)
    (h9 : ∀ f ∈ (frames s.trace).map asFrame, f.type ≠ 9) :
    ∃ (good bad : List FrameReader) (T : Table), frames s.trace = good ++ bad ∧
      ServesRfc cfg w (good.map asFrame) (handled s.trace) ((responses s.trace).map asAnswer) T s.world ∧
      (bad = [] ∨ (Ended s.st ∧ ∃ f, bad = [f] ∧ Unacceptable T (asFrame f))) := by
  obtain ⟨good, bad, T, m1, m2, m3⟩ := C83_served cfg calls w now s h
  rw [m1, List.map_append] at h1 h9
  exact ⟨good, bad, T, m1, m2.rfc (fun f hf => h1 f (by simp [List.mem_map.mp hf]))
    (fun f hf => h9 f (by simp [List.mem_map.mp hf])), m3⟩

/-- A HEADERS frame with PRIORITY and one without. -/
example : ∃ calls s, run exCfg calls (init 0 0) = .ok s ∧ ((handled s.trace).length == 2 &&
    ((frames s.trace).map asFrame).all (fun f => f.type == 1 && f.flags &&& 8 == 0 &&
      f.flags &&& 4 != 0) && ((frames s.trace).map asFrame).any fun f => f.flags &&& 0x20 != 0) = true :=
  Shows.run (e := exEnv (clientPreface ++ exGet ++ [0, 0, 7, 1, 0x25, 0, 0, 0, 3, 0, 0, 0, 0, 15, 0x82, 0x84])
    [71, 24]) (es := []) (by decide +kernel)

/-! ### C89 -/

/-- C89 is false: requests on stream 0, on an even stream, and on a stream already used are answered. -/
theorem C89_refuted : ∃ s outs, Called exCfg 0 0 .wantRead s ∧
    FramesWire outs (accepted s.trace) ∧ headerStreams outs = [0, 2, 5, 5, 3] ∧
    ¬ StreamsOk (headerStreams ((frames s.trace).map asFrame)) := by
  obtain ⟨r, s, h1, h2⟩ : ∃ r s, Called exCfg 0 0 r s ∧ (r == .wantRead &&
      headerStreams ((frames s.trace).map asFrame) == [0, 2, 5, 5, 3] &&
      (responses s.trace).all (fun x => decide (x.2.2.length < 2 ^ 24)) &&
      accepted s.trace == produced s.trace) = true :=
    Shows.called (e := exEnv (clientPreface ++ [0, 0, 2, 1, 5, 0, 0, 0, 0, 0x82, 0x84] ++
      [0, 0, 2, 1, 5, 0, 0, 0, 2, 0x82, 0x84] ++ [0, 0, 2, 1, 5, 0, 0, 0, 5, 0x82, 0x84] ++
      [0, 0, 2, 1, 5, 0, 0, 0, 5, 0x82, 0x84] ++ [0, 0, 2, 1, 5, 0, 0, 0, 3, 0x82, 0x84])
      [71, 24, 24, 24, 24]) (es := []) (by decide +kernel)
  simp only [Bool.and_eq_true, beq_iff_eq, List.all_eq_true, decide_eq_true_eq] at h2
  obtain ⟨⟨⟨rfl, h3⟩, h4⟩, h5⟩ := h2
  obtain ⟨good, bad, first, outs, extra, k1, k2, k3, k4, k5, k6⟩ := C31_replies _ _ _ _ s h1 h4
  have e1 : bad = [] := by
    rcases k5 with h | ⟨h, -⟩
    · exact h
    · exact absurd rfl h
  have e2 : extra = [] := by
    rcases k6 with h | ⟨h, -⟩
    · exact h
    · cases h
  subst e1 e2
  rw [List.append_nil] at k1
  refine ⟨s, _, h1, by rw [h5]; exact k3, ?_, ?_⟩
  · rw [k1] at h3
    rcases k4 with ⟨rfl, -⟩ | ⟨f, rfl, hf⟩
    · simpa [k2.streams] using h3
    · have := k2.streams
      rw [h3] at this
      unfold headerStreams at this ⊢
      simp [hf.1, this]
  · rw [h3]
    intro h
    have := h.1 0 (by simp)
    omega

theorem StreamsOk.prefix {a b : List Nat} (h : StreamsOk b) (hp : a <+: b) : StreamsOk a :=
  ⟨fun i hi => h.1 i (hp.subset hi), h.2.sublist hp.sublist⟩

/-- C89, what holds: the streams of the responses are those of the requests acted on, in order, but for
a last one that had to be refused. So for a client whose stream identifiers are odd and increase, each
stream gets at most one response, exactly one once the connection waits for input. Missing: clients that
use other identifiers; they are not refused. -/
theorem C89_streams_partial (cfg : Cfg W) (w : W) (now : Nat) (r : ProcRes) (s : Sim W)
    (h : Called cfg w now r s) (hb : ∀ x ∈ responses s.trace, x.2.2.length < 2 ^ 24)
    (hi : StreamsOk (headerStreams ((frames s.trace).map asFrame))) :
    ∀ outs, FramesWire outs (produced s.trace) → StreamsOk (headerStreams outs) ∧
      headerStreams outs <+: headerStreams ((frames s.trace).map asFrame) ∧
      (r = .wantRead → headerStreams outs = headerStreams ((frames s.trace).map asFrame)) := by
  intro os hw
  obtain ⟨good, bad, first, outs, extra, k1, k2, k3, k4, k5, k6⟩ := C31_replies cfg w now r s h hb
  rw [hw.det k3]
  have e : headerStreams (first ++ outs ++ extra) = headerStreams (good.map asFrame) := by
    have e1 : first.filter (fun f => f.type == 1) = [] := by
      rcases k4 with ⟨rfl, -⟩ | ⟨f, rfl, hf⟩
      · rfl
      · simp [hf.1]
    have e2 : extra.filter (fun f => f.type == 1) = [] := by
      rcases k6 with rfl | ⟨-, g, rfl, hg, -⟩
      · rfl
      · simp [hg]
    rw [← k2.streams]
    unfold headerStreams
    simp [List.filter_append, e1, e2]
  have hp : headerStreams (first ++ outs ++ extra) <+: headerStreams ((frames s.trace).map asFrame) := by
    rw [e, k1]
    unfold headerStreams
    rw [List.map_append, List.filter_append, List.map_append]
    exact List.prefix_append _ _
  refine ⟨StreamsOk.prefix hi hp, hp, ?_⟩
  rintro rfl
  rcases k5 with rfl | ⟨k5, -⟩
  · rw [e, k1, List.append_nil]
  · exact absurd rfl k5

/-- Two requests, on streams 1 and 3. -/
example : ∃ r s, Called exCfg 0 0 r s ∧ (r == .wantRead &&
    headerStreams ((frames s.trace).map asFrame) == [1, 3] &&
    (responses s.trace).all (fun x => decide (x.2.2.length < 2 ^ 24))) = true ∧ StreamsOk [1, 3] :=
  let ⟨r, s, h1, h2⟩ := Shows.called (cfg := exCfg) (w := 0) (p := fun r s => r == .wantRead &&
    headerStreams ((frames s.trace).map asFrame) == [1, 3] &&
    (responses s.trace).all (fun x => decide (x.2.2.length < 2 ^ 24)))
    (e := exEnv (clientPreface ++ exGet ++ [0, 0, 2, 1, 5, 0, 0, 0, 3, 0x82, 0x84]) [71, 24]) (es := [])
    (by decide +kernel)
  ⟨r, s, h1, h2, by decide, by decide⟩

/-! ### C90 -/

theorem encodeBlock_replicate (cs : Bool) (t : DynTable) (h : Header) (b : UInt8)
    (he : (encodeHeader cs t h : Outcome Stop _) = .ok ([b], t)) (hs : List Header) (n : Nat) (w : Bytes) (t' : DynTable)
    (hr : (encodeBlock cs t hs : Outcome Stop _) = .ok (w, t')) :
    (encodeBlock cs t (List.replicate n h ++ hs) : Outcome Stop _) = .ok (List.replicate n b ++ w, t') := by
  induction n with
  | zero => simpa using hr
  | succ n ih =>
    rw [List.replicate_succ, List.cons_append]
    simp only [encodeBlock, he, ih, Outcome.bind_ok]
    rfl


/-- An application that always answers `r`. -/
def exAnswers (r : HttpResponse) : Cfg Nat := { getHandler := fun _ _ => fun _ n => (.resp r, n + 1) }

theorem exAnswers_frame (r : HttpResponse) (hr : r.body = []) (s : Sim Nat) (h1 : s.st = .awaitingFrame)
    (h2 : s.rbuf = exGet) (h4 : s.enc = {}) (h5 : s.dec = {}) (blk : Bytes) (enc : DynTable)
    (hb : (encodeBlock true {} (finishResponse r).headers : Outcome Stop _) = .ok (blk, enc)) :
    ∃ t, tryReadFrame (exAnswers r) s = .ok (true, t) ∧ t.st = .awaitingFrame ∧ t.wbuf ≠ [] ∧
      t.writes = s.writes ∧ responses t.trace = responses s.trace ++ [(1, finishResponse r, blk)] := by
  have hd : decodeBlock ({} : DynTable) [130, 132] =
      .ok [⟨b!":method", b!"GET"⟩, ⟨b!":path", b!"/"⟩] {} := by decide +kernel
  have hfr : (FrameHeader.parse exGet : Outcome Stop _) = .ok ⟨2, 1, 5, 1⟩ := by decide +kernel
  have hp : getHeader [⟨b!":method", b!"GET"⟩, ⟨b!":path", b!"/"⟩] b!":path" = some b!"/" := by decide +kernel
  have hm : getHeader [⟨b!":method", b!"GET"⟩, ⟨b!":path", b!"/"⟩] b!":method" = some b!"GET" := by decide +kernel
  have hl : (FrameReader.headersBlock ⟨⟨2, 1, 5, 1⟩, [130, 132]⟩ : Outcome Stop _) = .ok [130, 132] := by decide +kernel
  have hbody : (finishResponse r).body = [] := hr
  unfold tryReadFrame
  rw [h2, if_neg (by decide), hfr]
  simp only [Outcome.bind_ok]
  rw [if_neg (by decide), if_neg (by decide)]
  have e : ((exGet.drop 9).take (UInt32.toNat 2)) = [130, 132] := by decide
  simp only [e]
  simp only [processFrame]
  rw [if_neg (by decide), if_pos (by decide), hl]
  simp only [Outcome.bind_ok, emit, h5, hd, answerRequest, processRequest, hp, hm, exAnswers, h4, hb, hbody]
  refine ⟨_, rfl, h1, ?_, rfl, ?_⟩
  · simp [writeHeadersResponse, writeFrameHeader, enqueue, discardProcessed, emit]
    simp [FrameHeader.serialize]
  · simp [writeHeadersResponse, writeFrameHeader, enqueue, discardProcessed, emit, responses]
    
theorem exAnswers_process (r : HttpResponse) (hr : r.body = []) (s : Sim Nat) (h1 : s.st = .awaitingFrame) (h2 : s.rbuf = [])
    (h3 : s.wbuf = []) (h4 : s.enc = {}) (h5 : s.dec = {}) (blk : Bytes) (enc : DynTable)
    (hb : (encodeBlock true {} (finishResponse r).headers : Outcome Stop _) = .ok (blk, enc)) :
    ∃ t, process (exAnswers r) (exEnv exGet []) s = .ok (.wantWrite, t) ∧
      responses t.trace = responses s.trace ++ [(1, finishResponse r, blk)] := by
  have hp : process (exAnswers r) (exEnv exGet []) s =
      (loop (exAnswers r) (11 + 1 + 1) { s with hs := .done 1, reads := [.data exGet 2], writes := [] } >>=
        fun x => .ok (x.1, x.2.emit (.returned x.1))) := by
    have hbud : budget { s with hs := .done 1, reads := [.data exGet 2], writes := [] } = 11 + 1 + 1 := by
      simp [budget, h2, available, exGet]
    simp only [process, exEnv, List.map_nil, hbud]
  have hu : ∃ u, u = { s with hs := .done 1, reads := [.data exGet 2], writes := [] } := ⟨_, rfl⟩
  obtain ⟨u, hu⟩ := hu
  rw [← hu] at hp
  have f0 : u.fill = { u with last := 2, reads := [], rbuf := exGet, trace := u.trace ++ [.read exGet 2, .readFail .wantReadOrWrite] } := by
    subst hu
    simp [fill, fillLoop, h2, tempReadBufferSize, maxReadBufferSize, readFailed, emit, exGet]
  have u1 : u.st = .awaitingFrame := by subst hu; exact h1
  have u3 : u.wbuf = [] := by subst hu; exact h3
  have f1 : u.fill.st = .awaitingFrame := by rw [f0]; exact u1
  have f2 : responses u.fill.trace = responses s.trace := by
    rw [f0]; subst hu; simp [responses]
  have f3 : u.fill.writes = [] := by rw [f0]; subst hu; rfl
  obtain ⟨t, k1, k2, k3, k4, k5⟩ := exAnswers_frame r hr u.fill f1 (by rw [f0])
    (by rw [f0]; subst hu; exact h4) (by rw [f0]; subst hu; exact h5) blk enc hb
  refine ⟨({ t with writes := [] }.emit (.write t.wbuf (.fail .wantReadOrWrite))).emit (.returned .wantWrite), ?_, ?_⟩
  · rw [hp, loop, iter, if_neg (by simp [u1])]
    simp only [turn, flush, u3, if_true, Outcome.bind_ok]
    rw [if_neg (by simp)]
    simp only [dispatch, f1, frameCase, k1, Outcome.bind_ok, if_true, loop]
    rw [iter, if_neg (by simp [k2])]
    simp only [turn, flush]
    rw [if_neg k3, k4, f3]
    simp only [List.headD_nil, Outcome.bind_ok, emit]
    rw [if_pos k3]
    rfl
  · rw [f2] at k5
    rw [← k5]
    simp [responses, emit]

/-- A response with 16385 header fields. -/
def exManyFields : HttpResponse :=
  { status := 200, headers := List.replicate 16385 ⟨b!":authority", []⟩ }

/-- Each field takes one octet. -/
theorem exManyFields_block : ∃ w t, (encodeBlock true {} (finishResponse exManyFields).headers : Outcome Stop _) =
    .ok (0x88 :: (List.replicate 16385 0x81 ++ w), t) ∧ w.length < 100 := by
  have hx : ∃ w t, (encodeBlock true {} [⟨b!"server", serverHeader⟩, ⟨b!"x-powered-by", serverHeader⟩] :
      Outcome Stop _) = .ok (w, t) ∧ w.length < 100 := by
    have : (match (encodeBlock true {} [⟨b!"server", serverHeader⟩, ⟨b!"x-powered-by", serverHeader⟩] :
      Outcome Stop _) with | .ok (w, _) => decide (w.length < 100) | _ => false) = true := by decide +kernel
    revert this
    generalize (encodeBlock true {} [⟨b!"server", serverHeader⟩, ⟨b!"x-powered-by", serverHeader⟩] : Outcome Stop _) = o
    intro h
    match o with
    | .ok (w, t) => exact ⟨w, t, rfl, by simpa using h⟩
    | .err _ => simp at h
    | .ub _ => simp at h
  obtain ⟨w, t, hw, hl⟩ := hx
  have h1 := encodeBlock_replicate true {} ⟨b!":authority", []⟩ 0x81 (by decide +kernel) _ 16385 w t hw
  have h2 := encodeBlock_replicate true {} ⟨b!":status", b!"200"⟩ 0x88 (by decide +kernel) _ 1 _ t h1
  refine ⟨w, t, ?_, hl⟩
  have hf : (finishResponse exManyFields).headers = List.replicate 1 ⟨b!":status", b!"200"⟩ ++
      (List.replicate 16385 ⟨b!":authority", []⟩ ++
        [⟨b!"server", serverHeader⟩, ⟨b!"x-powered-by", serverHeader⟩]) := by
    have hd : decimal 200 = b!"200" := by decide +kernel
    have : ∀ hs, (finishResponse { status := 200, headers := hs }).headers =
        List.replicate 1 ⟨b!":status", b!"200"⟩ ++
          (hs ++ [⟨b!"server", serverHeader⟩, ⟨b!"x-powered-by", serverHeader⟩]) := by
      intro hs
      simp [finishResponse, hd]
    exact this _
  rw [hf]
  exact h2

/-- C90 is false: a response header block of more than 16384 octets is sent in one HEADERS frame, not
split into CONTINUATION frames. -/
theorem C90_refuted : ∃ s outs, Called (exAnswers exManyFields) 0 0 .wantWrite s ∧
    FramesWire outs (produced s.trace) ∧ ¬ FitsFrameSize outs := by
  obtain ⟨w, enc, hblk, hl⟩ := exManyFields_block
  obtain ⟨r, s0, h1, h2⟩ : ∃ r s, Called (exAnswers exManyFields) 0 0 r s ∧ (r == .wantRead &&
      s.st == .awaitingFrame && s.rbuf == [] && s.wbuf == [] && s.enc == {} && s.dec == {} &&
      responses s.trace == []) = true :=
    Shows.called (e := exEnv clientPreface []) (es := [exEnv [] [27]]) (by decide +kernel)
  simp only [Bool.and_eq_true, beq_iff_eq] at h2
  obtain ⟨⟨⟨⟨⟨⟨rfl, m1⟩, m2⟩, m3⟩, m4⟩, m5⟩, m6⟩ := h2
  obtain ⟨s, p1, p2⟩ := exAnswers_process exManyFields rfl s0 m1 m2 m3 m4 m5 _ _ hblk
  have hc : Called (exAnswers exManyFields) 0 0 .wantWrite s := by
    obtain ⟨s', env, q1, q2⟩ := h1
    exact ⟨s0, _, .step s' s0 env .wantRead q1 q2 (by simp), p1⟩
  rw [m6, List.nil_append] at p2
  have hlen : (0x88 :: (List.replicate 16385 0x81 ++ w) : Bytes).length = 16386 + w.length := by
    rw [List.length_cons, List.length_append, List.length_replicate]; omega
  obtain ⟨good, bad, first, outs, extra, k1, k2, k3, k4, k5, k6⟩ := C31_replies _ _ _ _ s hc
    (by rw [p2]; intro y hy; rw [List.mem_singleton] at hy; subst hy; rw [hlen]; omega)
  refine ⟨s, _, hc, k3, ?_⟩
  intro hf
  obtain ⟨f, hm, he⟩ := k2.block_sent (1, _, []) (by rw [p2]; exact List.mem_singleton.mpr rfl)
  have := hf f (by simp [hm])
  rw [he, hlen] at this
  omega

/-- C90 when all response header blocks have at most 16384 octets: all frames do. Missing: longer
header blocks. -/
theorem C90_sizes_partial (cfg : Cfg W) (w : W) (now : Nat) (r : ProcRes) (s : Sim W)
    (h : Called cfg w now r s) (hb : ∀ x ∈ responses s.trace, x.2.2.length ≤ 16384) :
    ∃ outs, FramesWire outs (produced s.trace) ∧ FitsFrameSize outs := by
  obtain ⟨good, bad, first, outs, extra, k1, k2, k3, k4, k5, k6⟩ := C31_replies cfg w now r s h
    (fun x hx => by have := hb x hx; omega)
  refine ⟨_, k3, ?_⟩
  intro f hf
  rcases List.mem_append.mp hf with hf | hf
  · rcases List.mem_append.mp hf with hf | hf
    · rcases k4 with ⟨rfl, -⟩ | ⟨g, rfl, hg⟩
      · simp at hf
      · simp at hf; subst hf; rw [hg.length]; omega
    · refine k2.fits ?_ f hf
      intro x hx
      obtain ⟨y, hy, rfl⟩ := List.mem_map.mp hx
      exact hb y hy
  · rcases k6 with rfl | ⟨-, g, rfl, -, hg⟩
    · simp at hf
    · simp at hf; subst hf; omega

/-- An application that answers with 17000 octets. -/
def exLarge : Cfg Nat :=
  { getHandler := fun _ _ => fun _ n => (.resp { status := 200, body := List.replicate 17000 7 }, n + 1) }

/-- A connection that answers with a body of 17000 octets: two frames. -/
example : ∃ r s, Called exLarge 0 0 r s ∧ ((responses s.trace).all (fun x => decide (x.2.2.length ≤ 16384)) &&
    decide (17000 < (produced s.trace).length)) = true :=
  Shows.called (e := exEnv (clientPreface ++ exGet) []) (es := []) (by decide +kernel)

/-! ### C91 -/

/-- C91 is false: after each of these frames the connection waits for input as if nothing was wrong:
DATA on stream 0, HEADERS on stream 0, SETTINGS on stream 1, SETTINGS ACK with a payload, PING on stream
1, PING of one octet, WINDOW_UPDATE of five octets. -/
theorem C91_refuted : ∃ s, Called exCfg 0 0 .wantRead s ∧
    (frames s.trace).length = 7 ∧ ∀ f ∈ (frames s.trace).map asFrame, Forbidden f := by
  obtain ⟨r, s, h1, h2⟩ : ∃ r s, Called exCfg 0 0 r s ∧ (r == .wantRead &&
      (frames s.trace).length == 7 &&
      ((frames s.trace).map asFrame).all fun f => decide (Forbidden f)) = true :=
    Shows.called (e := exEnv (clientPreface ++ [0, 0, 1, 0, 1, 0, 0, 0, 0, 65] ++
      [0, 0, 2, 1, 5, 0, 0, 0, 0, 0x82, 0x84] ++ [0, 0, 0, 4, 0, 0, 0, 0, 1] ++
      [0, 0, 1, 4, 1, 0, 0, 0, 0, 9] ++ [0, 0, 8, 6, 0, 0, 0, 0, 1, 1, 2, 3, 4, 5, 6, 7, 8] ++
      [0, 0, 1, 6, 0, 0, 0, 0, 0, 1] ++ [0, 0, 5, 8, 0, 0, 0, 0, 0, 0, 0, 0, 1, 0]) [27, 44, 9]) (es := [])
      (by decide +kernel)
  simp only [Bool.and_eq_true, beq_iff_eq, List.all_eq_true, decide_eq_true_eq] at h2
  obtain ⟨⟨rfl, h3⟩, h4⟩ := h2
  exact ⟨s, h1, h3, h4⟩

/-- C91 for SETTINGS frames without ACK of a length that is not a multiple of six: it is the last frame
acted on, the connection never waits for input afterwards, and is over. Missing: the other forbidden
frames. -/
theorem C91_refused_partial (cfg : Cfg W) (w : W) (now : Nat) (r : ProcRes) (s : Sim W)
    (h : Called cfg w now r s) (f : FrameReader) (hf : f ∈ frames s.trace)
    (_hx : Forbidden (asFrame f)) (ht : f.header.type = 4) (ha : f.header.flags &&& 1 = 0)
    (hl : f.payload.length % 6 ≠ 0) :
    r ≠ .wantRead ∧ Ended s.st ∧ ∃ before, frames s.trace = before ++ [f] := by
  obtain ⟨calls, hrun⟩ := h.run
  obtain ⟨pre, post, ht'⟩ : ∃ pre post, s.trace = pre ++ .frame f :: post := by
    refine List.append_of_mem ?_
    clear hrun h
    generalize s.trace = tr at hf
    induction tr with
    | nil => simp [frames] at hf
    | cons e tr ih => cases e <;> simp [frames] at hf ⊢ <;> grind
  obtain ⟨k1, k2⟩ := C38_ended_events cfg w now calls s hrun pre post _ ht' (.inr ⟨ht, ha, hl⟩)
  refine ⟨?_, k2, frames pre, ?_⟩
  · rintro rfl
    obtain ⟨s1, s2, -, m2, rfl⟩ := h.elim
    rcases m2 with ⟨rfl, m⟩ | ⟨m, -⟩
    · rcases m with m | ⟨m, -⟩ | ⟨m, -⟩ <;> simp [Ended, m] at k2
    · cases m
  · rw [ht', frames_append]
    simp [frames, k1]

end Sim
end Ion
