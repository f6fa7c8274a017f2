import Verif.Spec.Serve
import Verif.Lemmas.ConnTrace
import Verif.Props.Frames
import Verif.Props.HeaderDecoder

/-!
# Serving frames as the specification says
-/

namespace Ion
open Spec
namespace Sim
variable {W : Type}

theorem decimal_foldl (a : Nat) (bs : Bytes) (b : UInt8) :
    (bs ++ [b]).foldl (fun v b => v * 10 + (b.toNat - 48)) a =
      bs.foldl (fun v b => v * 10 + (b.toNat - 48)) a * 10 + (b.toNat - 48) := by
  simp

theorem decimal_spec (n : Nat) : IsDecimal n (decimal n) := by
  induction n using Nat.strongRecOn with
  | _ n ih =>
    rw [decimal]
    have digit : ∀ d, d < 10 → (UInt8.ofNat (48 + d)).toNat = 48 + d := by
      intro d hd
      rw [UInt8.toNat_ofNat']
      omega
    by_cases h : n < 10
    · rw [if_pos h]
      refine ⟨by simp, ?_, ?_, ?_⟩
      · intro b hb
        simp only [List.mem_singleton] at hb
        subst hb
        rw [digit n h]; omega
      · simp only [List.foldl_cons, List.foldl_nil, digit n h]; omega
      · intro h0; simpa using h0
    · rw [if_neg h]
      obtain ⟨k1, k2, k3, k4⟩ := ih (n / 10) (by omega)
      have hd := digit (n % 10) (by omega)
      refine ⟨by simp, ?_, ?_, ?_⟩
      · intro b hb
        rcases List.mem_append.mp hb with hb | hb
        · exact k2 b hb
        · simp only [List.mem_singleton] at hb
          subst hb
          rw [hd]; omega
      · rw [decimal_foldl, k3, hd]; omega
      · intro h0
        rw [List.head?_append] at h0
        cases hh : (decimal (n / 10)).head? with
        | none => simp at hh; exact absurd hh k1
        | some x =>
          rw [hh] at h0
          simp at h0
          subst h0
          have := k4 hh
          rw [this] at k3
          simp at k3
          omega

theorem finishResponse_fields (r : HttpResponse) : ResponseFields r (finishResponse r).headers := by
  refine ⟨_, _, decimal_spec _, decimal_spec _, ?_⟩
  by_cases h : r.body = []
  · simp [finishResponse, h, serverHeader]
  · simp [finishResponse, h, serverHeader]

theorem readSettings_len {f : FrameReader} {l : List Setting} (h : f.readSettings = .ok l) :
    f.payload.length % 6 = 0 := by
  unfold FrameReader.readSettings at h
  split at h
  · cases h
  · rename_i hn; simpa using hn

theorem readSettings_err {f : FrameReader} {e : FrameError} (h : f.readSettings = .err e) :
    f.payload.length % 6 ≠ 0 := by
  intro h0
  obtain ⟨l, h1, -⟩ := (C23_read_settings f).1 h0
  rw [h1] at h
  cases h

/-- A block has at most one reading. -/
theorem ReadsAs.decode {t : DynTable} (hwf : t.WF) {block : Bytes} {fields : List Header} {T' : Table}
    (h : ReadsAs t.abs block fields T') :
    ∃ t', decodeBlock t block = .ok fields t' ∧ t'.abs = T' ∧ t'.WF := by
  obtain ⟨reps, h1, h2⟩ := h
  obtain ⟨t', k1, k2, k3⟩ := decodeLoop_complete reps block.length t block [] fields T' hwf
    (Nat.le_refl _) h1 h2
  exact ⟨t', by simpa [decodeBlock] using k1, k3, k2⟩

theorem getHeader_some_iff {hs : List Header} {name value : Bytes} :
    getHeader hs name = some value ↔ FirstField hs name value := by
  induction hs with
  | nil => simp [getHeader, FirstField]
  | cons x hs ih =>
    by_cases hx : x.name = name
    · constructor
      · intro h
        simp [getHeader, hx] at h
        exact ⟨[], hs, by cases x; simp_all, by simp⟩
      · rintro ⟨pre, post, h1, h2⟩
        cases pre with
        | nil => simp at h1; simp [getHeader, h1.1]
        | cons y pre => simp at h1; exact absurd (h1.1 ▸ hx) (h2 y (by simp))
    · have e : getHeader (x :: hs) name = getHeader hs name := by simp [getHeader, hx]
      rw [e, ih]
      constructor
      · rintro ⟨pre, post, h1, h2⟩
        refine ⟨x :: pre, post, by simp [h1], ?_⟩
        intro y hy
        rcases List.mem_cons.mp hy with rfl | hy
        · exact hx
        · exact h2 y hy
      · rintro ⟨pre, post, h1, h2⟩
        cases pre with
        | nil => simp at h1; exact absurd (by rw [h1.1]) hx
        | cons y pre =>
          simp at h1
          exact ⟨pre, post, h1.2, fun z hz => h2 z (by simp [hz])⟩

theorem getHeader_none_iff {hs : List Header} {name : Bytes} :
    getHeader hs name = none ↔ ∀ x ∈ hs, x.name ≠ name := by
  simp [getHeader, List.find?_eq_none]

theorem FieldBlock.unique {f : Frame} {a b : Bytes} (ha : FieldBlock f a) (hb : FieldBlock f b) : a = b := by
  unfold FieldBlock at ha hb
  split at ha
  · rename_i h; rw [if_pos h] at hb; exact ha.symm.trans hb
  · rename_i h
    rw [if_neg h] at hb
    obtain ⟨p, h1, h2⟩ := ha
    obtain ⟨q, h3, h4⟩ := hb
    exact (List.append_inj (h2.symm.trans h4) (by omega)).2

theorem FieldBlock.of_headersBlock {f : FrameReader} {block : Bytes}
    (h : (f.headersBlock : Outcome Stop _) = .ok block) : FieldBlock (asFrame f) block := by
  unfold FrameReader.headersBlock FrameReader.priority FrameReader.hasFlag at h
  unfold FieldBlock
  by_cases hf : f.header.flags &&& 0x20 = 0
  · simp only [hf, ne_eq, not_true_eq_false, decide_false, Bool.false_eq_true, if_false] at h
    simp only [asFrame, hf, if_true]
    cases h; rfl
  · simp only [ne_eq, hf, not_false_eq_true, decide_true, if_true] at h
    simp only [asFrame, hf, if_false]
    split at h
    · cases h
    · cases h
      exact ⟨f.payload.take 5, by rw [List.length_take]; omega, (List.take_append_drop 5 _).symm⟩

/-- What the responses of a trace look like to the specification. -/
def asAnswer (x : UInt32 × HttpResponse × Bytes) : Nat × List Header × Bytes :=
  (x.1.toNat, x.2.1.headers, x.2.1.body)

/-- The invariant behind C83. -/
def ServedTo (cfg : Cfg W) (w0 : W) (s : Sim W) : Prop :=
  ∃ (good bad : List FrameReader) (T : Table) (w : W), frames s.trace = good ++ bad ∧
    Serves cfg w0 (good.map asFrame) (handled s.trace) ((responses s.trace).map asAnswer) T w ∧
    s.world = w ∧
    ((bad = [] ∧ s.dec.WF ∧ s.dec.abs = T) ∨
      (Ended s.st ∧ ∃ f, bad = [f] ∧ Unacceptable T (asFrame f)))

theorem ServedTo.quiet {cfg : Cfg W} {w0 : W} {s t : Sim W} {es : List Ev} (i : ServedTo cfg w0 s)
    (ht : t.trace = s.trace ++ es) (hq : frames es = [] ∧ handled es = [] ∧ responses es = [])
    (hw : t.world = s.world) (hd : t.dec = s.dec) (hst : Ended s.st → Ended t.st) : ServedTo cfg w0 t := by
  obtain ⟨good, bad, T, w, h1, h2, h3, h4⟩ := i
  obtain ⟨q1, q2, q3⟩ := hq
  refine ⟨good, bad, T, w, by rw [ht, frames_append, q1, List.append_nil, h1], ?_, by rw [hw, h3], ?_⟩
  · rw [ht, handled_append, responses_append, q2, q3, List.append_nil, List.append_nil]; exact h2
  · rw [hd]
    rcases h4 with h4 | ⟨h4, h5⟩
    · exact .inl h4
    · exact .inr ⟨hst h4, h5⟩

theorem unacceptable_of_err {t dec' : DynTable} (hwf : t.WF) {f : FrameReader} {block : Bytes}
    {e : FrameError} (ht : f.header.type = 1) (hb : (f.headersBlock : Outcome Stop _) = .ok block)
    (hd : decodeBlock t block = .err e dec') : Unacceptable t.abs (asFrame f) := by
  refine .inr ⟨ht, block, FieldBlock.of_headersBlock hb, ?_⟩
  intro fields T' hr
  obtain ⟨t', k1, -⟩ := ReadsAs.decode hwf hr
  rw [k1] at hd
  cases hd

theorem ServedTo.init (cfg : Cfg W) (w : W) (now : Nat) : ServedTo cfg w (Sim.init w now) :=
  ⟨[], [], _, w, rfl, .nil, rfl, .inl ⟨rfl, by simp [Sim.init, DynTable.WF, sizes], rfl⟩⟩

theorem ServedTo.step {cfg : Cfg W} {w0 : W} {b : Bool} {s t : Sim W} (h : Step cfg b s t)
    (i : ServedTo cfg w0 s) : ServedTo cfg w0 t := by
  cases h with
  | env => exact i
  | readsLeft => exact i
  | handshake _ n h => exact i.quiet rfl ⟨rfl, rfl, rfl⟩ rfl rfl (by simp [Ended, h])
  | writeBlocked _ ws h hst => exact i.quiet rfl ⟨rfl, rfl, rfl⟩ rfl rfl id
  | writeFailed _ ws e h he hst => exact i.quiet rfl ⟨rfl, rfl, rfl⟩ rfl rfl (by simp [Ended])
  | wrote _ ws n t h hn hst => exact i.quiet rfl ⟨rfl, rfl, rfl⟩ rfl rfl id
  | read _ bs t hw hst hr => exact i.quiet rfl ⟨rfl, rfl, rfl⟩ rfl rfl id
  | readFailed _ e hw hst hr =>
    refine i.quiet (es := [.readFail e]) (by cases e <;> rfl) ⟨rfl, rfl, rfl⟩ (by cases e <;> rfl)
      (by cases e <;> rfl) ?_
    cases e <;> simp [Sim.readFailed, emit, updateState, Ended]
  | oversized _ h hd hh hl hw =>
    exact i.quiet (es := []) (by simp) ⟨rfl, rfl, rfl⟩ rfl rfl (by simp [Ended])
  | shutdown _ h hw => exact i.quiet rfl ⟨rfl, rfl, rfl⟩ rfl rfl (by simp [Ended])
  | close _ h =>
    refine i.quiet (es := (goawayChunks s.st).map Ev.enqueue) rfl ⟨?_, ?_, ?_⟩ rfl rfl (by simp [Ended])
    · simp [goawayChunks, frames]
    · simp [goawayChunks, handled]
    · simp [goawayChunks, responses]
  | wantRead _ h => exact i.quiet rfl ⟨rfl, rfl, rfl⟩ rfl rfl id
  | wantWrite _ h => exact i.quiet rfl ⟨rfl, rfl, rfl⟩ rfl rfl id
  | discard _ h => exact i.quiet rfl ⟨rfl, rfl, rfl⟩ rfl rfl id
  | preface _ rest h hw hr =>
    refine i.quiet (es := .prefaceOk :: settingsChunks.map Ev.enqueue) (by simp [enq, emit])
      ⟨by simp [frames], by simp [handled], by simp [responses]⟩ rfl rfl (by simp [Ended, h])
  | frame _ s1 h hd hh hl hr hw ha =>
    obtain ⟨good, bad, T, w, h1, h2, h3, h4⟩ := i
    have hgood : bad = [] ∧ s.dec.WF ∧ s.dec.abs = T := by
      rcases h4 with h4 | ⟨h4, -⟩
      · exact h4
      · simp [Ended, h] at h4
    obtain ⟨rfl, hwf, rfl⟩ := hgood
    rw [List.append_nil] at h1
    subst h3
    generalize hf : FrameReader.mk hd ((s.rbuf.drop 9).take hd.length.toNat) = f at ha
    have plain : ∀ (u : Sim W), u.trace = s.trace ++ [.frame f] → f.header.type ≠ 1 → ¬ BadSettings (asFrame f) → u.world = s.world →
        u.dec = s.dec → ServedTo cfg w0 u := by
      intro u k1 k2 k5 k3 k4
      refine ⟨good ++ [f], [], s.dec.abs, s.world, by simp [k1, h1, frames], ?_, k3, .inl ⟨rfl, by rw [k4]; exact hwf, by rw [k4]⟩⟩
      rw [k1]
      simpa [handled, responses] using h2.other _ _ _ _ _ (asFrame f) k2 k5
    cases ha with
    | settingsAck ht hfl => exact plain _ rfl (by rw [ht]; decide) (fun h => hfl h.1.2) rfl rfl
    | settings l ht hfl hrs =>
      have := (plain { s with trace := s.trace ++ [.frame f] } rfl (by rw [ht]; decide)
        (fun h => h.2 (readSettings_len hrs)) rfl rfl)
      refine this.quiet (es := [Ev.enqueue _]) (by simp [enq]; rfl) ⟨rfl, rfl, rfl⟩ rfl rfl (by simp [Ended, h])
    | badSettings e ht hfl hrs =>
      refine ⟨good, [f], s.dec.abs, s.world, by simp [h1, frames], by simpa [handled, responses] using h2, rfl,
        .inr ⟨.inr (.inl rfl), f, rfl, .inl ⟨⟨ht, hfl⟩, readSettings_err hrs⟩⟩⟩
    | badHeaders block e dec' ht hbk hdc =>
      refine ⟨good, [f], s.dec.abs, s.world, by simp [h1, frames], by simpa [handled, responses] using h2, rfl,
        .inr ⟨.inr (.inl rfl), f, rfl, unacceptable_of_err hwf ht hbk hdc⟩⟩
    | request data hs dec' resp evs w' block enc' ht hbk hdc hrp he =>
      obtain ⟨reps, b1, b2, b3⟩ := C13_decode_sound _ _ hwf _ _ hdc
      have hra : ReadsAs s.dec.abs data hs dec'.abs := ⟨reps, b1, b2⟩
      have hfb := FieldBlock.of_headersBlock hbk
      obtain ⟨p1, p2, p3, p4, p5⟩ := hrp.proj
      refine ⟨good ++ [f], [], dec'.abs, w', by simp [h1, frames, answerEvs, p4], ?_, rfl,
        .inl ⟨rfl, b3, rfl⟩⟩
      cases hrp with
      | missing hm =>
        have hm' : (∀ x ∈ hs, x.name ≠ b!":path") ∨ ∀ x ∈ hs, x.name ≠ b!":method" := by
          rcases hm with hm | hm
          · exact .inl (getHeader_none_iff.mp hm)
          · exact .inr (getHeader_none_iff.mp hm)
        have := Serves.incomplete _ _ _ _ _ _ (asFrame f) data hs h2 ht hfb hra hm'
        simpa [handled, responses, answerEvs, asAnswer, asFrame] using this
      | handler path method r _ hp hm hh =>
        have := Serves.request _ _ _ _ _ _ _ (asFrame f) data hs path method _ r _ h2 ht hfb hra
          (getHeader_some_iff.mp hp) (getHeader_some_iff.mp hm) hh (.inl rfl) (finishResponse_fields r)
        simpa [handled, responses, answerEvs, asAnswer, asFrame, finishResponse] using this
      | threw path method _ hp hm hh =>
        have := Serves.request _ _ _ _ _ _ _ (asFrame f) data hs path method _ { status := 500 } _ h2 ht hfb hra
          (getHeader_some_iff.mp hp) (getHeader_some_iff.mp hm) hh (.inr ⟨rfl, rfl⟩) (finishResponse_fields _)
        simpa [handled, responses, answerEvs, asAnswer, asFrame, finishResponse] using this
    | windowUpdate w ht h =>
      exact plain _ rfl (by rw [ht]; decide) (fun h => by have := h.1.1; simp [asFrame, ht] at this) rfl rfl
    | goaway ht =>
      exact plain _ rfl (by rw [ht]; decide) (fun h => by have := h.1.1; simp [asFrame, ht] at this) rfl rfl
    | other h1' h4' h7 h8 => exact plain _ rfl h1' (fun h => h4' h.1.1) rfl rfl

end Sim
end Ion
