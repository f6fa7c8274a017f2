import Verif.Spec.Request
import Verif.Props.ConnServe
import Verif.Props.ConnConform

/-! # Which requests reach the application (C105) -/

namespace Ion
namespace Sim
open Spec
variable {W : Type}

/-- A HEADERS frame with END_STREAM and END_HEADERS on this stream with this block of less than 256 octets. -/
def exHeaders (stream : UInt8) (block : Bytes) : Bytes :=
  [0, 0, UInt8.ofNat block.length, 1, 5, 0, 0, 0, stream] ++ block

/-- C105, "a malformed request is not handed to the application", refuted: a handler is called for each of
these nine requests: one without `:scheme`, one with two `:path` fields, one with an empty path, one with a
pseudo-header field behind another field, one with a pseudo-header field that is not defined, one with one
of responses, one with an upper case name, one with a line feed in a value, and one with the field
`connection`. -/
theorem C105_refuted : ∃ s, Called exCfg 0 0 .wantRead s ∧ (handled s.trace).length = 9 ∧
    ∀ x ∈ handled s.trace, ¬ WellFormed x.1.headers := by
  obtain ⟨r, s, h1, h2⟩ : ∃ r s, Called exCfg 0 0 r s ∧ (r == .wantRead &&
      (handled s.trace).length == 9 &&
      (handled s.trace).all fun x => !decide (WellFormed x.1.headers)) = true :=
    Shows.called (e := exEnv (clientPreface ++ exHeaders 1 [0x82, 0x84] ++
      exHeaders 3 [0x82, 0x86, 0x84, 0x85] ++ exHeaders 5 [0x82, 0x86, 0x04, 0x00] ++
      exHeaders 7 [0x90, 0x82, 0x86, 0x84] ++
      exHeaders 9 [0x82, 0x86, 0x84, 0x00, 0x02, 0x3a, 0x78, 0x01, 0x79] ++
      exHeaders 11 [0x82, 0x86, 0x84, 0x88] ++ exHeaders 13 [0x82, 0x86, 0x84, 0x00, 0x01, 0x41, 0x01, 0x79] ++
      exHeaders 15 [0x82, 0x86, 0x84, 0x00, 0x01, 0x78, 0x01, 0x0a] ++
      exHeaders 17 ([0x82, 0x86, 0x84, 0x00, 0x0a] ++ b!"connection" ++ [0x01, 0x79]))
      [71, 24, 24, 24, 24, 24, 24, 24, 24]) (es := []) (by decide +kernel)
  simp only [Bool.and_eq_true, beq_iff_eq, List.all_eq_true, Bool.not_eq_true', decide_eq_false_iff_not] at h2
  obtain ⟨⟨rfl, h3⟩, h4⟩ := h2
  exact ⟨s, h1, h3, h4⟩

theorem WellFormed.field {fields : List Header} {name : Bytes}
    (h : name ∈ (fields.takeWhile isPseudo).map Header.name) : ∃ v, FirstField fields name v := by
  have : ∃ x ∈ fields, x.name = name := by
    obtain ⟨x, h1, h2⟩ := List.mem_map.mp h
    exact ⟨x, (List.takeWhile_sublist _).mem h1, h2⟩
  clear h
  induction fields with
  | nil => simp at this
  | cons x fields ih =>
    by_cases hx : x.name = name
    · exact ⟨x.value, [], fields, by simp [← hx], by simp⟩
    · obtain ⟨y, h1, h2⟩ := this
      rcases List.mem_cons.mp h1 with rfl | h1
      · exact absurd h2 hx
      · obtain ⟨v, pre, post, h3, h4⟩ := ih ⟨y, h1, h2⟩
        refine ⟨v, x :: pre, post, by rw [h3]; rfl, ?_⟩
        intro z hz
        rcases List.mem_cons.mp hz with rfl | hz
        · exact hx
        · exact h4 z hz

/-- A HEADERS frame among frames that were served has been read as fields, and if they have a `:path` and a
`:method` the handler was called with them. -/
theorem Serves.request_at {cfg : Cfg W} {w0 : W} {ins : List Frame} {calls : List (HttpRequest × HOut)}
    {answers : List (Nat × List Header × Bytes)} {T : Table} {w : W} (h : Serves cfg w0 ins calls answers T w) :
    ∀ (pre : List Frame) (f : Frame) (post : List Frame), ins = pre ++ f :: post → f.type = 1 →
    ∃ (calls' : List (HttpRequest × HOut)) (answers' : List (Nat × List Header × Bytes)) (T1 T2 : Table) (w1 : W)
      (block : Bytes) (fields : List Header) (more : List (HttpRequest × HOut)),
      Serves cfg w0 pre calls' answers' T1 w1 ∧ FieldBlock f block ∧ ReadsAs T1 block fields T2 ∧
      calls = calls' ++ more ∧
      (∀ path method, FirstField fields b!":path" path → FirstField fields b!":method" method →
        ∃ o more', more = (⟨method, path, fields⟩, o) :: more') := by
  induction h with
  | nil => intro pre f post e; simp at e
  | request ins calls answers T T' w w' g block fields path method o r out h ht hb hr hp hm hh ho hf ih =>
    intro pre f post e hf1
    rcases List.eq_nil_or_concat post with rfl | ⟨post, y, rfl⟩
    · obtain ⟨rfl, e2⟩ := List.append_inj' e rfl
      cases e2
      refine ⟨calls, answers, T, T', w, block, fields, [(⟨method, path, fields⟩, o)], h, hb, hr, rfl, ?_⟩
      intro path' method' hp' hm'
      exact ⟨o, [], by rw [FirstField.unique hp hp', FirstField.unique hm hm']⟩
    · have e' : ins ++ [g] = (pre ++ f :: post) ++ [y] := by rw [e]; simp
      obtain ⟨rfl, -⟩ := List.append_inj' e' rfl
      obtain ⟨c, a, T1, T2, w1, b, fs, more, k1, k2, k3, k4, k5⟩ := ih pre f post rfl hf1
      refine ⟨c, a, T1, T2, w1, b, fs, more ++ [(⟨method, path, fields⟩, o)], k1, k2, k3, by rw [k4]; simp, ?_⟩
      intro p m hp hm
      obtain ⟨o', more', rfl⟩ := k5 p m hp hm
      exact ⟨o', more' ++ [(⟨method, path, fields⟩, o)], rfl⟩
  | incomplete ins calls answers T T' w g block fields h ht hb hr hn ih =>
    intro pre f post e hf1
    rcases List.eq_nil_or_concat post with rfl | ⟨post, y, rfl⟩
    · obtain ⟨rfl, e2⟩ := List.append_inj' e rfl
      cases e2
      refine ⟨calls, answers, T, T', w, block, fields, [], h, hb, hr, by simp, ?_⟩
      rintro path' method' hp hm
      rcases hn with hn | hn
      · exact (FirstField.not_absent hp hn).elim
      · exact (FirstField.not_absent hm hn).elim
    · have e' : ins ++ [g] = (pre ++ f :: post) ++ [y] := by rw [e]; simp
      obtain ⟨rfl, -⟩ := List.append_inj' e' rfl
      exact ih pre f post rfl hf1
  | other ins calls answers T w g h ht hs ih =>
    intro pre f post e hf1
    rcases List.eq_nil_or_concat post with rfl | ⟨post, y, rfl⟩
    · obtain ⟨rfl, e2⟩ := List.append_inj' e rfl
      cases e2
      exact absurd hf1 ht
    · have e' : ins ++ [g] = (pre ++ f :: post) ++ [y] := by rw [e]; simp
      obtain ⟨rfl, -⟩ := List.append_inj' e' rfl
      exact ih pre f post rfl hf1

/-- C105, what holds, in one direction: a handler is called only for requests with `:path` and `:method`, with
the first of each. Missing: all other conditions of `WellFormed`. -/
theorem C105_called_partial (cfg : Cfg W) (calls : List Call) (w : W) (now : Nat) (s : Sim W)
    (h : run cfg calls (init w now) = .ok s) (q : HttpRequest) (o : HOut) (hq : (q, o) ∈ handled s.trace) :
    FirstField q.headers b!":path" q.path ∧ FirstField q.headers b!":method" q.method := by
  obtain ⟨good, bad, T, -, h2, -⟩ := C83_served cfg calls w now s h
  generalize handled s.trace = hs at h2 hq
  generalize (responses s.trace).map asAnswer = as at h2
  generalize s.world = w' at h2
  generalize good.map asFrame = ins at h2
  induction h2 with
  | nil => simp at hq
  | request ins calls answers T T' w w' g block fields path method o' r out h ht hb hr hp hm hh ho hf ih =>
    rcases List.mem_append.mp hq with hq | hq
    · exact ih hq
    · simp only [List.mem_singleton, Prod.mk.injEq] at hq
      rw [hq.1]
      exact ⟨hp, hm⟩
  | incomplete ins calls answers T T' w g block fields h ht hb hr hn ih => exact ih hq
  | other ins calls answers T w g h ht hs ih => exact ih hq

/-- C105, the other direction: every well-formed request that is not CONNECT reaches the handler for its path
and method, with all its fields. For every HEADERS frame acted on, on a connection that is not over: if the
fields its block is read as are well-formed, the next handler call, after those for the frames before, is for
them. -/
theorem C105_reached (cfg : Cfg W) (calls : List Call) (w : W) (now : Nat) (s : Sim W)
    (h : run cfg calls (init w now) = .ok s) (hs : ¬ Ended s.st) (pre post : List FrameReader) (f : FrameReader)
    (hf : frames s.trace = pre ++ f :: post) (ht : f.header.type = 1) :
    ∃ (before : List (HttpRequest × HOut)) (answers : List (Nat × List Header × Bytes)) (T T' : Table) (w' : W)
      (block : Bytes) (fields : List Header) (more : List (HttpRequest × HOut)),
      Serves cfg w (pre.map asFrame) before answers T w' ∧ FieldBlock (asFrame f) block ∧
      ReadsAs T block fields T' ∧ handled s.trace = before ++ more ∧
      (WellFormed fields → ⟨b!":method", b!"CONNECT"⟩ ∉ fields → ∃ q o more', more = (q, o) :: more' ∧
        q.headers = fields ∧ ⟨b!":path", q.path⟩ ∈ fields ∧ ⟨b!":method", q.method⟩ ∈ fields) := by
  obtain ⟨good, bad, T, h1, h2, h3⟩ := C83_served cfg calls w now s h
  have hb : bad = [] := by
    rcases h3 with h3 | ⟨h3, -⟩
    · exact h3
    · exact absurd h3 hs
  rw [hb, List.append_nil] at h1
  rw [← h1, hf, List.map_append, List.map_cons] at h2
  obtain ⟨c, a, T1, T2, w1, b, fs, more, k1, k2, k3, k4, k5⟩ := Serves.request_at h2 _ _ _ rfl ht
  refine ⟨c, a, T1, T2, w1, b, fs, more, k1, k2, k3, k4, ?_⟩
  rintro ⟨⟨-, -, m1, m2⟩, -, -⟩ hc
  have hc' : ⟨b!":method", b!"CONNECT"⟩ ∉ fs.takeWhile isPseudo :=
    fun hm => hc ((List.takeWhile_sublist _).mem hm)
  rw [if_neg hc'] at m2
  obtain ⟨path, hp⟩ := WellFormed.field m2.2.1
  obtain ⟨method, hm⟩ := WellFormed.field m1
  obtain ⟨o, more', e⟩ := k5 path method hp hm
  refine ⟨_, o, more', e, rfl, ?_, ?_⟩
  · obtain ⟨p, q, rfl, -⟩ := hp; simp
  · obtain ⟨p, q, rfl, -⟩ := hm; simp

/-- A well-formed request on a connection that is not over. -/
example : ∃ calls s, run exCfg calls (init 0 0) = .ok s ∧ (s.st == .awaitingFrame &&
    (handled s.trace).length == 1 && (handled s.trace).all fun x => decide (WellFormed x.1.headers)) = true :=
  Shows.run (e := exEnv (clientPreface ++ exHeaders 1 [0x82, 0x86, 0x84]) [71]) (es := []) (by decide +kernel)

end Sim
end Ion
