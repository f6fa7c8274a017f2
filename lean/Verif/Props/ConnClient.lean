import Verif.Props.ConnServe
import Verif.Props.ConnOutput

/-!
# What the client sees (C84)
-/

namespace Ion
open Spec
namespace Sim
variable {W : Type}

/-! ### Response header blocks -/

/-- The blocks of a list of responses, read one after the other. -/
inductive BlocksRead (limit : Nat) (T0 : Table) : List (UInt32 × HttpResponse × Bytes) → Table → Prop
  | nil : BlocksRead limit T0 [] T0
  | snoc (l : List (UInt32 × HttpResponse × Bytes)) (T T' : Table) (x : UInt32 × HttpResponse × Bytes)
      (reps : List Rep) (h : BlocksRead limit T0 l T) (hw : BlockWire Dialect.rfc reps x.2.2)
      (he : execReps limit T reps = some (x.2.1.headers, T')) : BlocksRead limit T0 (l ++ [x]) T'

/-- The fields of all responses are in the static table or in `U`. -/
def FieldsIn (U : List Header) (l : List (UInt32 × HttpResponse × Bytes)) : Prop :=
  ∀ x ∈ l, ∀ h ∈ x.2.1.headers, InStatic h ∨ h ∈ U

/-- The invariant behind C84: a client that has read all blocks has the encoder's table. -/
def InStep (U : List Header) (c : Nat) (s : Sim W) : Prop :=
  FieldsIn U (responses s.trace) →
    s.enc.WF ∧ VocInv U s.enc.table ∧ s.enc.maxTableSize = 65536 ∧
    ∃ T, T.entries = s.enc.table ∧ T.max = c ∧
      ∀ limit, BlocksRead limit ⟨[], c⟩ (responses s.trace) T

theorem InStep.quiet {U : List Header} {c : Nat} {s t : Sim W} {es : List Ev} (i : InStep U c s)
    (ht : t.trace = s.trace ++ es) (hq : responses es = []) (he : t.enc = s.enc) : InStep U c t := by
  have e : responses t.trace = responses s.trace := by rw [ht, responses_append, hq, List.append_nil]
  unfold InStep
  rw [e, he]
  exact i

theorem InStep.step {cfg : Cfg W} {U : List Header} {c : Nat} (hU : SmallVocabulary U)
    (henc : ∀ h ∈ U, Encodable cfg.charSigned h.name ∧ Encodable cfg.charSigned h.value)
    (hc : sizes U ≤ c) (hc' : c ≤ 65536) {b : Bool} {s t : Sim W} (h : Step cfg b s t)
    (i : InStep U c s) : InStep U c t := by
  cases h with
  | env => exact i
  | readsLeft => exact i
  | handshake _ n h => exact i.quiet rfl rfl rfl
  | writeBlocked _ ws h hst => exact i.quiet rfl rfl rfl
  | writeFailed _ ws e h he hst => exact i.quiet rfl rfl rfl
  | wrote _ ws n t h hn hst => exact i.quiet rfl rfl rfl
  | read _ bs t hw hst hr => exact i.quiet rfl rfl rfl
  | readFailed _ e hw hst hr =>
    exact i.quiet (es := [.readFail e]) (by cases e <;> rfl) rfl (by cases e <;> rfl)
  | oversized _ h hd hh hl hw => exact i.quiet (es := []) (by simp) rfl rfl
  | shutdown _ h hw => exact i.quiet rfl rfl rfl
  | close _ h =>
    exact i.quiet (es := (goawayChunks s.st).map Ev.enqueue) rfl (by simp [goawayChunks, responses]) rfl
  | wantRead _ h => exact i.quiet rfl rfl rfl
  | wantWrite _ h => exact i.quiet rfl rfl rfl
  | discard _ h => exact i.quiet rfl rfl rfl
  | preface _ rest h hw hr =>
    exact i.quiet (es := .prefaceOk :: settingsChunks.map Ev.enqueue) (by simp [enq, emit])
      (by simp [responses]) rfl
  | frame _ s1 h hd hh hl hr hw ha =>
    generalize FrameReader.mk hd ((s.rbuf.drop 9).take hd.length.toNat) = f at ha
    cases ha with
    | settingsAck ht hfl => exact i.quiet (es := [.frame f]) rfl rfl rfl
    | settings l ht hfl hrs =>
      exact i.quiet (es := [.frame f, .enqueue _]) (by simp [enq]; rfl) rfl rfl
    | badSettings e ht hfl hrs => exact i.quiet (es := [.frame f]) rfl rfl rfl
    | badHeaders block e dec' ht hbk hdc => exact i.quiet (es := [.frame f]) rfl rfl rfl
    | windowUpdate w ht h => exact i.quiet (es := [.frame f]) rfl rfl rfl
    | goaway ht => exact i.quiet (es := [.frame f]) rfl rfl rfl
    | other h1' h4' h7 h8 => exact i.quiet (es := [.frame f]) rfl rfl rfl
    | request data hs dec' resp evs w' block enc' ht hbk hdc hrp he =>
      intro hf
      have p6 : responses evs = [] := by cases hrp <;> rfl
      have e : responses (s.trace ++ [.frame f] ++ answerEvs evs f.header.streamId hs resp block) =
          responses s.trace ++ [(f.header.streamId, resp, block)] := by
        simp [responses, answerEvs, p6]
      simp only at hf ⊢
      rw [e] at hf ⊢
      obtain ⟨k1, k2, k3, T, k4, k5, k6⟩ := i fun x hx => hf x (by simp [hx])
      obtain ⟨w, t', reps, T', g1, g2, g3, g4, g5, g6, g7, g8⟩ := encodeBlock_client (ε := Stop)
        cfg.charSigned U hU henc resp.headers s.enc T k1 k2 k4
        (.inr ⟨by rw [k5]; exact hc, by rw [k3]; exact Nat.le_trans hc hc'⟩)
        (hf (f.header.streamId, resp, block) (by simp))
      rw [he] at g1
      cases g1
      exact ⟨g2, g3, g6.trans k3, T', g4, g5.trans k5, fun limit => .snoc _ _ _ _ reps (k6 limit) g7 (g8 limit)⟩

/-- The frames of the replies, read by a client. -/
theorem Replies.clientSees {limit : Nat} {T0 : Table} {ins : List Frame} {rs : List (Nat × Bytes × Bytes)}
    {outs : List Frame} (h : Replies ins rs outs) :
    ∀ (l : List (UInt32 × HttpResponse × Bytes)) (T : Table), rs = l.map asReply →
      BlocksRead limit T0 l T → ClientSees limit T0 outs (l.map asAnswer) T := by
  induction h with
  | nil =>
    intro l T hl hb
    have : l = [] := by simpa using hl.symm
    subst this
    generalize hx : ([] : List (UInt32 × HttpResponse × Bytes)) = x at hb
    cases hb with
    | nil => exact .nil
    | snoc => simp at hx
  | settings ins rs outs f h ht hf hl ih =>
    intro l T hl hb
    exact .ack _ _ _ (ih l T hl hb)
  | other ins rs outs f h h1 h4 ih => exact ih
  | request ins rs outs f block body ds h ht hd ih =>
    intro l T hl hb
    cases hb with
    | nil => simp at hl
    | snoc l' T1 _ x reps hb hw he =>
      rw [List.map_append] at hl
      obtain ⟨h1, h2⟩ := List.append_inj' hl rfl
      simp [asReply] at h2
      obtain ⟨e1, e2, e3⟩ := h2
      have := ClientSees.response _ _ _ _ f.stream block reps x.2.1.headers body ds (ih l' T1 h1 hb)
        (by rw [e2]; exact hw) (by rw [e2]; exact fun r hr => (blockWire_unique hw hr).symm) he hd
      rw [List.map_append]
      simpa [asAnswer, e1, e3] using this

/-! ### The frames served and the frames replied to are the same -/

theorem Replies.count {ins : List Frame} {rs : List (Nat × Bytes × Bytes)} {outs : List Frame}
    (h : Replies ins rs outs) : rs.length = (ins.filter fun f => f.type == 1).length := by
  induction h with
  | nil => rfl
  | settings ins rs outs f h ht hf hl ih => simp [List.filter_append, ih, ht]
  | request ins rs outs f block body ds h ht hd ih => simp [List.filter_append, ih, ht]
  | other ins rs outs f h h1 h4 ih => simp [List.filter_append, ih, h1]

theorem Serves.count {cfg : Cfg W} {w0 : W} {ins : List Frame} {calls : List (HttpRequest × HOut)}
    {answers : List (Nat × List Header × Bytes)} {T : Table} {w : W}
    (h : Serves cfg w0 ins calls answers T w) :
    answers.length = (ins.filter fun f => f.type == 1).length := by
  induction h with
  | nil => rfl
  | request ins calls answers T T' w w' f block fields path method o r out h ht hb hr hp hm hh ho hf ih =>
    simp [List.filter_append, ih, ht]
  | incomplete ins calls answers T T' w f block fields h ht hb hr hn ih =>
    simp [List.filter_append, ih, ht]
  | other ins calls answers T w f h ht hs ih => simp [List.filter_append, ih, ht]

/-! ### C84 -/

/-- C84: end to end. The frames a connection acted on determine, by `Serves`, the handler calls and the
responses; and the frames it produced (after its SETTINGS frame, and before a GOAWAY frame) are
read by the client as exactly these responses. Only a last frame that has to be refused is not served.
Conditions: as in C20 (at most 65 different response fields outside the static table, together within
the client's table limit `c`; names outside the static table always with the same value), strings the encoder can encode
(C21), and blocks that fit the 24-bit length field. -/
theorem C84_end_to_end_partial (cfg : Cfg W) (w : W) (now : Nat) (r : ProcRes) (s : Sim W)
    (h : Called cfg w now r s) (hb : ∀ x ∈ responses s.trace, x.2.2.length < 2 ^ 24)
    (U : List Header) (hU : SmallVocabulary U)
    (henc : ∀ h ∈ U, Encodable cfg.charSigned h.name ∧ Encodable cfg.charSigned h.value)
    (hsub : ∀ x ∈ responses s.trace, ∀ h ∈ x.2.1.headers, InStatic h ∨ h ∈ U)
    (c : Nat) (hc : sizes U ≤ c) (hc' : c ≤ 65536) :
    ∃ (good bad : List FrameReader) (calls : List (HttpRequest × HOut))
      (answers : List (Nat × List Header × Bytes)) (first outs extra : List Frame) (T T' : Table),
      frames s.trace = good ++ bad ∧
      Serves cfg w (good.map asFrame) calls answers T s.world ∧ handled s.trace = calls ∧
      FramesWire (first ++ outs ++ extra) (produced s.trace) ∧
      (∀ limit, ClientSees limit ⟨[], c⟩ outs answers T') ∧
      ((first = [] ∧ frames s.trace = []) ∨ ∃ f, first = [f] ∧ ServerPreface f) ∧
      (bad = [] ∨ (r ≠ .wantRead ∧ ∃ f, bad = [f] ∧ Unacceptable T (asFrame f))) ∧
      (extra = [] ∨ (r = .discard ∧ ∃ g, extra = [g] ∧ g.type = 7 ∧ g.payload.length = 8)) := by
  obtain ⟨good, bad, first, outs, extra, h1, h2, h3, h4, h5, h6⟩ := C31_replies cfg w now r s h hb
  obtain ⟨good', bad', T, w', g1, g2, rfl, g4⟩ := h.steps.servedTo
  have same : good' = good := by
    rw [h1] at g1
    rcases h5 with rfl | ⟨-, f, rfl, c1, a1, T1, w1, s1, u1⟩
    · rcases g4 with ⟨rfl, -⟩ | ⟨-, f, rfl, u⟩
      · simpa using g1.symm
      · exfalso
        rw [List.append_nil] at g1
        subst g1
        have c1 := Replies.count h2
        have c2 := Serves.count g2
        rcases u with u | ⟨u, -⟩
        · exact h2.good (asFrame f) (by simp) u
        · simp [List.filter_append, u] at c1 c2
          omega
    · rcases g4 with ⟨rfl, -⟩ | ⟨-, g, rfl, u⟩
      · exfalso
        rw [List.append_nil] at g1
        subst g1
        refine C83_refused cfg w _ _ _ _ _ _ s1 u1 ⟨_, _, _, _, by simpa using g2⟩
      · exact (List.append_inj' g1 rfl).1.symm
  subst same
  have hbad : bad' = bad := by
    rw [h1] at g1
    exact (List.append_cancel_left g1).symm
  subst hbad
  have hin : InStep U c s := Steps.inv (P := InStep U c)
    (fun _ _ _ _ st i => i.step hU henc hc hc' st) h.steps
    (fun _ => ⟨by simp [Sim.init, DynTable.WF, sizes], ⟨by simp [Sim.init], by simp [Sim.init]⟩, rfl,
      ⟨[], c⟩, rfl, rfl, fun _ => .nil⟩)
  obtain ⟨-, -, -, T', -, -, k⟩ := hin hsub
  refine ⟨good', bad', _, _, first, outs, extra, T, T', h1, g2, rfl, h3,
    fun limit => Replies.clientSees h2 _ _ rfl (k limit), h4, ?_, h6⟩
  rcases h5 with rfl | ⟨h5, f, rfl, -⟩
  · exact .inl rfl
  · refine .inr ⟨h5, f, rfl, ?_⟩
    rcases g4 with ⟨g4, -⟩ | ⟨-, g, g5, u⟩
    · simp at g4
    · simp at g5; subst g5; exact u

/-- The fields of `exCfg`'s responses. -/
def exFields : List Header :=
  [⟨b!":status", b!"200"⟩, ⟨b!"content-length", b!"2"⟩, ⟨b!"server", b!"ion"⟩, ⟨b!"x-powered-by", b!"ion"⟩]

/-- Two requests on one connection; all conditions hold, for a client with the default table limit. -/
example : SmallVocabulary exFields ∧
    (∀ h ∈ exFields, Encodable exCfg.charSigned h.name ∧ Encodable exCfg.charSigned h.value) ∧
    sizes exFields ≤ 4096 ∧
    ∃ r s, Called exCfg 0 0 r s ∧ (r == .wantRead && (frames s.trace).length == 2 &&
      (responses s.trace).length == 2 &&
      (responses s.trace).all (fun x => decide (x.2.2.length < 2 ^ 24) &&
        x.2.1.headers.all fun h => decide (h ∈ exFields))) = true := by
  refine ⟨⟨by decide, ?_⟩, ?_, by decide +kernel, ?_⟩
  · intro x hx y hy h
    simp only [exFields, List.mem_cons, List.not_mem_nil, or_false] at hx hy
    rcases hx with rfl | rfl | rfl | rfl <;> rcases hy with rfl | rfl | rfl | rfl <;>
      first | exact .inr rfl | (exfalso; revert h; decide +kernel)
  · intro h hm
    simp only [exFields, List.mem_cons, List.not_mem_nil, or_false] at hm
    rcases hm with rfl | rfl | rfl | rfl <;>
      exact ⟨⟨by decide +kernel, .inr (.inr (by decide +kernel))⟩, by decide +kernel, .inr (.inr (by decide +kernel))⟩
  · exact Shows.called (e := exEnv (clientPreface ++ exGet ++ exGet) [71, 24]) (es := []) (by decide +kernel)

/-- An application whose second response has another value for a field of the first. -/
def exClash : Cfg Nat :=
  { getHandler := fun _ _ => fun _ n => (.resp { status := 200, headers :=
      if n = 0 then [⟨b!"x-a", b!"1"⟩, ⟨b!"x-b", b!"1"⟩] else [⟨b!"x-a", b!"2"⟩] }, n + 1) }

/-- The fields of its first response. -/
def exFirst : List Header :=
  [⟨b!":status", b!"200"⟩, ⟨b!"x-a", b!"1"⟩, ⟨b!"x-b", b!"1"⟩, ⟨b!"server", b!"ion"⟩,
    ⟨b!"x-powered-by", b!"ion"⟩]

/-- The block of its first response. -/
def exBlock : Bytes :=
  [136, 64, 3, 120, 45, 97, 1, 49, 64, 3, 120, 45, 98, 1, 49, 118, 3, 105, 111, 110, 64, 137, 242, 181,
    103, 240, 91, 11, 34, 209, 250, 3, 105, 111, 110]

/-- C84 without the condition on names is false. The second response is written so that the client,
which has read the first one correctly and has the same table, cannot read it as what the handler
returned (it reads `:authority: 2` for `x-a: 2`). -/
theorem C84_refuted : ∃ r s a b T, Called exClash 0 0 r s ∧ r = .wantRead ∧ responses s.trace = [a, b] ∧
    (∃ reps, BlockWire Dialect.rfc reps a.2.2 ∧
      execReps 65536 ⟨[], 65536⟩ reps = some (a.2.1.headers, T)) ∧
    (∃ r, ResponseFields r b.2.1.headers ∧ r.headers = [⟨b!"x-a", b!"2"⟩]) ∧
    ∀ reps, BlockWire Dialect.rfc reps b.2.2 →
      ¬ ∃ T', execReps 65536 T reps = some (b.2.1.headers, T') := by
  have hrun : ∃ r s, Called exClash 0 0 r s ∧ (r == .wantRead && responses s.trace ==
      [(1, { status := 200, headers := exFirst }, exBlock),
        (1, finishResponse { status := 200, headers := [⟨b!"x-a", b!"2"⟩] }, [136, 65, 1, 50, 192, 191])])
      = true :=
    Shows.called (e := exEnv (clientPreface ++ exGet ++ exGet) [71, 15]) (es := []) (by decide +kernel)
  obtain ⟨r, s, h1, h2⟩ := hrun
  simp only [Bool.and_eq_true, beq_iff_eq] at h2
  have hU : SmallVocabulary exFirst := by
    refine ⟨by decide, ?_⟩
    intro x hx y hy h
    simp only [exFirst, List.mem_cons, List.not_mem_nil, or_false] at hx hy
    rcases hx with rfl | rfl | rfl | rfl | rfl <;> rcases hy with rfl | rfl | rfl | rfl | rfl <;>
      first | exact .inr rfl | (exfalso; revert h; decide +kernel)
  have hE : ∀ h ∈ exFirst, Encodable true h.name ∧ Encodable true h.value := by
    intro h hm
    simp only [exFirst, List.mem_cons, List.not_mem_nil, or_false] at hm
    rcases hm with rfl | rfl | rfl | rfl | rfl <;>
      exact ⟨⟨by decide +kernel, .inr (.inr (by decide +kernel))⟩, by decide +kernel,
        .inr (.inr (by decide +kernel))⟩
  obtain ⟨w, t', reps, T', g1, g2, g3, g4, g5, g6, g7, g8⟩ := encodeBlock_client (ε := FrameError)
    true exFirst hU hE exFirst {} ⟨[], 65536⟩ ⟨rfl, Nat.zero_le _⟩ ⟨by simp, by simp⟩ rfl (.inl rfl)
    (fun _ h => .inr h)
  have e : (encodeBlock true {} exFirst : Outcome FrameError _) = .ok (exBlock,
      { table := (exFirst.drop 1).reverse, tableSize := 160 }) := by decide +kernel
  rw [g1] at e
  cases e
  obtain ⟨T1, T2⟩ := T'
  simp only at g4 g5
  subst g4 g5
  refine ⟨r, s, _, _, ⟨(exFirst.drop 1).reverse, 65536⟩, h1, h2.1, h2.2, ⟨reps, g7, g8 _⟩,
    ⟨_, finishResponse_fields _, rfl⟩, ?_⟩
  have hb : BlockWire Dialect.rfc [.indexed 8, .literal .incremental (.index 1) b!"2", .indexed 64, .indexed 63]
      [136, 65, 1, 50, 192, 191] :=
    .cons _ _ [136] _ (.indexed _ _ (.short _ (by decide) (by decide)))
      (.cons _ _ [65, 1, 50] _ (.literalIndexed _ _ _ [65] [1, 50] (by decide)
          (.short _ (by decide) (by decide)) (.plain [1] (.short _ (by decide) (by decide)) trivial))
        (.cons _ _ [192] _ (.indexed _ _ (.short _ (by decide) (by decide)))
          (.cons _ _ [191] _ (.indexed _ _ (.short _ (by decide) (by decide))) .nil)))
  rintro reps' hr ⟨T', he⟩
  rw [← blockWire_unique hb hr] at he
  have : (execReps 65536 ⟨(exFirst.drop 1).reverse, 65536⟩
      [.indexed 8, .literal .incremental (.index 1) b!"2", .indexed 64, .indexed 63]).map (·.1) =
    some [⟨b!":status", b!"200"⟩, ⟨b!":authority", b!"2"⟩, ⟨b!"server", b!"ion"⟩,
      ⟨b!"x-powered-by", b!"ion"⟩] := by decide +kernel
  rw [he] at this
  simp only [Option.map_some, Option.some.injEq] at this
  revert this
  decide +kernel

end Sim
end Ion
