import Verif.Props.ConnHold
import Verif.Props.ConnServe

/-! # How large a request becomes (C116) -/

namespace Ion
open Spec

/-- Octets of the names and values of a field section. -/
def Spec.octets (fields : List Header) : Nat := (fields.map fun h => h.name.length + h.value.length).sum

namespace Sim
variable {W : Type}

/-! ### What holds -/

theorem octets_le {fields : List Header} (h : ∀ x ∈ fields, x.Short) : octets fields ≤ 8192 * fields.length := by
  induction fields with
  | nil => simp [octets]
  | cons x xs ih =>
    have h1 := h x (List.mem_cons_self ..)
    have h2 := ih fun y hy => h y (List.mem_cons_of_mem _ hy)
    simp only [octets, List.map_cons, List.sum_cons, List.length_cons] at h2 ⊢
    have h3 := h1.1
    have h4 := h1.2
    omega

theorem FieldBlock.length {f : Frame} {block : Bytes} (h : FieldBlock f block) :
    block.length ≤ f.payload.length := by
  unfold FieldBlock at h
  split at h
  · rw [h]; exact Nat.le_refl _
  · obtain ⟨p, h1, h2⟩ := h
    rw [h2, List.length_append]; omega

theorem Serves.octets {cfg : Cfg W} {w0 : W} {ins : List Frame} {calls : List (HttpRequest × HOut)}
    {answers : List (Nat × List Header × Bytes)} {T : Table} {w : W} (h : Serves cfg w0 ins calls answers T w) :
    (∀ x ∈ T.entries, x.Short) ∧ ∀ q ∈ calls, ∃ f ∈ ins, f.type = 1 ∧
      Spec.octets q.1.headers ≤ 8192 * f.payload.length := by
  induction h with
  | nil => simp
  | request ins calls answers T T' w w' f block fields path method o r out h ht hb hr hp hm hh ho hf ih =>
    obtain ⟨reps, h1, h2⟩ := hr
    have h3 := execReps_short h1 h2 ih.1
    refine ⟨h3.2, fun q hq => ?_⟩
    rcases List.mem_append.mp hq with hq | hq
    · obtain ⟨g, g1, g2⟩ := ih.2 q hq
      exact ⟨g, List.mem_append_left _ g1, g2⟩
    · rw [List.mem_singleton] at hq
      subst hq
      refine ⟨f, by simp, ht, ?_⟩
      have h4 := octets_le h3.1
      have h5 := execReps_count h1 h2
      have h6 := FieldBlock.length hb
      exact Nat.le_trans h4 (Nat.mul_le_mul_left _ (Nat.le_trans h5 h6))
  | incomplete ins calls answers T T' w f block fields h ht hb hr hn ih =>
    obtain ⟨reps, h1, h2⟩ := hr
    have h3 := execReps_short h1 h2 ih.1
    refine ⟨h3.2, fun q hq => ?_⟩
    obtain ⟨g, g1, g2⟩ := ih.2 q hq
    exact ⟨g, List.mem_append_left _ g1, g2⟩
  | other ins calls answers T w f h ht hs ih =>
    refine ⟨ih.1, fun q hq => ?_⟩
    obtain ⟨g, g1, g2⟩ := ih.2 q hq
    exact ⟨g, List.mem_append_left _ g1, g2⟩

theorem frames_small {cfg : Cfg W} {c : Bool} {w : W} {now : Nat} {s : Sim W} (h : Steps cfg c (init w now) s) :
    ∀ f ∈ frames s.trace, f.payload.length ≤ 16384 := by
  refine Steps.inv (P := fun s => ∀ f ∈ frames s.trace, f.payload.length ≤ 16384) ?_ h (by simp [Sim.init, frames])
  intro b s t _ st i
  cases st with
  | frame _ s1 hst hdr hh hl hr hw ha =>
    obtain ⟨evs, h1, h2⟩ := ha.events
    intro f hf
    simp only [h1, frames_append, List.mem_append, (AnsEv.proj h2).2.2.1, List.not_mem_nil, or_false] at hf
    rcases hf with hf | hf
    · exact i f hf
    · simp only [frames, List.mem_singleton] at hf
      subst hf
      rw [List.length_take]
      omega
  | readFailed _ e =>
    have : frames (s.readFailed e).trace = frames s.trace := by cases e <;> simp [readFailed, emit, updateState, frames]
    rw [this]; exact i
  | preface _ rest =>
    intro f hf
    refine i f ?_
    simpa [enq, emit, frames, settingsChunks] using hf
  | _ =>
    all_goals first
      | exact i
      | (intro f hf; simp only [enq, frames_append, List.mem_append] at hf
         rcases hf with hf | hf
         · exact i f hf
         · simp [frames] at hf)

/-- C116, what holds: the names and values handed to a handler have at most 8192 octets for every octet of
payload of the frame they came in, and so at most 128 MiB. -/
theorem C116_bound_partial (cfg : Cfg W) (w : W) (now : Nat) (r : ProcRes) (s : Sim W) (h : Called cfg w now r s) :
    ∀ q ∈ handled s.trace, octets q.1.headers ≤ 2 ^ 27 ∧
      ∃ f ∈ frames s.trace, f.header.type = 1 ∧ octets q.1.headers ≤ 8192 * f.payload.length := by
  obtain ⟨good, bad, T, w', h1, h2, rfl, -⟩ := h.steps.servedTo
  intro q hq
  obtain ⟨f, hf, ht, hl⟩ := (Serves.octets h2).2 q hq
  obtain ⟨g, hg, rfl⟩ := List.mem_map.mp hf
  have hm : g ∈ frames s.trace := by rw [h1]; exact List.mem_append_left _ hg
  have hs := frames_small h.steps g hm
  refine ⟨?_, g, hm, ht, hl⟩
  have : (asFrame g).payload = g.payload := rfl
  rw [this] at hl
  omega

/-- A connection with one request. -/
example : ∃ r s, Called exCfg 0 0 r s ∧ ((handled s.trace).length == 1) = true :=
  Shows.called (e := exEnv (clientPreface ++ exSettings ++ exGet) [36, 44]) (es := []) (by decide +kernel)

/-! ### The amplifier -/

/-- 4096 octets. -/
@[irreducible] def longName : Bytes := List.replicate 4096 97

/-- 4096 other octets. -/
@[irreducible] def longValue : Bytes := List.replicate 4096 98

theorem longName_length : longName.length = 4096 := by unfold longName; rw [List.length_replicate]
theorem longValue_length : longValue.length = 4096 := by unfold longValue; rw [List.length_replicate]

theorem longName_ne (name : Bytes) (h : name.length < 4096) : longName ≠ name := by
  intro e
  have := longName_length
  rw [e] at this
  omega

/-- A field with as long a name and value as ion reads. -/
def longField : Header := ⟨longName, longValue⟩

/-- `GET /` with the field once spelt out and `k` times by its index. -/
def bombReps (k : Nat) : List Rep :=
  .indexed 2 :: .indexed 4 :: .literal .incremental (.new longName) longValue :: List.replicate k (.indexed 62)

def bombFields (k : Nat) : List Header :=
  ⟨b!":method", b!"GET"⟩ :: ⟨b!":path", b!"/"⟩ :: longField :: List.replicate k longField

/-- The octets: 8201 and one for each repetition. -/
def bombBlock (k : Nat) : Bytes :=
  [0x82] ++ ([0x84] ++ (([0x40] ++ (([0x7f, 0x81, 0x1f] ++ longName) ++ ([0x7f, 0x81, 0x1f] ++ longValue))) ++
    List.replicate k 0xBE))

theorem bombBlock_length (k : Nat) : (bombBlock k).length = 8201 + k := by
  simp only [bombBlock, List.length_append, List.length_cons, List.length_nil, longName_length, longValue_length,
    List.length_replicate]
  omega

theorem bombFields_octets (k : Nat) : octets (bombFields k) = 8192 * (k + 1) + 16 := by
  have : ∀ k, octets (List.replicate k longField) = 8192 * k := by
    intro k
    induction k with
    | zero => rfl
    | succ k ih =>
      simp only [octets, longField] at ih
      simp only [octets, List.replicate_succ, List.map_cons, List.sum_cons, ih, longField, longName_length,
        longValue_length]
      omega
  have h := this k
  simp only [octets, longField] at h
  simp only [octets, bombFields, List.map_cons, List.sum_cons, h, longField, longName_length, longValue_length]
  have h1 : (b!":method" : Bytes).length = 7 ∧ (b!"GET" : Bytes).length = 3 ∧ (b!":path" : Bytes).length = 5 ∧
    (b!"/" : Bytes).length = 1 := by decide
  obtain ⟨h1, h2, h3, h4⟩ := h1
  rw [h1, h2, h3, h4]
  omega

theorem bomb_wire (k : Nat) : BlockWire Dialect.limited (bombReps k) (bombBlock k) := by
  have str : ∀ s : Bytes, s.length = 4096 → StrWire Dialect.limited s ([0x7f, 0x81, 0x1f] ++ s) := by
    intro s hs
    refine .plain _ ⟨?_, by decide, by rw [hs]; decide⟩ (by show s.length ≤ 4096; omega)
    rw [hs]
    exact .long 0x7f [0x81, 0x1f] (by decide) (.more _ _ (by decide) (.last _ (by decide))) (by decide)
  have rep : ∀ k, BlockWire Dialect.limited (List.replicate k (.indexed 62)) (List.replicate k 0xBE) := by
    intro k
    induction k with
    | zero => exact .nil
    | succ k ih =>
      exact .cons _ _ [0xBE] _ (.indexed _ _ ⟨.short _ (by decide) (by decide), by decide, by decide⟩) ih
  exact .cons _ _ [0x82] _ (.indexed _ _ ⟨.short _ (by decide) (by decide), by decide, by decide⟩)
    (.cons _ _ [0x84] _ (.indexed _ _ ⟨.short _ (by decide) (by decide), by decide, by decide⟩)
      (.cons _ _ _ _ (.literalNew .incremental longName longValue [0x40] _ _
        ⟨.short _ (by decide) (by decide), by decide, by decide⟩ (str _ longName_length) (str _ longValue_length)) (rep k)))

theorem bomb_exec (k : Nat) (T : Table) (hT : T.max = 65536) :
    ∃ T', execReps 65536 T (bombReps k) = some (bombFields k, T') := by
  have hsz : size longField = 8224 := by
    simp only [size, longField, longName_length, longValue_length]
  have rep : ∀ k (U : Table), U.lookup 62 = some longField →
      execReps 65536 U (List.replicate k (.indexed 62)) = some (List.replicate k longField, U) := by
    intro k U hU
    induction k with
    | zero => rfl
    | succ k ih =>
      rw [List.replicate_succ, execReps]
      simp only [execRep, hU, Option.map_some, ih, List.replicate_succ, List.cons_append, List.nil_append]
  have hU : (T.add longField).lookup 62 = some longField := by
    simp only [Table.lookup, Table.add, fit, hT, hsz]
    rfl
  refine ⟨T.add longField, ?_⟩
  have l2 : T.lookup 2 = some ⟨b!":method", b!"GET"⟩ := rfl
  have l4 : T.lookup 4 = some ⟨b!":path", b!"/"⟩ := rfl
  simp only [bombReps, execReps, execRep, l2, l4, Option.map_some, if_true]
  have := rep k _ hU
  simp only [longField] at this
  rw [this]
  rfl

/-- C116, "the field section handed to a handler is in proportion to the frame the client sent", refuted for
every proportion below 8192: a block of 8201 + k octets, sent to a new decoder, gives more than 8192 k octets of
names and values. -/
theorem C116_amplified (k : Nat) : ∃ fields t', decodeBlock {} (bombBlock k) = .ok fields t' ∧
    (bombBlock k).length = 8201 + k ∧ octets fields = 8192 * (k + 1) + 16 := by
  obtain ⟨T', h⟩ := bomb_exec k ({} : DynTable).abs rfl
  obtain ⟨t', h1, -⟩ := C14_decode_complete {} ⟨rfl, Nat.zero_le _⟩ _ _ (bomb_wire k) _ _ h
  exact ⟨_, t', h1, bombBlock_length k, bombFields_octets k⟩

/-- The header of a HEADERS frame on stream 1 with 16384 octets of payload. -/
def bombHeader : Bytes := [0, 0x40, 0, 1, 5, 0, 0, 0, 1]

/-- The client's frame arrives in two reads. -/
def bombEnv : Env := { reads := [.data bombHeader 8, .data (bombBlock 8183) 9] }

theorem bomb_responds (n : Nat) : Responds exCfg n (bombFields 8183)
    (finishResponse { status := 200, body := [104, 105] }) (n + 1)
    [.handled ⟨b!"GET", b!"/", bombFields 8183⟩ (.resp { status := 200, body := [104, 105] })] := by
  refine .handler b!"/" b!"GET" { status := 200, body := [104, 105] } (n + 1) ?_ ?_ rfl
  · simp only [bombFields, getHeader, List.find?_cons]
    rfl
  · simp only [bombFields, getHeader, List.find?_cons]
    rfl

/-- One round of the loop in which a frame arrives in two reads and is acted on. -/
theorem frame_iter (cfg : Cfg W) (s : Sim W) (hq : Quiet s) (hdr block : Bytes) (h : FrameHeader) (t1 t2 : Nat)
    (hr : s.reads = [.data hdr t1, .data block t2]) (hh : hdr.length = 9)
    (hp : FrameHeader.parse (ε := Stop) (hdr ++ block) = .ok h) (hl : h.length.toNat = block.length)
    (hm : block.length ≤ maxFrameSize) (s1 : Sim W)
    (ha : processFrame cfg { s with
      rbuf := hdr ++ block, reads := [], last := t2,
      trace := s.trace ++ [.read hdr t1] ++ [.read block t2] ++ [.readFail .wantReadOrWrite] ++
        [.frame ⟨h, block⟩] } ⟨h, block⟩ = .ok s1) (hb : s1.rbuf = hdr ++ block) :
    s.iter cfg = .ok (none, { s1 with rbuf := [] }) := by
  obtain ⟨st, rbuf, wbuf, dec, enc, last, world, hs, reads, writes, trace⟩ := s
  obtain ⟨h1, h2, h3⟩ := hq
  simp only at h1 h2 h3 hr ha
  subst h1 h2 h3 hr
  have e1 : (hdr ++ block).drop 9 = block := by rw [← hh, List.drop_left]
  have e2 : (hdr ++ block).length = 9 + block.length := by rw [List.length_append, hh]
  have e3 : block.take h.length.toNat = block := by rw [hl, List.take_length]
  have e4 : ¬ h.length.toNat > maxFrameSize := by omega
  have c1 : ¬ (hdr ++ block).length + tempReadBufferSize ≥ maxReadBufferSize := by
    simp only [e2, tempReadBufferSize, maxReadBufferSize, maxFrameSize] at hm ⊢
    omega
  have c2 : ¬ hdr.length + tempReadBufferSize ≥ maxReadBufferSize := by
    rw [hh]; decide
  have c3 : ¬ ([] : Bytes).length + tempReadBufferSize ≥ maxReadBufferSize := by decide
  rw [iter, if_neg (by dsimp only; decide)]
  simp only [turn, flush, fill, fillLoop, if_true, c1, c2, c3, if_false, List.nil_append, emit, readFailed,
    bind, Outcome.bind, dispatch, frameCase, tryReadFrame]
  rw [if_neg (by simp), if_neg (by omega), hp]
  dsimp only
  rw [if_neg e4, if_neg (by omega), e1, e3, ha]
  simp only [discardProcessed, if_true, hb]
  rw [List.drop_of_length_le (by omega)]

/-- A request that arrives in two reads when nothing is left to be done, and is answered by a handler. -/
theorem request_process (cfg : Cfg W) (s : Sim W) (hq : Quiet s) (hdr block : Bytes) (h : FrameHeader) (t1 t2 : Nat)
    (hh : hdr.length = 9) (hp : FrameHeader.parse (ε := Stop) (hdr ++ block) = .ok h)
    (hl : h.length.toNat = block.length) (hm : block.length ≤ maxFrameSize) (ht : h.type = 1)
    (hf : h.flags &&& 32 = 0) (fields : List Header) (dec' : DynTable)
    (hd : decodeBlock s.dec block = .ok fields dec') (resp : HttpResponse) (w' : W) (q : HttpRequest) (o : HOut)
    (hr : Responds cfg s.world fields resp w' [.handled q o]) (blk : Bytes) (enc' : DynTable)
    (he : (encodeBlock cfg.charSigned s.enc resp.headers : Outcome Stop _) = .ok (blk, enc')) :
    ∃ s', s.process cfg { reads := [.data hdr t1, .data block t2] } = .ok (.wantWrite, s') ∧
      handled s'.trace = handled s.trace ++ [(q, o)] ∧ frames s'.trace = frames s.trace ++ [⟨h, block⟩] ∧
      produced s'.trace = produced s.trace ++ (responseChunks h.streamId resp blk).flatten ∧
      accepted s'.trace = accepted s.trace ∧
      responses s'.trace = responses s.trace ++ [(h.streamId, resp, blk)] := by
  obtain ⟨st, rbuf, wbuf, dec, enc, last, world, hs, reads, writes, trace⟩ := s
  obtain ⟨h1, h2, h3⟩ := hq
  simp only at h1 h2 h3 hd hr he
  subst h1 h2 h3
  let e : Env := { reads := [.data hdr t1, .data block t2] }
  let tr := trace ++ [.read hdr t1] ++ [.read block t2] ++ [.readFail .wantReadOrWrite] ++ [.frame ⟨h, block⟩]
  let s0 : Sim W := ⟨.awaitingFrame, [], [], dec, enc, last, world, e.hs, e.reads, e.writes, trace⟩
  let sf : Sim W := ⟨.awaitingFrame, hdr ++ block, [], dec, enc, t2, world, e.hs, [], [], tr⟩
  have hact := (Acts.request (cfg := cfg) (s := sf) (f := ⟨h, block⟩) block fields dec' resp [.handled q o] w' blk
    enc' ht (by simp [FrameReader.headersBlock, FrameReader.priority, FrameReader.hasFlag, hf]) hd hr he).processFrame
  obtain ⟨s1, hact, hs1⟩ : ∃ s1, processFrame cfg sf ⟨h, block⟩ = .ok s1 ∧
      s1 = ⟨.awaitingFrame, hdr ++ block, (responseChunks h.streamId resp blk).flatten, dec', enc', t2, w', e.hs,
        [], [], tr ++ answerEvs [.handled q o] h.streamId fields resp blk⟩ := ⟨_, hact, rfl⟩
  have hw1 : s1.wbuf ≠ [] := by
    rw [hs1]
    have : ∀ (h : FrameHeader) x, h.serialize ++ x ≠ [] := by
      intro h x hx
      have := congrArg List.length hx
      simp [FrameHeader.serialize, storeU24, storeU32] at this
    exact this _ _
  have hst1 : s1.st = .awaitingFrame := by rw [hs1]
  have hwr1 : s1.writes = [] := by rw [hs1]
  have it1 : s0.iter cfg = .ok (none, { s1 with rbuf := [] }) :=
    frame_iter cfg s0 ⟨rfl, rfl, rfl⟩ hdr block h t1 t2 rfl hh hp hl hm s1 hact (by rw [hs1])
  have it2 : ({ s1 with rbuf := [] } : Sim W).iter cfg = .ok (some .wantWrite,
      { s1 with rbuf := [], trace := s1.trace ++ [.write s1.wbuf (.fail .wantReadOrWrite)] }) := by
    simp [iter, turn, flush, hst1, hw1, hwr1, emit]
  obtain ⟨n, hbud⟩ : ∃ n, s0.budget = n + 2 := ⟨s0.budget - 2, by
    have : 2 ≤ s0.budget := by
      simp only [budget, s0, e, available]
      omega
    omega⟩
  refine ⟨{ s1 with rbuf := [], trace := s1.trace ++ [.write s1.wbuf (.fail .wantReadOrWrite)] ++
    [.returned .wantWrite] }, ?_, ?_, ?_, ?_, ?_, ?_⟩
  · rw [process]
    show (s0.loop cfg s0.budget >>= fun x => .ok (x.1, x.2.emit (.returned x.1))) = _
    rw [hbud, loop, it1]
    simp only [Outcome.bind_ok]
    rw [loop, it2]
    rfl
  · rw [hs1]
    simp [tr, handled, answerEvs]
  · rw [hs1]
    simp [tr, frames, answerEvs]
  · rw [hs1]
    simp [tr, produced, answerEvs]
  · rw [hs1]
    simp [tr, accepted, answerEvs]
  · rw [hs1]
    simp [tr, responses, answerEvs]

theorem bomb_process (s : Sim Nat) (hq : Quiet s) (hd : s.dec = {}) (he : s.enc = {}) :
    ∃ s', s.process exCfg bombEnv = .ok (.wantWrite, s') ∧
      handled s'.trace = handled s.trace ++
        [(⟨b!"GET", b!"/", bombFields 8183⟩, .resp { status := 200, body := [104, 105] })] ∧
      frames s'.trace = frames s.trace ++ [⟨⟨16384, 1, 5, 1⟩, bombBlock 8183⟩] := by
  obtain ⟨T', hx⟩ := bomb_exec 8183 ({} : DynTable).abs rfl
  obtain ⟨dec', hdec, -⟩ := C14_decode_complete {} ⟨rfl, Nat.zero_le _⟩ _ _ (bomb_wire 8183) _ _ hx
  have hl := bombBlock_length 8183
  have hp : ∀ x : Bytes, FrameHeader.parse (ε := Stop) (bombHeader ++ x) = .ok ⟨16384, 1, 5, 1⟩ := fun x => rfl
  obtain ⟨blk, enc', henc⟩ : ∃ blk enc', (encodeBlock exCfg.charSigned {}
      (finishResponse { status := 200, body := [104, 105] }).headers : Outcome Stop _) = .ok (blk, enc') := by
    have : (match (encodeBlock exCfg.charSigned {} (finishResponse { status := 200, body := [104, 105] }).headers :
      Outcome Stop _) with | .ok _ => true | _ => false) = true := by decide +kernel
    split at this
    · rename_i x hx; exact ⟨x.1, x.2, hx⟩
    · cases this
  obtain ⟨s', e1, e2, e3, -⟩ := request_process exCfg s hq bombHeader (bombBlock 8183) ⟨16384, 1, 5, 1⟩ 8 9 rfl (hp _) (by rw [hl]; decide)
    (by rw [hl]; decide) rfl (by decide) (bombFields 8183) dec' (by rw [hd]; exact hdec) _ (s.world + 1) _ _
    (bomb_responds _) blk enc' (by rw [he]; exact henc)
  exact ⟨s', e1, e2, e3⟩

/-- The same on a connection: a client that sends its preface, SETTINGS and one HEADERS frame of 16384 octets has a
handler called with a request of 67043344 octets, 64 MiB; no frame it sent is longer. -/
theorem C116_refuted : ∃ r s q, Called exCfg 0 0 r s ∧ handled s.trace = [q] ∧
    octets q.1.headers = 67043344 ∧ (frames s.trace).map (fun f => f.payload.length) = [0, 16384] := by
  obtain ⟨r, s, h1, h2⟩ : ∃ r s, Called exCfg 0 0 r s ∧
      (r == .wantRead && s.st == .awaitingFrame && s.rbuf == [] && s.wbuf == [] && decide (s.dec = {}) &&
        decide (s.enc = {}) && decide (handled s.trace = []) &&
        (frames s.trace).map (fun f => f.payload.length) == [0]) = true :=
    Shows.called (e := exEnv (clientPreface ++ exSettings) [36]) (es := []) (by decide +kernel)
  simp only [Bool.and_eq_true, beq_iff_eq, decide_eq_true_eq] at h2
  obtain ⟨⟨⟨⟨⟨⟨⟨h3, h4⟩, h5⟩, h6⟩, h7⟩, h8⟩, h9⟩, h10⟩ := h2
  obtain ⟨s', e1, e2, e3⟩ := bomb_process s ⟨h4, h5, h6⟩ h7 h8
  refine ⟨_, s', _, ⟨s, bombEnv, h1.inUse (by simp [h3]), e1⟩, by rw [e2, h9, List.nil_append], ?_, ?_⟩
  · exact bombFields_octets 8183
  · rw [e3, List.map_append, h10]
    have := bombBlock_length 8183
    simp only [List.map_cons, List.map_nil, this, List.cons_append, List.nil_append]

end Sim
end Ion
