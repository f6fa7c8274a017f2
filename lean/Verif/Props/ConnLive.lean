import Verif.Props.ConnDiscard
import Verif.Props.ConnTotal
import Verif.Props.ConnSend
import Verif.Props.ConnInput

/-!
# A conforming client is served (C129)

The properties before this one say what a connection does not do, or what it has done if it returns. Here
is what a client can rely on: if it keeps to RFC 9113 and RFC 7541, and the transport does not break, the
connection is never given up, and every request is answered in the call that receives its last octet, as
soon as the transport takes the octets.
-/

namespace Ion
namespace Spec

/-- A frame that a server with header table `T` can act on, and the table afterwards: a HEADERS frame with
a readable field block, or another frame but GOAWAY (which ends the connection), with SETTINGS and
WINDOW_UPDATE frames of a proper length (RFC 9113, 6.5 and 6.9). -/
def Acceptable (T : Table) (f : Frame) (T' : Table) : Prop :=
  (f.type = 1 ∧ ∃ block fields, FieldBlock f block ∧ ReadsAs T block fields T') ∨
  (f.type ≠ 1 ∧ T' = T ∧ ¬ BadSettings f ∧ f.type ≠ 7 ∧ (f.type = 8 → 4 ≤ f.payload.length))

/-- The frames can be acted on one after the other. -/
inductive Readable : List Frame → Table → Prop
  | nil : Readable [] ⟨[], 65536⟩
  | snoc (fs : List Frame) (f : Frame) (T T' : Table) (h : Readable fs T) (hf : Acceptable T f T') :
      Readable (fs ++ [f]) T'

/-- What a client that keeps to the rules sends: frames that can be acted on, of at most 16384 octets
(SETTINGS_MAX_FRAME_SIZE, RFC 9113, 4.2). -/
structure Conforming (fs : List Frame) : Prop where
  readable : ∃ T, Readable fs T
  size : ∀ f ∈ fs, f.payload.length ≤ 16384

theorem Readable.split {fs ins more : List Frame} {f : Frame} {T : Table} (h : Readable fs T)
    (e : fs = ins ++ f :: more) : ∃ T0 T1, Readable ins T0 ∧ Acceptable T0 f T1 := by
  induction h generalizing more with
  | nil => simp at e
  | snoc fs g T T' h hf ih =>
    rcases List.eq_nil_or_concat more with rfl | ⟨more', x, rfl⟩
    · obtain ⟨rfl, e2⟩ := List.append_inj' e rfl
      cases e2
      exact ⟨T, T', h, hf⟩
    · have e : fs ++ [g] = (ins ++ f :: more') ++ [x] := by simpa using e
      obtain ⟨rfl, -⟩ := List.append_inj' e rfl
      exact ih rfl

theorem Readable.prefix {fs ins : List Frame} {T : Table} (h : Readable fs T) (e : ins <+: fs) :
    ∃ T0, Readable ins T0 := by
  obtain ⟨more, rfl⟩ := e
  cases more with
  | nil => exact ⟨T, by simpa using h⟩
  | cons f more =>
    obtain ⟨T0, -, h1, -⟩ := h.split rfl
    exact ⟨T0, h1⟩

end Spec

open Spec
namespace Sim
variable {W : Type}

/-- With an application that answers or throws `std::exception`s, frames that can be acted on are served. -/
theorem Readable.serves {cfg : Cfg W} (happ : GoodApp cfg) (w : W) {fs : List Frame} {T : Table}
    (h : Readable fs T) : ∃ calls answers w', Serves cfg w fs calls answers T w' := by
  induction h with
  | nil => exact ⟨_, _, _, .nil⟩
  | snoc fs f T T' h hf ih =>
    obtain ⟨calls, answers, w1, ih⟩ := ih
    rcases hf with ⟨ht, block, fields, hb, hr⟩ | ⟨ht, rfl, hs, -, -⟩
    · cases hp : getHeader fields b!":path" with
      | none =>
        exact ⟨_, _, _, .incomplete _ _ _ _ _ _ _ _ _ ih ht hb hr (.inl (getHeader_none_iff.mp hp))⟩
      | some path =>
        cases hm : getHeader fields b!":method" with
        | none =>
          exact ⟨_, _, _, .incomplete _ _ _ _ _ _ _ _ _ ih ht hb hr (.inr (getHeader_none_iff.mp hm))⟩
        | some method =>
          rcases hh : cfg.getHandler path method ⟨method, path, fields⟩ w1 with ⟨o, w'⟩
          have ha := happ path method ⟨method, path, fields⟩ w1
          rw [hh] at ha
          have hp := getHeader_some_iff.mp hp
          have hm := getHeader_some_iff.mp hm
          rcases ha with ⟨r, ho, -⟩ | ho
          · exact ⟨_, _, _, .request _ _ _ _ _ _ _ _ _ _ _ _ _ r _ ih ht hb hr hp hm hh (.inl ho)
              (finishResponse_fields r)⟩
          · exact ⟨_, _, _, .request _ _ _ _ _ _ _ _ _ _ _ _ _ { status := 500 } _ ih ht hb hr hp hm hh
              (.inr ⟨ho, rfl⟩) (finishResponse_fields _)⟩
    · exact ⟨_, _, _, .other _ _ _ _ _ _ ih ht hs⟩

/-- What was served before determines the table a frame is read with. -/
theorem Readable.next {cfg : Cfg W} (happ : GoodApp cfg) {w w' : W} {fs ins : List Frame} {f : Frame}
    {T T1 : Table} {calls : List (HttpRequest × HOut)} {answers : List (Nat × List Header × Bytes)}
    (h : Readable fs T) (hs : Serves cfg w ins calls answers T1 w') (e : ins ++ [f] <+: fs) :
    ∃ T2, Acceptable T1 f T2 := by
  obtain ⟨more, rfl⟩ := e
  obtain ⟨T0, T2, h1, h2⟩ := h.split (ins := ins) (f := f) (more := more) (by simp)
  obtain ⟨c, a, w2, h3⟩ := Readable.serves happ w h1
  obtain ⟨-, -, rfl, -⟩ := C83_determined cfg w ins _ _ _ _ _ _ _ _ hs h3
  exact ⟨T2, h2⟩

theorem Acceptable.not_refused {T : Table} {f : Frame} {T' : Table} (h : Acceptable T f T') :
    ¬ Unacceptable T f := by
  rintro (hu | ⟨ht, block, hb, hn⟩)
  · rcases h with ⟨ht, -⟩ | ⟨-, -, hs, -⟩
    · have := hu.1.1
      rw [ht] at this
      cases this
    · exact hs hu
  · rcases h with ⟨-, block', fields, hb', hr⟩ | ⟨ht', -⟩
    · obtain rfl := FieldBlock.unique hb hb'
      exact hn _ _ hr
    · exact ht' ht

/-- Acting on such a frame returns. -/
theorem processFrame_acceptable {cfg : Cfg W} (happ : GoodApp cfg) {s : Sim W} (hd : s.dec.WF)
    (he : s.enc.WF) {f : FrameReader} {T' : Table} (h : Acceptable s.dec.abs (asFrame f) T') :
    ∃ s', processFrame cfg s f = .ok s' := by
  unfold processFrame
  split
  · split
    · exact ⟨_, rfl⟩
    · split
      · exact ⟨_, rfl⟩
      · rename_i u hu; exact absurd hu ((C24_in_bounds_partial f).1 u)
      · exact ⟨_, rfl⟩
  · split
    · rename_i ht
      rcases h with ⟨-, block, fields, hb, hr⟩ | ⟨ht', -⟩
      · have hblk : (f.headersBlock : Outcome Stop Bytes) = .ok block := by
          unfold FrameReader.headersBlock FrameReader.priority FrameReader.hasFlag
          by_cases hp : f.header.flags &&& 0x20 = 0
          · have hb : f.payload = block := by simpa [FieldBlock, asFrame, hp] using hb
            simp [hp, hb]
          · have hb : ∃ priority, priority.length = 5 ∧ f.payload = priority ++ block := by
              simpa [FieldBlock, asFrame, hp] using hb
            obtain ⟨pr, h5, hpl⟩ := hb
            have h5' : ¬ f.payload.length < 5 := by rw [hpl, List.length_append]; omega
            have hdr : f.payload.drop 5 = block := by rw [hpl]; exact List.drop_left' h5
            simp [hp, hdr]
            omega
        obtain ⟨t', k1, -, -⟩ := ReadsAs.decode hd hr
        rw [hblk, Outcome.bind_ok, k1]
        exact answerRequest_defined happ (s := { s with dec := t' }) he _ _
      · exact absurd ht ht'
    · split
      · rename_i ht
        rcases h with ⟨ht', -⟩ | ⟨-, -, -, -, h8⟩
        · simp only [asFrame] at ht'
          rw [ht] at ht'
          cases ht'
        · have := h8 ht
          simp only [asFrame] at this
          unfold FrameReader.readWindowUpdate WindowUpdate.parse
          match hp : f.payload, this with
          | a :: b :: c :: d :: rest, _ => exact ⟨_, by simp; rfl⟩
      · split <;> exact ⟨_, rfl⟩

/-! ### What a call uses of the transport -/

/-- From `s` to `s'` only results of the transport given with `s` were used, and what is left of them is
given with `s'`. -/
def Uses (s s' : Sim W) : Prop :=
  s'.hs = s.hs ∧ s'.reads <:+ s.reads ∧ s'.writes <:+ s.writes ∧ ∃ evs, s'.trace = s.trace ++ evs ∧
    (∀ e, Ev.readFail e ∈ evs → e = .wantReadOrWrite ∨ ReadRes.fail e ∈ s.reads) ∧
    (∀ a e, Ev.write a (.fail e) ∈ evs → e = .wantReadOrWrite ∨ WriteRes.fail e ∈ s.writes)

theorem Uses.refl (s : Sim W) : Uses s s :=
  ⟨rfl, List.suffix_refl _, List.suffix_refl _, [], by simp, by simp, by simp⟩

theorem Uses.trans {s t u : Sim W} (h : Uses s t) (k : Uses t u) : Uses s u := by
  obtain ⟨h1, h2, h3, e1, h4, h5, h6⟩ := h
  obtain ⟨k1, k2, k3, e2, k4, k5, k6⟩ := k
  refine ⟨k1.trans h1, k2.trans h2, k3.trans h3, e1 ++ e2, by rw [k4, h4]; simp, ?_, ?_⟩
  · intro e he
    rcases List.mem_append.mp he with he | he
    · exact h5 e he
    · exact (k5 e he).imp_right fun h => h2.subset h
  · intro a e he
    rcases List.mem_append.mp he with he | he
    · exact h6 a e he
    · exact (k6 a e he).imp_right fun h => h3.subset h

/-- Steps that do not touch the transport. -/
theorem Uses.quiet {s s' : Sim W} (h1 : s'.hs = s.hs) (h2 : s'.reads = s.reads) (h3 : s'.writes = s.writes)
    {evs : List Ev} (h4 : s'.trace = s.trace ++ evs) (h5 : ∀ e, Ev.readFail e ∉ evs)
    (h6 : ∀ a r, Ev.write a r ∉ evs) : Uses s s' :=
  ⟨h1, h2 ▸ List.suffix_refl _, h3 ▸ List.suffix_refl _, evs, h4, fun _ he => absurd he (h5 _),
    fun a _ he => absurd he (h6 a _)⟩

theorem flush_uses {s s' : Sim W} (h : s.flush = .ok s') : Uses s s' := by
  unfold flush at h
  split at h
  · cases h; exact .refl _
  · have key : ∀ s2 : Sim W, s2.hs = s.hs → s2.reads = s.reads → s2.writes = s.writes.tail →
        s2.trace = s.trace ++ [.write s.wbuf (s.writes.headD (.fail .wantReadOrWrite))] → Uses s s2 := by
      intro s2 h1 h2 h3 h4
      refine ⟨h1, h2 ▸ List.suffix_refl _, h3 ▸ List.tail_suffix _, _, h4, by simp, ?_⟩
      intro a e he
      simp only [List.mem_singleton, Ev.write.injEq] at he
      cases hw : s.writes with
      | nil => rw [hw] at he; simp at he; exact .inl he.2
      | cons x xs => rw [hw] at he; simp at he; simp [he.2]
    simp only [emit, updateState] at h
    split at h
    · cases h; exact key _ rfl rfl rfl (by simp)
    · cases h; exact key _ rfl rfl rfl (by simp)
    · rename_i n t hr
      by_cases hn : n > s.wbuf.length
      · simp only [hn, if_true] at h; cases h
      · simp only [hn, if_false] at h
        cases h
        exact key _ rfl rfl rfl (by simp)

theorem fillLoop_uses (rs : List ReadRes) (s : Sim W) : Uses { s with reads := rs } (fillLoop rs s) := by
  induction rs generalizing s with
  | nil =>
    simp only [fillLoop]
    split
    · exact .refl _
    · exact ⟨rfl, List.suffix_refl _, List.suffix_refl _, [.readFail .wantReadOrWrite], rfl, by simp, by simp⟩
  | cons r rs ih =>
    simp only [fillLoop]
    split
    · exact .refl _
    · cases r with
      | fail e =>
        refine ⟨?_, ?_, ?_, [.readFail e], ?_, by simp, by simp⟩ <;>
          cases e <;> simp [Sim.readFailed, emit, updateState]
      | data bs t =>
        refine Uses.trans ?_ (ih ({ s with last := t, rbuf := s.rbuf ++ bs }.emit (.read bs t)))
        exact ⟨rfl, List.suffix_cons _ _, List.suffix_refl _, [.read bs t], rfl, by simp, by simp⟩

theorem fill_uses (s : Sim W) : Uses s s.fill := fillLoop_uses s.reads s

theorem frameCase_uses {cfg : Cfg W} {s s' : Sim W} {r : Option ProcRes}
    (h : s.frameCase cfg = .ok (r, s')) :
    Uses s s' ∧ r ≠ some .wantWrite ∧ (r = some .wantRead → s' = s ∧ s.rbuf.length < 16393) := by
  unfold frameCase tryReadFrame at h
  by_cases h9 : s.rbuf.length < 9
  · simp only [h9, if_true, Outcome.bind_ok] at h
    cases h
    exact ⟨.refl _, by simp, fun _ => ⟨rfl, by omega⟩⟩
  · simp only [h9, if_false] at h
    obtain ⟨hd, hp⟩ := parse_ok (bs := s.rbuf) (by omega)
    simp only [hp, Outcome.bind_ok] at h
    by_cases hbig : hd.length.toNat > maxFrameSize
    · rw [if_pos hbig] at h
      simp only [Outcome.bind_ok, if_true] at h
      cases h
      exact ⟨.quiet rfl rfl rfl (evs := []) (by simp [updateState]) (by simp) (by simp), by simp, by simp⟩
    · rw [if_neg hbig] at h
      have hbig : hd.length.toNat ≤ 16384 := by simpa [maxFrameSize] using hbig
      by_cases hsh : s.rbuf.length < 9 + hd.length.toNat
      · rw [if_pos hsh] at h
        simp only [Outcome.bind_ok] at h
        cases h
        exact ⟨.refl _, by simp, fun _ => ⟨rfl, by omega⟩⟩
      · rw [if_neg hsh] at h
        obtain ⟨⟨b, s1⟩, h1, h⟩ := Outcome.bind_eq_ok.mp h
        obtain ⟨s2, h2, h1⟩ := Outcome.bind_eq_ok.mp h1
        cases h1
        simp only [if_true] at h
        cases h
        have ha := processFrame_ok h2
        obtain ⟨evs, e1, e2⟩ := ha.events
        obtain ⟨-, -, r1, r2, r3⟩ := ha.rbuf
        refine ⟨.quiet r1 r2 r3 (evs := .frame ⟨hd, (s.rbuf.drop 9).take hd.length.toNat⟩ :: evs)
          (by simp [discardProcessed, e1, emit]) ?_ ?_, by simp, by simp⟩
        · intro e he
          simp at he
          exact e2 _ he
        · intro a x he
          simp at he
          exact e2 _ he

theorem dispatch_uses {cfg : Cfg W} {s s' : Sim W} {r : Option ProcRes}
    (h : s.dispatch cfg = .ok (r, s')) :
    Uses s s' ∧ r ≠ some .wantWrite ∧
      (r = some .wantRead → s'.reads = s.reads ∧ s.rbuf.length < 16417) := by
  unfold dispatch at h
  split at h
  · by_cases h1 : s.rbuf.length < clientPreface.length
    · simp only [readPreface, if_pos h1] at h
      cases h
      have : clientPreface.length = 24 := by decide
      exact ⟨.refl _, by simp, fun _ => ⟨rfl, by omega⟩⟩
    · by_cases h2 : s.rbuf.take clientPreface.length ≠ clientPreface
      · simp only [readPreface, if_neg h1, if_pos h2] at h
        cases h
        exact ⟨.refl _, by simp, by simp⟩
      · simp only [readPreface, if_neg h1, if_neg h2] at h
        obtain ⟨k1, k2, k3⟩ := frameCase_uses h
        rw [writeServerSettings_eq] at k1 k3
        refine ⟨Uses.trans ?_ k1, k2, ?_⟩
        · exact .quiet rfl rfl rfl (evs := .prefaceOk :: settingsChunks.map Ev.enqueue)
            (by simp [discardProcessed, updateState, enq, emit]) (by simp) (by simp)
        · intro hr
          obtain ⟨rfl, k4⟩ := k3 hr
          have : clientPreface.length = 24 := by decide
          simp only [discardProcessed, updateState, enq, emit, List.length_drop, this] at k4
          exact ⟨rfl, by omega⟩
  · obtain ⟨k1, k2, k3⟩ := frameCase_uses h
    exact ⟨k1, k2, fun hr => ⟨by rw [(k3 hr).1], by have := (k3 hr).2; omega⟩⟩
  · cases h
    exact ⟨.quiet rfl rfl rfl (evs := [.shutdown]) rfl (by simp) (by simp), by simp, by simp⟩
  · cases h
    refine ⟨?_, by simp, by simp⟩
    unfold Sim.close
    split
    · exact .refl _
    · exact .quiet rfl rfl rfl (by simp [writeGoAway, writeFrameHeader, enqueue, emit, updateState]; rfl)
        (by simp) (by simp)
  · cases h; exact ⟨.refl _, by simp, by simp⟩
  · cases h; exact ⟨.refl _, by simp, by simp⟩

theorem fill_data {rs : List ReadRes} (h : ∀ e, ReadRes.fail e ∉ rs) (s : Sim W) :
    49152 ≤ (fillLoop rs s).rbuf.length ∨ (fillLoop rs s).reads = [] := by
  induction rs generalizing s with
  | nil => right; simp only [fillLoop]; split <;> rfl
  | cons r rs ih =>
    simp only [fillLoop]
    split
    · rename_i hb
      left
      simp only [tempReadBufferSize, maxReadBufferSize] at hb
      simp only
      omega
    · cases r with
      | fail e => exact absurd (by simp) (h e)
      | data bs t => exact ih (fun e he => h e (by simp [he])) _

/-- Every write takes all it is given. -/
def AcceptsNow (s : Sim W) : Prop := s.wbuf ≠ [] → ∃ t, s.writes.head? = some (.wrote s.wbuf.length t)

theorem turn_uses {cfg : Cfg W} {s s' : Sim W} {r : Option ProcRes} (h : s.turn cfg = .ok (r, s')) :
    Uses s s' ∧ (AcceptsNow s → r ≠ some .wantWrite) ∧
      (r = some .wantRead → (∀ e, ReadRes.fail e ∉ s.reads) → s'.reads = []) := by
  unfold turn at h
  obtain ⟨s1, h1, h⟩ := Outcome.bind_eq_ok.mp h
  have k1 := flush_uses h1
  split at h
  · rename_i hw
    cases h
    refine ⟨k1, fun ha => ?_, by simp⟩
    exfalso
    unfold flush at h1
    split at h1
    · rename_i hw0; cases h1; exact hw hw0
    · rename_i hw0
      obtain ⟨t, ht⟩ := ha hw0
      rw [show s.writes.headD (.fail .wantReadOrWrite) = .wrote s.wbuf.length t by
        rw [List.headD_eq_head?_getD, ht]; rfl] at h1
      simp [emit] at h1
      subst h1
      simp at hw
  · obtain ⟨d1, d2, d3⟩ := dispatch_uses h
    refine ⟨k1.trans ((fill_uses s1).trans d1), fun _ => d2, fun hr hd => ?_⟩
    obtain ⟨e1, e2⟩ := d3 hr
    have hd1 : ∀ e, ReadRes.fail e ∉ s1.reads := fun e he => hd e (k1.2.1.subset he)
    rcases fill_data hd1 s1 with hb | hb
    · exact absurd hb (by simp only [fill] at e2; omega)
    · rw [e1]; exact hb

theorem iter_uses {cfg : Cfg W} {s s' : Sim W} {r : Option ProcRes} (h : s.iter cfg = .ok (r, s')) :
    Uses s s' ∧ (AcceptsNow s → r ≠ some .wantWrite) ∧
      (r = some .wantRead → (s.st = .awaitingHandshake → ∃ t, s.hs = .done t) →
        (∀ e, ReadRes.fail e ∉ s.reads) → s'.reads = []) := by
  unfold iter at h
  split at h
  · rename_i hs
    unfold handleHandshake at h
    split at h
    · rename_i x s1 heq
      cases h
      split at heq
      · cases heq
      · rename_i hf
        cases heq
        refine ⟨.refl _, by simp, fun _ hd => ?_⟩
        obtain ⟨t, ht⟩ := hd hs
        rw [ht] at hf
        cases hf
      · cases heq; exact ⟨.refl _, by simp, by simp⟩
    · rename_i s1 heq
      split at heq
      · rename_i t ht
        cases heq
        obtain ⟨k1, k2, k3⟩ := turn_uses h
        refine ⟨Uses.trans ?_ k1, k2, fun hr _ => k3 hr⟩
        exact .quiet rfl rfl rfl (evs := [.handshake t]) rfl (by simp) (by simp)
      · cases heq
      · cases heq
  · obtain ⟨k1, k2, k3⟩ := turn_uses h
    exact ⟨k1, k2, fun hr _ => k3 hr⟩

theorem Loops.uses {cfg : Cfg W} {s t : Sim W} (h : Loops cfg s t) : Uses s t := by
  induction h with
  | refl s => exact .refl s
  | step h _ ih => exact (iter_uses h).1.trans ih

theorem loop_ok {cfg : Cfg W} (n : Nat) : ∀ {s s' : Sim W} {r : ProcRes}, s.loop cfg n = .ok (r, s') →
    ∃ s1, Loops cfg s s1 ∧ s1.iter cfg = .ok (some r, s') := by
  induction n with
  | zero => intro s s' r h; cases h
  | succ n ih =>
    intro s s' r h
    rw [loop] at h
    obtain ⟨⟨x, s1⟩, h1, h⟩ := Outcome.bind_eq_ok.mp h
    cases x with
    | some x =>
      simp at h
      obtain ⟨rfl, rfl⟩ := h
      exact ⟨s, .refl s, h1⟩
    | none =>
      obtain ⟨s2, k1, k2⟩ := ih h
      exact ⟨s2, .step h1 k1, k2⟩

/-! ### C129 -/

/-- The transport has not failed: reads and writes at most had to wait. -/
def Unbroken (tr : List Ev) : Prop :=
  (∀ e, Ev.readFail e ∈ tr → e = .wantReadOrWrite) ∧
  ∀ a e, Ev.write a (.fail e) ∈ tr → e = .wantReadOrWrite

/-- The transport does not fail in this call: handshake, reads and writes at most have to wait. -/
structure Sound (env : Env) : Prop where
  hs : ∀ e, env.hs = .fail e → e = .wantReadOrWrite
  reads : ∀ e, ReadRes.fail e ∈ env.reads → e = .wantReadOrWrite
  writes : ∀ e, WriteRes.fail e ∈ env.writes → e = .wantReadOrWrite

/-- In this call the transport has the octets of `env.reads` and no others, and accepts all it is given. -/
structure Prompt (cfg : Cfg W) (env : Env) (s : Sim W) : Prop where
  hs : handshakes s.trace = [] → ∃ t, env.hs = .done t
  reads : ∀ e, ReadRes.fail e ∉ env.reads
  writes : ∀ s1, Loops cfg { s with hs := env.hs, reads := env.reads, writes := env.writes } s1 →
    s1.wbuf ≠ [] → ∃ t, s1.writes.head? = some (.wrote s1.wbuf.length t)

theorem Unbroken.uses {s s' : Sim W} (h : Unbroken s.trace) (hr : ∀ e, ReadRes.fail e ∈ s.reads → e = .wantReadOrWrite)
    (hw : ∀ e, WriteRes.fail e ∈ s.writes → e = .wantReadOrWrite) (hu : Uses s s') : Unbroken s'.trace := by
  obtain ⟨-, -, -, evs, e, h1, h2⟩ := hu
  rw [e]
  refine ⟨fun x hx => ?_, fun a x hx => ?_⟩
  · rcases List.mem_append.mp hx with hx | hx
    · exact h.1 x hx
    · exact (h1 x hx).elim id (hr x)
  · rcases List.mem_append.mp hx with hx | hx
    · exact h.2 a x hx
    · exact (h2 a x hx).elim id (hw x)

/-- Frames acted on are among the frames sent. -/
theorem frames_sent {fs fs' : List Frame} {v v' rest x : Bytes} (hv : FramesWire fs v)
    (hx : x <+: Spec.preface ++ v) (e : x = Spec.preface ++ (v' ++ rest)) (hv' : FramesWire fs' v') :
    fs' <+: fs := by
  obtain ⟨z, hz⟩ := hx
  rw [e, List.append_assoc, List.append_assoc] at hz
  have hz := List.append_cancel_left hz
  exact hv'.prefix hv (r := rest ++ z) (r' := []) (by rw [List.append_nil]; exact hz) (.inl (by decide))

theorem Called.sent {cfg : Cfg W} {w : W} {now : Nat} {r : ProcRes} {s : Sim W} (h : Called cfg w now r s)
    {fs : List Frame} {v : Bytes} (hv : FramesWire fs v) (hx : received s.trace <+: Spec.preface ++ v) :
    (frames s.trace).map asFrame <+: fs := by
  obtain ⟨calls, hr⟩ := h.run
  obtain ⟨passed, evs, post, i⟩ := Inv.steps (run_steps cfg calls hr) (Inv.init cfg w true now)
  have hr := i.recv
  cases passed with
  | false => rw [hr.1]; exact List.nil_prefix
  | true =>
    obtain ⟨v1, h1, h2⟩ := hr
    exact frames_sent hv hx h2 h1

/-- C129, the connection is kept: whatever part of a conforming client's octets has arrived and arrives
in this call, in whatever pieces, and however little the transport takes, `process()` returns and does
not give the connection up, unless the transport itself fails. -/
theorem C129_kept (cfg : Cfg W) (w : W) (now : Nat) (s0 : Sim W) (env : Env) (fs : List Frame) (v : Bytes)
    (h0 : InUse cfg w now s0) (happ : GoodApp cfg) (hc : Conforming fs) (hv : FramesWire fs v)
    (hon : Honest cfg env s0) (hu : Unbroken s0.trace) (hs : Sound env)
    (hin : received s0.trace ++ pending env.reads <+: Spec.preface ++ v) :
    ∃ r s, s0.process cfg env = .ok (r, s) ∧ r ≠ .discard ∧ Unbroken s.trace ∧
      ∃ rest, received s0.trace ++ pending env.reads = received s.trace ++ rest := by
  obtain ⟨T, hread⟩ := hc.readable
  -- the call returns
  have hret : ∃ r s, s0.process cfg env = .ok (r, s) := by
    cases hp : s0.process cfg env with
    | ok x => exact ⟨x.1, x.2, rfl⟩
    | _ =>
      exfalso
      have hnl : ∀ x, loop cfg
          { s0 with hs := env.hs, reads := env.reads, writes := env.writes : Sim W }.budget
          { s0 with hs := env.hs, reads := env.reads, writes := env.writes } ≠ .ok x := by
        intro x hx
        simp [process, hx] at hp
      rcases loop_fails _ _ hnl with h | ⟨s1, h1, h2⟩
      · exact (loop_enough (cfg := cfg) _ _ 0 (Nat.le_refl _)).1 h
      · obtain ⟨hs1, ho1⟩ := h1.steps
        rcases iter_fails h2 with ⟨n, t, k1, k2, k3⟩ | ⟨s2, k1, k2, hst, hd, hh, hsz, hl, hf⟩
        · have := hon s1 h1 k1 n t k2
          omega
        · have hsteps : Steps cfg false (init w now) s2 :=
            (h0.steps.trans ((Steps.one (.env s0 env)).trans hs1)).trans k1
          obtain ⟨passed, evs, post, i⟩ := Inv.steps hsteps (Inv.init cfg w false now)
          have hps : passed = true := by
            cases passed with
            | true => rfl
            | false => exact absurd hst (by simpa using i.state)
          subst hps
          have hr := i.recv
          rw [if_pos rfl] at hr
          obtain ⟨v1, hv1, hr⟩ := hr
          obtain ⟨g1, g2⟩ := hh.wire hl
          have e : received s0.trace ++ pending env.reads =
              Spec.preface ++ ((v1 ++ s2.rbuf.take (9 + hd.length.toNat)) ++
                (s2.rbuf.drop (9 + hd.length.toNat) ++ pending s2.reads)) := by
            have : s2.offered = received s0.trace ++ pending env.reads := k2.trans ho1
            rw [← this, offered, hr]
            rw [List.append_assoc, List.append_assoc, List.append_assoc, ← List.append_assoc (s2.rbuf.take _),
              List.take_append_drop]
          have hpre := frames_sent hv hin e (hv1.snoc g1)
          have hend : ¬ Ended s2.st := by simp [Ended, hst]
          rcases hsteps.tables with he | ⟨hd', he⟩
          · exact hend he
          · obtain ⟨good, bad, T1, w', q1, q2, -, q4⟩ := hsteps.servedTo
            rcases q4 with ⟨rfl, -, rfl⟩ | ⟨q4, -⟩
            · rw [List.append_nil] at q1
              rw [q1] at hpre
              obtain ⟨T2, ha⟩ := Readable.next happ hread q2 hpre
              obtain ⟨s', hs'⟩ := processFrame_acceptable happ (s := { s2 with trace := s2.trace ++
                [.frame ⟨hd, (s2.rbuf.drop 9).take hd.length.toNat⟩] }) hd' he ha
              exact hf s' hs'
            · exact hend q4
  obtain ⟨r, s, hp⟩ := hret
  have hp' := hp
  unfold process at hp'
  obtain ⟨⟨x, s2⟩, h1, h2⟩ := Outcome.bind_eq_ok.mp hp'
  cases h2
  obtain ⟨s1, l1, l2⟩ := loop_ok _ h1
  have huse : Uses { s0 with hs := env.hs, reads := env.reads, writes := env.writes } s2 :=
    l1.uses.trans (iter_uses l2).1
  have hub : Unbroken s2.trace := Unbroken.uses
    (s := { s0 with hs := env.hs, reads := env.reads, writes := env.writes }) hu hs.reads hs.writes huse
  have hub' : Unbroken (s2.emit (.returned r)).trace := by
    refine ⟨fun e he => hub.1 e ?_, fun a e he => hub.2 a e ?_⟩ <;> simpa [emit] using he
  have hoff : s2.offered = received s0.trace ++ pending env.reads :=
    (iter_keeps l2).1.trans l1.steps.2
  have hrec : received (s2.emit (.returned r)).trace = received s2.trace := by simp [emit, received]
  refine ⟨r, s2.emit (.returned r), hp, ?_, hub', pending s2.reads, by rw [hrec, ← hoff]; rfl⟩
  rintro rfl
  have hpre : received (s2.emit (.returned .discard)).trace <+: Spec.preface ++ v :=
    List.IsPrefix.trans ⟨pending s2.reads, by rw [hrec]; exact hoff⟩ hin
  rcases C85_reason cfg w now s0 _ env h0 hp with ⟨-, e, he, hf⟩ | ⟨-, hr⟩
  · exact he (hs.hs e hf)
  · have hsent := Called.sent (cfg := cfg) (w := w) (now := now) (r := .discard) ⟨s0, env, h0, hp⟩ hv hpre
    generalize (s2.emit (.returned .discard)).trace = tr at hr hub' hpre hsent
    have h24 : Spec.preface.length = 24 := by decide
    cases hr with
    | notHttp2 h hn =>
      apply hn
      exact List.prefix_of_prefix_length_le (List.prefix_append _ _) hpre (by omega)
    | readFailed e he h =>
      have := hub'.1 e h
      subst this
      rcases he with he | he <;> cases he
    | writeFailed a e he h => exact he (hub'.2 a e h)
    | goaway f h ht =>
      have hm := hsent.subset (List.mem_map_of_mem h)
      obtain ⟨ins, more, rfl⟩ := List.append_of_mem hm
      obtain ⟨T0, T1, -, ha⟩ := hread.split rfl
      rcases ha with ⟨h1, -⟩ | ⟨-, -, -, h7, -⟩
      · simp only [asFrame] at h1
        rw [ht] at h1
        cases h1
      · exact h7 ht
    | refused ins f calls answers T w' h hs hf =>
      rw [h, List.map_append] at hsent
      obtain ⟨T2, ha⟩ := Readable.next happ hread hs hsent
      exact Acceptable.not_refused ha hf
    | oversized v' rest hv' h ho =>
      obtain ⟨z, hz⟩ := hpre
      rw [h, List.append_assoc, List.append_assoc] at hz
      have hz := List.append_cancel_left hz
      exact hv.oversized_not_waiting hc.size hv' (r := []) (r' := rest ++ z) (by simpa using hz.symm)
        (Oversized.append ho z) (.inl (by decide))

/-- C129, requests are answered: once everything the client sends has arrived, the transport has no more
and accepts what it is given, the same call has acted on all frames, called the handlers and answered
every request as RFC 7541 and RFC 9113 read them, and all octets of the answers have been handed to the
transport; the connection waits for more. (Only if the client has sent nothing but the preface, the
server's own SETTINGS frame may be left: C40.) -/
theorem C129_answered (cfg : Cfg W) (w : W) (now : Nat) (s0 : Sim W) (env : Env) (fs : List Frame) (v : Bytes)
    (h0 : InUse cfg w now s0) (happ : GoodApp cfg) (hc : Conforming fs) (hv : FramesWire fs v)
    (hu : Unbroken s0.trace) (hs : Sound env) (hp : Prompt cfg env s0)
    (hin : received s0.trace ++ pending env.reads = Spec.preface ++ v) :
    ∃ s T, s0.process cfg env = .ok (.wantRead, s) ∧ received s.trace = Spec.preface ++ v ∧
      (frames s.trace).map asFrame = fs ∧
      Serves cfg w fs (handled s.trace) ((responses s.trace).map asAnswer) T s.world ∧
      (fs ≠ [] → accepted s.trace = produced s.trace) := by
  have hon : Honest cfg env s0 := by
    intro s1 h1 h2 n t h3
    obtain ⟨t', h4⟩ := hp.writes s1 h1 h2
    rw [h4] at h3
    cases h3
    exact Nat.le_refl _
  obtain ⟨r, s, hproc, hr, -, rest, hrest⟩ := C129_kept cfg w now s0 env fs v h0 happ hc hv hon hu hs
    (hin ▸ List.prefix_refl _)
  have hproc' := hproc
  unfold process at hproc'
  obtain ⟨⟨x, s2⟩, h1, h2⟩ := Outcome.bind_eq_ok.mp hproc'
  cases h2
  obtain ⟨s1, l1, l2⟩ := loop_ok _ h1
  obtain ⟨-, k2, k3⟩ := iter_uses l2
  have huse := l1.uses
  have hr : r = .wantRead := by
    cases r with
    | wantRead => rfl
    | wantWrite => exact absurd rfl (k2 (hp.writes s1 l1))
    | discard => exact absurd rfl hr
  subst hr
  have hreads : s2.reads = [] := by
    refine k3 rfl ?_ fun e he => hp.reads e (huse.2.1.subset he)
    intro hst
    have hw : Waits s1 := Steps.waits (h0.steps.trans ((Steps.one (.env s0 env)).trans l1.steps.1))
      (Waits.init w now)
    have hn := hw.mp hst
    obtain ⟨-, -, -, evs, he, -⟩ := id huse
    rw [he] at hn
    simp only [handshakes, List.filterMap_append, List.append_eq_nil_iff] at hn
    obtain ⟨t, ht⟩ := hp.hs hn.1
    exact ⟨t, huse.1.trans ht⟩
  have hoff : s2.offered = received s0.trace ++ pending env.reads :=
    (iter_keeps l2).1.trans l1.steps.2
  have hrec : received (s2.emit (.returned .wantRead)).trace = Spec.preface ++ v := by
    rw [← hin, ← hoff]
    simp [offered, hreads, pending, emit, received]
  have hcall : Called cfg w now .wantRead (s2.emit (.returned .wantRead)) := ⟨s0, env, h0, hproc⟩
  have hfr : (frames (s2.emit (.returned .wantRead)).trace).map asFrame = fs := by
    rcases C26_frames_complete cfg w now _ hcall with ⟨-, hl⟩ | ⟨v', rest', g1, g2, g3⟩
    · rw [hrec, List.length_append, show Spec.preface.length = 24 by decide] at hl
      omega
    · rw [hrec] at g1
      have g1 := List.append_cancel_left g1
      exact (g2.unique hv (r := rest') (r' := []) (by simpa using g1.symm) g3 (.inl (by decide))).1
  obtain ⟨calls, hrun⟩ := hcall.run
  obtain ⟨good, bad, T, q1, q2, q3⟩ := C83_served cfg calls w now _ hrun
  have hbad : bad = [] := by
    rcases q3 with q3 | ⟨-, f, rfl, hun⟩
    · exact q3
    · exfalso
      obtain ⟨T0, hread⟩ := hc.readable
      rw [q1, List.map_append] at hfr
      obtain ⟨T2, ha⟩ := Readable.next happ hread q2 (f := asFrame f) ⟨[], by simpa using hfr⟩
      exact Acceptable.not_refused ha hun
  subst hbad
  rw [List.append_nil] at q1
  refine ⟨_, T, hproc, hrec, hfr, by rw [← hfr, q1]; exact q2, fun hne => ?_⟩
  rcases C40_nothing_stranded_partial cfg w now _ hcall with h | ⟨h, -⟩
  · exact h
  · rw [h] at hfr
    exact absurd hfr.symm hne

/-- Checks the writes of one call. -/
def prompt (cfg : Cfg W) : Nat → Sim W → Bool
  | 0, _ => false
  | n + 1, s =>
    (s.wbuf.isEmpty || match s.writes.head? with
      | some (.wrote k _) => k == s.wbuf.length
      | _ => false) &&
    (match s.iter cfg with
      | .ok (none, t) => prompt cfg n t
      | _ => true)

theorem prompt_loops {cfg : Cfg W} {s t : Sim W} (h : Loops cfg s t) : ∀ n, prompt cfg n s = true →
    t.wbuf ≠ [] → ∃ u, t.writes.head? = some (.wrote t.wbuf.length u) := by
  induction h with
  | refl s =>
    intro n hn hw
    cases n with
    | zero => cases hn
    | succ n =>
      simp only [prompt, Bool.and_eq_true, Bool.or_eq_true, List.isEmpty_iff] at hn
      have h1 := hn.1.resolve_left hw
      split at h1
      · rename_i k u hk
        rw [beq_iff_eq] at h1
        subst h1
        exact ⟨u, hk⟩
      · cases h1
  | step h _ ih =>
    intro n hn
    cases n with
    | zero => cases hn
    | succ n =>
      simp only [prompt, h, Bool.and_eq_true] at hn
      exact ih n hn.2

/-- SETTINGS and a request for `/` are what a conforming client sends. -/
theorem exConforming : Conforming [⟨4, 0, 0, []⟩, ⟨1, 5, 1, [0x82, 0x84]⟩] := by
  refine ⟨⟨⟨[], 65536⟩, ?_⟩, by simp⟩
  refine .snoc [⟨4, 0, 0, []⟩] _ ⟨[], 65536⟩ _ (.snoc [] _ _ _ .nil (.inr ⟨by decide, rfl, by decide, by decide, by decide⟩)) ?_
  refine .inl ⟨rfl, [0x82, 0x84], [⟨b!":method", b!"GET"⟩, ⟨b!":path", b!"/"⟩], rfl, [.indexed 2, .indexed 4], ?_,
    by decide +kernel⟩
  exact .cons _ _ [0x82] [0x84] (.indexed 2 _ ⟨.short _ (by decide) (by decide), by decide, by decide⟩)
    (.cons _ _ [0x84] [] (.indexed 4 _ ⟨.short _ (by decide) (by decide), by decide, by decide⟩) .nil)

theorem exConforming_wire :
    FramesWire [⟨4, 0, 0, []⟩, ⟨1, 5, 1, [0x82, 0x84]⟩] (exSettings ++ exGet) := by
  have : FramesWire [⟨4, 0, 0, []⟩, ⟨1, 5, 1, [0x82, 0x84]⟩] (exSettings ++ (exGet ++ [])) :=
    .cons _ _ _ _ ⟨[0, 0, 0], [0, 0, 0, 0], rfl, rfl, rfl, rfl, rfl⟩
      (.cons _ _ _ _ ⟨[0, 0, 2], [0, 0, 0, 1], rfl, rfl, rfl, rfl, rfl⟩ .nil)
  simpa using this

/-- Such a client, when the preface and half of the request have arrived and writes take one octet. -/
example : ∃ r s, (init 0 0).process exCfg (exEnv (Spec.preface ++ (exSettings ++ exGet.take 5)) [1]) = .ok (r, s) ∧
    r ≠ .discard ∧ Unbroken s.trace ∧
    ∃ rest, received (init 0 0).trace ++ pending (exEnv (Spec.preface ++ (exSettings ++ exGet.take 5)) [1]).reads =
      received s.trace ++ rest := by
  refine C129_kept exCfg 0 0 _ _ _ _ .new (fun _ _ _ _ => .inl ⟨_, rfl, by simp⟩) exConforming
    exConforming_wire (fun s1 h => honest_loops h 5 (by decide +kernel)) ⟨by simp [init], by simp [init]⟩
    ⟨?_, ?_, ?_⟩ ?_
  · simp [exEnv]
  · simp [exEnv]
  · simp [exEnv]
  · exact ⟨exGet.drop 5, by simp [exEnv, init, received, pending]⟩

/-- Such a client, connecting and sending the preface and both frames at once. -/
example : ∃ s T, (init 0 0).process exCfg (exEnv (Spec.preface ++ (exSettings ++ exGet)) [36, 44]) =
      .ok (.wantRead, s) ∧ received s.trace = Spec.preface ++ (exSettings ++ exGet) ∧
    (frames s.trace).map asFrame = [⟨4, 0, 0, []⟩, ⟨1, 5, 1, [0x82, 0x84]⟩] ∧
    Serves exCfg 0 [⟨4, 0, 0, []⟩, ⟨1, 5, 1, [0x82, 0x84]⟩] (handled s.trace)
      ((responses s.trace).map asAnswer) T s.world ∧
    (([⟨4, 0, 0, []⟩, ⟨1, 5, 1, [0x82, 0x84]⟩] : List Frame) ≠ [] → accepted s.trace = produced s.trace) := by
  refine C129_answered exCfg 0 0 _ _ _ _ .new (fun _ _ _ _ => .inl ⟨_, rfl, by simp⟩) exConforming
    exConforming_wire ⟨by simp [init], by simp [init]⟩ ⟨?_, ?_, ?_⟩ ⟨fun _ => ⟨_, rfl⟩, ?_, ?_⟩ ?_
  · simp [exEnv]
  · simp [exEnv]
  · simp [exEnv]
  · simp [exEnv]
  · exact fun s1 h => prompt_loops h 5 (by decide +kernel)
  · simp [exEnv, init, received, pending]

end Sim
end Ion
