import Verif.Props.ConnOutput
import Verif.Props.ConnAmplify
import Verif.Props.AppFetch

/-!
# Frames are as long as they say (C133)

A frame announces the length of its payload in 24 bits (RFC 9113, 4.1). `write_headers_response`
(lib/http2_conn.cpp:74-83) puts a response's whole header block into one HEADERS frame, however long it is.
-/

namespace Ion
namespace Sim
open Spec
variable {W : Type}

theorem be_three {len : Bytes} (h : len.length = 3) : be len < 2 ^ 24 := by
  match len, h with
  | [a, b, c], _ =>
    have := a.toNat_lt
    have := b.toNat_lt
    have := c.toNat_lt
    simp only [be, List.length_cons, List.length_nil]
    omega

/-- C133 holds of a run exactly as long as every header block written is shorter than 2^24 octets: then, and only
then, the output can be read as frames that reply to the frames received. -/
theorem C133_exact (cfg : Cfg W) (w : W) (now : Nat) (r : ProcRes) (s : Sim W) (h : Called cfg w now r s) :
    (∃ (good bad : List FrameReader) (first outs extra : List Frame),
      frames s.trace = good ++ bad ∧ Replies (good.map asFrame) ((responses s.trace).map asReply) outs ∧
      FramesWire (first ++ outs ++ extra) (produced s.trace)) ↔
    ∀ x ∈ responses s.trace, x.2.2.length < 2 ^ 24 := by
  constructor
  · rintro ⟨good, bad, first, outs, extra, -, h2, h3⟩ x hx
    have key : ∀ {ins rs outs}, Replies ins rs outs → ∀ y ∈ rs, ∃ f ∈ outs, f.payload = y.2.1 := by
      intro ins rs outs h
      induction h with
      | nil => simp
      | settings ins rs outs f h ht hf hl ih =>
        intro y hy
        obtain ⟨f, hf, e⟩ := ih y hy
        exact ⟨f, List.mem_append_left _ hf, e⟩
      | request ins rs outs f block body ds h ht hd ih =>
        intro y hy
        rcases List.mem_append.mp hy with hy | hy
        · obtain ⟨f, hf, e⟩ := ih y hy
          exact ⟨f, List.mem_append_left _ hf, e⟩
        · simp only [List.mem_cons, List.not_mem_nil, or_false] at hy
          subst hy
          exact ⟨_, List.mem_append_right _ (List.mem_cons_self ..), rfl⟩
      | other ins rs outs f h h1 h4 ih => exact ih
    obtain ⟨f, hf, e⟩ := key h2 (asReply x) (List.mem_map.mpr ⟨x, hx, rfl⟩)
    have hw : ∀ {fs : List Frame} {v : Bytes}, FramesWire fs v → ∀ f ∈ fs, f.payload.length < 2 ^ 24 := by
      intro fs v h
      induction h with
      | nil => simp
      | cons f fs w ws h hs ih =>
        intro g hg
        rcases List.mem_cons.mp hg with rfl | hg
        · obtain ⟨len, sid, h1, -, -, h4, -⟩ := h
          rw [← h4]
          exact be_three h1
        · exact ih g hg
    have := hw h3 f (by simp [hf])
    rw [e] at this
    exact this
  · intro hb
    obtain ⟨good, bad, first, outs, extra, h1, h2, h3, -⟩ := C31_replies cfg w now r s h hb
    exact ⟨good, bad, first, outs, extra, h1, h2, h3⟩

/-! ### A response with a long field -/

theorem strWire_length_ge {s w : Bytes} (h : StrWire encDialect s w) : 5 * s.length ≤ 8 * w.length := by
  cases h with
  | plain len h hs => simp only [List.length_append]; omega
  | huffman len data h hd hs =>
    obtain ⟨pad, h1, -, h3⟩ := hd
    have hl := congrArg List.length h1
    have key : ∀ s : Bytes, 5 * s.length ≤ (huffBits s).length := by
      intro s
      induction s with
      | nil => simp [huffBits]
      | cons c s ih =>
        have := (codeBits_length c).1
        rw [codeBits_eq] at this
        simp only [huffBits, List.flatMap_cons, List.length_append, List.length_cons] at ih ⊢
        omega
    have := key s
    simp only [bitsOf_length, List.length_append] at hl ⊢
    omega

/-- A field that is in neither table takes at least five eighths of its value. -/
theorem encodeHeader_length_ge {ε : Type} {sgn : Bool} {t' : DynTable} {h : Header} {w : Bytes}
    (hns : ¬ InStatic h) (hv : Encodable sgn h.value)
    (he : (encodeHeader sgn {} h : Outcome ε (Bytes × DynTable)) = .ok (w, t')) :
    5 * h.value.length ≤ 8 * w.length := by
  have hlow : ∀ {v : Bytes}, (writeLengthAndString sgn h.value : Outcome ε Bytes) = .ok v →
      5 * h.value.length ≤ 8 * v.length := by
    intro v hw
    obtain ⟨w', h1, h2⟩ := writeString_enc (ε := ε) hv
    rw [h1] at hw
    cases hw
    exact strWire_length_ge h2
  unfold encodeHeader at he
  split at he
  · rename_i i hf
    obtain ⟨h1, h2⟩ := findStatic_some hf
    exact absurd ⟨i + 1, by omega, h2⟩ hns
  · split at he
    · rename_i i hf
      simp [DynTable.find] at hf
    · split at he
      · obtain ⟨v, h1, he⟩ := Outcome.bind_eq_ok.mp he
        obtain ⟨t1, h2, he⟩ := Outcome.bind_eq_ok.mp he
        cases he
        have := hlow h1
        simp only [List.length_cons]; omega
      · split at he
        · obtain ⟨v, h1, he⟩ := Outcome.bind_eq_ok.mp he
          obtain ⟨t1, h2, he⟩ := Outcome.bind_eq_ok.mp he
          cases he
          have := hlow h1
          simp only [List.length_cons]; omega
        · obtain ⟨n, h0, he⟩ := Outcome.bind_eq_ok.mp he
          obtain ⟨v, h1, he⟩ := Outcome.bind_eq_ok.mp he
          obtain ⟨t1, h2, he⟩ := Outcome.bind_eq_ok.mp he
          cases he
          have := hlow h1
          simp only [List.length_cons, List.length_append]; omega

/-- An application that answers every request with a field of as many `a`s as the world says. -/
def longCfg : Cfg Nat :=
  { getHandler := fun _ _ => fun _ n => (.resp { status := 200, headers := [⟨b!"x", List.replicate n 97⟩] }, n) }

theorem long_block (sgn : Bool) (n : Nat) (hn : n < 2 ^ 29) : ∃ blk enc',
    (encodeBlock sgn {} [⟨b!":status", decimal 200⟩, ⟨b!"x", List.replicate n 97⟩, ⟨b!"server", serverHeader⟩,
      ⟨b!"x-powered-by", serverHeader⟩] : Outcome Stop _) = .ok (blk, enc') ∧ 5 * n ≤ 8 * blk.length := by
  have h1 : (encodeHeader sgn {} ⟨b!":status", decimal 200⟩ : Outcome Stop _) = .ok ([0x88], {}) := by
    cases sgn <;> decide +kernel
  have hname : ¬ NameInStatic b!"x" := by
    rintro ⟨i, x, hi, hx, e⟩
    have key : ∀ i : Fin 62, (staticEntry i.val).all (fun h => decide (h.name ≠ b!"x")) = true := by decide +kernel
    have := key ⟨i, by omega⟩
    rw [show staticEntry i = some x from hx] at this
    simp [e] at this
  have hns : ¬ InStatic ⟨b!"x", List.replicate n 97⟩ := by
    rintro ⟨i, hi, hx⟩
    exact hname ⟨i, _, hi, hx, rfl⟩
  have hv : Encodable sgn (List.replicate n 97) := by
    refine ⟨by rw [List.length_replicate]; exact hn, .inr (.inr ?_)⟩
    intro c hc
    rw [(List.mem_replicate.mp hc).2]
    decide
  have hshort : ∀ s : Bytes, s.length < 100 → (∀ c ∈ s, c.toNat < 128) → Encodable sgn s := fun s h1 h2 =>
    ⟨by omega, .inr (.inr h2)⟩
  have hx : Encodable sgn b!"x" := hshort _ (by decide) (by decide +kernel)
  have hser : Encodable sgn b!"server" := hshort _ (by decide) (by decide +kernel)
  have hion : Encodable sgn serverHeader := hshort _ (by decide) (by decide +kernel)
  have hpow : Encodable sgn b!"x-powered-by" := hshort _ (by decide) (by decide +kernel)
  obtain ⟨w2, t2, rep2, e2, wf2, -, h2⟩ := encodeHeader_spec (ε := Stop) sgn {} ⟨rfl, Nat.zero_le _⟩
    ⟨b!"x", List.replicate n 97⟩ hx hv
    (.inr (.inr ⟨by simp [DynTable.abs], .inr (.inl (by simp [DynTable.abs]))⟩))
  have m2 : ∀ x ∈ t2.abs.entries, x.name = b!"x" := by
    rcases h2 with ⟨-, h | h, -⟩ | ⟨h, -⟩
    · exact absurd h hns
    · simp at h
    · intro x hx
      rw [h] at hx
      have := fit_subset hx
      simp only [DynTable.abs, List.mem_cons, List.not_mem_nil, or_false] at this
      rw [this]
  obtain ⟨w3, t3, rep3, e3, wf3, -, h3⟩ := encodeHeader_spec (ε := Stop) sgn t2 wf2
    ⟨b!"server", serverHeader⟩ hser hion
    (.inr (.inr ⟨fun h => absurd (m2 _ h) (by decide), .inl ⟨54, _, by decide, rfl, rfl⟩⟩))
  have m3 : ∀ x ∈ t3.abs.entries, x.name = b!"x" ∨ x.name = b!"server" := by
    rcases h3 with ⟨rfl, -⟩ | ⟨h, -⟩
    · exact fun x hx => .inl (m2 x hx)
    · intro x hx
      rw [h] at hx
      rcases List.mem_cons.mp (fit_subset hx) with rfl | hx
      · exact .inr rfl
      · exact .inl (m2 x hx)
  obtain ⟨w4, t4, rep4, e4, -, -, -⟩ := encodeHeader_spec (ε := Stop) sgn t3 wf3
    ⟨b!"x-powered-by", serverHeader⟩ hpow hion
    (.inr (.inr ⟨fun h => by rcases m3 _ h with h | h <;> exact absurd h (by decide),
      .inr (.inl fun x hx h => by rcases m3 x hx with h' | h' <;> rw [h'] at h <;> exact absurd h (by decide))⟩))
  refine ⟨[0x88] ++ (w2 ++ (w3 ++ (w4 ++ []))), t4, ?_, ?_⟩
  · simp only [encodeBlock]
    rw [h1]
    simp only [Outcome.bind_ok]
    rw [e2]
    simp only [Outcome.bind_ok]
    rw [e3]
    simp only [Outcome.bind_ok]
    rw [e4]
    simp only [Outcome.bind_ok]
  · have := encodeHeader_length_ge hns hv e2
    simp only [List.length_replicate] at this
    simp only [List.length_append, List.length_cons]
    omega

/-- C133, "a frame has the length it announces", is false: there is an application whose response has a header block
of more than 2^24 octets; the three octets that should announce its length announce another, and the output cannot be
read as frames that reply to the client's. -/
theorem C133_refuted : ∃ (cfg : Cfg Nat) (w : Nat) (s : Sim Nat) (sid : UInt32) (resp : HttpResponse) (block : Bytes),
    Called cfg w 0 .wantWrite s ∧ responses s.trace = [(sid, resp, block)] ∧ 2 ^ 24 ≤ block.length ∧
    (∃ pre len rest, produced s.trace = pre ++ (len ++ (rest ++ block)) ∧ len.length = 3 ∧ rest.length = 6 ∧
      be len ≠ block.length) ∧
    ¬ ∃ (good bad : List FrameReader) (first outs extra : List Frame),
      frames s.trace = good ++ bad ∧ Replies (good.map asFrame) ((responses s.trace).map asReply) outs ∧
      FramesWire (first ++ outs ++ extra) (produced s.trace) := by
  obtain ⟨r, s, h1, h2⟩ : ∃ r s, Called longCfg 33554432 0 r s ∧
      (r == .wantRead && s.st == .awaitingFrame && s.rbuf == [] && s.wbuf == [] && decide (s.dec = {}) &&
        decide (s.enc = {}) && s.world == 33554432 && (responses s.trace).isEmpty) = true :=
    Shows.called (e := exEnv (clientPreface ++ exSettings) [36]) (es := []) (by decide +kernel)
  simp only [Bool.and_eq_true, beq_iff_eq, decide_eq_true_eq, List.isEmpty_iff] at h2
  obtain ⟨⟨⟨⟨⟨⟨⟨h3, h4⟩, h5⟩, h6⟩, h7⟩, h8⟩, h9⟩, h10⟩ := h2
  have hu := h1.inUse (by simp [h3])
  obtain ⟨fields, dec', hdec, hp, hm⟩ : ∃ fields dec', decodeBlock {} (exGet.drop 9) = .ok fields dec' ∧
      getHeader fields b!":path" = some b!"/" ∧ getHeader fields b!":method" = some b!"GET" := by
    have : (match decodeBlock {} (exGet.drop 9) with
      | .ok fields _ => getHeader fields b!":path" == some b!"/" && getHeader fields b!":method" == some b!"GET"
      | _ => false) = true := by decide +kernel
    split at this
    · rename_i f d hx
      simp only [Bool.and_eq_true, beq_iff_eq] at this
      exact ⟨f, d, hx, this.1, this.2⟩
    · cases this
  obtain ⟨blk, enc', henc, hbl⟩ := long_block longCfg.charSigned 33554432 (by decide)
  have hr : Responds longCfg s.world fields
      (finishResponse { status := 200, headers := [⟨b!"x", List.replicate s.world 97⟩] }) s.world
      [.handled ⟨b!"GET", b!"/", fields⟩ (.resp { status := 200, headers := [⟨b!"x", List.replicate s.world 97⟩] })] :=
    .handler b!"/" b!"GET" _ _ hp hm rfl
  have hfin : ∀ n, (finishResponse { status := 200, headers := [⟨b!"x", List.replicate n 97⟩] }).headers =
      [⟨b!":status", decimal 200⟩, ⟨b!"x", List.replicate n 97⟩, ⟨b!"server", serverHeader⟩,
        ⟨b!"x-powered-by", serverHeader⟩] := fun n => rfl
  obtain ⟨s', k1, -, -, k2, -, k3⟩ := request_process longCfg s ⟨h4, h5, h6⟩ (exGet.take 9) (exGet.drop 9)
    ⟨2, 1, 5, 1⟩ 8 9 rfl (by decide +kernel) (by decide) (by decide) rfl (by decide) fields dec'
    (by rw [h7]; exact hdec) _ _ _ _ hr blk enc' (by rw [h8, hfin, h9]; exact henc)
  have hc : Called longCfg 33554432 0 .wantWrite s' := ⟨s, _, hu, k1⟩
  rw [h10, List.nil_append] at k3
  refine ⟨longCfg, 33554432, s', _, _, blk, hc, k3, by omega, ?_, ?_⟩
  · refine ⟨produced s.trace, storeU24 (UInt32.ofNat blk.length), [1, 5] ++ storeU32 (1 &&& 0x7FFFFFFF), ?_, rfl, rfl, ?_⟩
    · rw [k2]
      simp only [responseChunks, List.flatten_cons]
      rw [show dataChunks 1 (finishResponse { status := 200, headers := [⟨b!"x", List.replicate s.world 97⟩] }).body =
        [] from by rw [show (finishResponse { status := 200, headers := [⟨b!"x", List.replicate s.world 97⟩] }).body = []
          from rfl, dataChunks]; rfl]
      simp [FrameHeader.serialize]
      rfl
    · have := be_three (len := storeU24 (UInt32.ofNat blk.length)) rfl
      omega
  · rw [C133_exact _ _ _ _ _ hc]
    intro hb
    have := hb _ (by rw [k3]; exact List.mem_cons_self ..)
    simp only at this
    omega

/-! ### The program -/

theorem mediaTypes_length : ∀ v ∈ Props.mediaTypes, v.length ≤ 100 := by decide +kernel

/-- The header blocks of ordinary responses are short. -/
theorem ordinary_blocks {cfg : Cfg W} (happ : OrdinaryApp cfg) {w : W} {now : Nat} {r : ProcRes} {s : Sim W}
    (h : Called cfg w now r s) (hd : ∀ x ∈ responses s.trace, ∀ f ∈ x.2.1.headers, f.name = b!"content-length" →
      f.value.length ≤ 19) : ∀ x ∈ responses s.trace, x.2.2.length < 2 ^ 24 := by
  intro x hx
  have he : Encoded cfg s := Steps.inv (P := Encoded cfg)
    (fun _ _ _ _ st i => i.step st) h.steps (by simp [Encoded, Sim.init, responses])
  obtain ⟨t, t', he⟩ := he x hx
  have hpl := h.plain happ x hx
  have hsize : ∀ f ∈ x.2.1.headers, f.name.length ≤ 100 ∧ f.value.length ≤ 100 := by
    intro f hf
    rcases ordinary_fields happ h x hx with ⟨e, -⟩ | ⟨status, len, own, e, hs, hl, -, ho⟩
    · rw [e] at hf; cases hf
    · have hf' := hf
      rw [e] at hf
      simp only [List.cons_append, List.mem_cons, List.mem_append, List.not_mem_nil, or_false] at hf
      rcases hf with rfl | (hf | hf) | rfl | rfl
      · simp only [List.mem_cons, List.not_mem_nil, or_false] at hs
        rcases hs with rfl | rfl | rfl | rfl | rfl <;> exact ⟨by decide, by decide⟩
      · rcases ho f hf with ⟨e, hv⟩ | rfl | ⟨e, n, hv⟩
        · exact ⟨by rw [e]; decide, mediaTypes_length _ hv⟩
        · exact ⟨by decide, by decide⟩
        · exact ⟨by rw [e]; decide, Nat.le_trans (hd x hx f hf' e) (by decide)⟩
      · split at hf
        · cases hf
        · simp only [List.mem_cons, List.not_mem_nil, or_false] at hf
          subst hf
          exact ⟨show 14 ≤ 100 by decide, Nat.le_trans (hd x hx _ hf' rfl) (by decide)⟩
      · exact ⟨by decide, by decide⟩
      · exact ⟨by decide, by decide⟩
  have h1 := encodeBlock_length x.2.1.headers (fun f hf => by
    have h2 := hpl.2 f hf
    simp only [Sim.plain, Bool.and_eq_true, Bool.or_eq_true, decide_eq_true_eq, List.all_eq_true] at h2
    have h3 := hsize f hf
    refine ⟨⟨by omega, .inr (.inr ?_)⟩, by omega, .inr (.inr h2.2)⟩
    rcases h2.1 with h2 | h2
    · simp only [List.mem_cons, List.not_mem_nil, or_false] at h2
      rcases h2 with h2 | h2 | h2 | h2 | h2 <;> rw [h2] <;> decide +kernel
    · rw [h2]; decide +kernel) he
  have h2 := sizes_le_mul (m := 232) (hs := x.2.1.headers) fun f hf => by
    have := hsize f hf
    have hsz : size f = f.name.length + f.value.length + 32 := rfl
    omega
  have := hpl.1
  omega

end Sim

namespace Server
open Sim Spec

/-- C133 for the program: on every connection of the server, at any time, the output is the server's SETTINGS frame
followed by frames that reply to the frames acted on; at most the last frame received has no reply, if it has to be
refused. Missing: applications whose responses have header blocks of
2^24 octets or more. -/
theorem C133_program_partial (page : Page) (a : Args) (sgn : Bool) {w0 : World} {s : Server World}
    (hpage : ∀ a b c d, (page a b c d).length < 10 ^ 19) (hfiles : SmallFiles w0.fs)
    (h : Started (progCfg page a sgn) w0 s) {fd : Nat} {c : Conn World} (hc : s.conns.get fd = some c) :
    ∃ (good bad : List FrameReader) (first outs : List Frame), frames c.sim.trace = good ++ bad ∧
      Replies (good.map asFrame) ((responses c.sim.trace).map asReply) outs ∧
      FramesWire (first ++ outs) (produced c.sim.trace) ∧
      ((first = [] ∧ frames c.sim.trace = []) ∨ ∃ f, first = [f] ∧ ServerPreface f) ∧
      (bad = [] ∨ ∃ f, bad = [f] ∧ ∃ T, Unacceptable T (asFrame f)) := by
  obtain ⟨t, ws, hq, ha⟩ := h.alone.2 hc
  have hu := ha ([], w0)
  generalize hs1 : c.sim.reworld (([], w0) : List World × World) = s1 at hu
  have htr : s1.trace = c.sim.trace := by rw [← hs1]; rfl
  rw [← htr]
  cases hu with
  | new => exact ⟨[], [], [], [], rfl, .nil, .nil, .inl ⟨rfl, rfl⟩, .inl rfl⟩
  | step s2 _ env r h2 h3 hr =>
    have hcalled : Called (replay (progCfg page a sgn)) (feed ws ([], w0)) t r s1 := ⟨s2, env, h2, h3⟩
    have hb := ordinary_blocks (progCfg_ordinary page a sgn).replay hcalled (by
      intro x hx f hf e
      obtain ⟨good, bad, T, w', -, g2, -⟩ := hcalled.steps.servedTo
      exact answered_digits hpage hfiles (answered_of_serves g2 (by simpa [feed] using hq) .start)
        (asAnswer x) (List.mem_map.mpr ⟨x, hx, rfl⟩) f hf e)
    obtain ⟨good, bad, first, outs, extra, k1, k2, k3, k4, k5, k6⟩ := C31_replies _ _ _ _ _ hcalled hb
    rcases k6 with rfl | ⟨k6, -⟩
    · rw [List.append_nil] at k3
      exact ⟨good, bad, first, outs, k1, k2, k3, k4, k5.imp_right fun ⟨_, f, k7, _, _, T, _, _, k8⟩ => ⟨f, k7, T, k8⟩⟩
    · exact absurd k6 hr

/-- A connection of the program with a response. -/
example : ∃ (s : Server World) (c : Conn World), Started hiCfg { fs := hiFiles } s ∧ SmallFiles hiFiles ∧
    s.conns.get 5 = some c ∧ (responses c.sim.trace).length = 1 := by
  have hx : (match handleEvents hiCfg [exAccept 5, exRead 5 (exEnv (clientPreface ++ exSettings ++ exGet) [36, 64])]
      (begin { fs := hiFiles } 3 true false) with
    | .ok s => (match s.conns.get 5 with | some c => (responses c.sim.trace).length == 1 | none => false)
    | _ => false) = true := by decide +kernel
  split at hx
  · rename_i s hs
    split at hx
    · rename_i c hc
      exact ⟨s, c, ⟨3, true, false, events_reach _ (fun _ _ => trivial) hs⟩, hiFiles_small, hc, eq_of_beq hx⟩
    · cases hx
  · cases hx

end Server
end Ion
