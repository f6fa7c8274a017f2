import Verif.Props.App
import Verif.Props.ConnClient

/-!
# The whole program and its clients (C114, C115)
-/

namespace Ion
namespace Props

open Spec FileReader StaticFileHandler

/-! ## The fields of the program's responses -/

/-- The media types of the program's responses. -/
def mediaTypes : List Bytes :=
  [b!"text/html; charset=utf-8", b!"text/css; charset=utf-8", b!"application/javascript; charset=utf-8",
   b!"application/json", b!"application/xml", b!"image/png", b!"image/jpeg", b!"image/gif", b!"image/svg+xml",
   b!"image/x-icon", b!"text/plain; charset=utf-8", b!"application/pdf", b!"application/zip", b!"font/woff",
   b!"font/woff2", b!"font/ttf", b!"image/webp", b!"application/octet-stream"]

/-- The status codes of the program's responses. -/
def statusCodes : List UInt16 := [200, 204, 403, 404, 500]

/-- A field that a handler of the program may return. -/
def HandlerField (h : Header) : Prop :=
  (h.name = b!"content-type" ∧ h.value ∈ mediaTypes) ∨ h = ⟨b!"cache-control", b!"no-store"⟩ ∨
  (h.name = b!"content-length" ∧ ∃ n, IsDecimal n h.value)

theorem mimeTypes_mem : ∀ e ∈ mimeTypes, e.2 ∈ mediaTypes := by decide +kernel

theorem getMimeType_mem (p : Bytes) : getMimeType p ∈ mediaTypes := by
  unfold getMimeType
  split
  · decide +kernel
  · rename_i ext _
    cases h : mimeTypes.lookup ext with
    | none => simp only [Option.getD_none]; decide +kernel
    | some v =>
      simp only [Option.getD_some]
      have key : ∀ (l : List (Bytes × Bytes)), l.lookup ext = some v → ∃ e ∈ l, e.2 = v := by
        intro l
        induction l with
        | nil => intro h; cases h
        | cons e l ih =>
          intro h
          rw [List.lookup_cons] at h
          split at h
          · exact ⟨e, by simp, by simpa using h⟩
          · obtain ⟨e', h1, h2⟩ := ih h
            exact ⟨e', by simp [h1], h2⟩
      obtain ⟨e, h1, h2⟩ := key _ h
      exact h2 ▸ mimeTypes_mem e h1

/-- A response of the program, as a handler returns it. -/
def Ordinary (r : HttpResponse) : Prop :=
  r.status ∈ statusCodes ∧ r.headers.length ≤ 2 ∧ (∀ h ∈ r.headers, HandlerField h) ∧
    ∃ n, (∀ h ∈ r.headers, h.name = b!"content-length" → IsDecimal n h.value) ∧ (r.body ≠ [] → n = r.body.length)

theorem ordinary_file (fs : FS) (p : Bytes) (head : Bool) : Ordinary (fileResponse fs p head) := by
  unfold fileResponse
  split
  · exact ⟨by decide, by decide, by simp, _, by simp, fun _ => rfl⟩
  · cases head with
    | true =>
      simp only [if_true, headResponse]
      split
      · exact ⟨by decide, by decide, by simp, _, by simp, fun _ => rfl⟩
      · rename_i n _
        refine ⟨by simp [statusCodes], by simp, ?_, n, ?_, by simp⟩
        rotate_left
        · intro h hm e
          simp only [List.mem_cons, List.not_mem_nil, or_false] at hm
          rcases hm with rfl | rfl
          · exact Sim.decimal_spec n
          · exact absurd e (by dsimp only; decide)
        intro h hm
        simp only [List.mem_cons, List.not_mem_nil, or_false] at hm
        rcases hm with rfl | rfl
        · exact .inr (.inr ⟨rfl, _, Sim.decimal_spec n⟩)
        · exact .inl ⟨rfl, getMimeType_mem p⟩
    | false =>
      simp only [Bool.false_eq_true, if_false, getResponse]
      split
      · exact ⟨by decide, by decide, by simp, _, by simp, fun _ => rfl⟩
      · refine ⟨by simp [statusCodes], by simp, ?_, _, ?_, fun _ => rfl⟩
        rotate_left
        · intro h hm e
          simp only [List.mem_cons, List.not_mem_nil, or_false] at hm
          subst hm
          exact absurd e (by dsimp only; decide)
        intro h hm
        simp only [List.mem_cons, List.not_mem_nil, or_false] at hm
        subst hm
        exact .inl ⟨rfl, getMimeType_mem p⟩

/-- All responses of a handler are ordinary. -/
def Answers (h : Handler World) : Prop := ∀ req w, ∃ r w', h req w = (.resp r, w') ∧ Ordinary r

theorem answers_target (page : Page) (a : Args) (path method : Bytes) : Answers (appTarget page a path method) := by
  intro req w
  rcases target_cases page a path method with ⟨h, h1, _, h3⟩ | ⟨_, _, _, h⟩ | ⟨s, root, _, _, _, h⟩ | ⟨_, h⟩
  · rw [h3]
    simp only [testOps, List.mem_cons, Op.route.injEq, List.not_mem_nil, or_false] at h1
    rcases h1 with ⟨-, -, rfl⟩ | ⟨-, -, rfl⟩ | ⟨-, -, rfl⟩ | ⟨-, -, rfl⟩ | ⟨-, -, rfl⟩
    · exact ⟨_, _, rfl, by simp [statusCodes], by simp, by simp, _, fun _ hm => (nomatch hm), fun _ => rfl⟩
    · exact ⟨_, _, rfl, by simp [statusCodes], by simp, by simp, _, fun _ hm => (nomatch hm), fun _ => rfl⟩
    · refine ⟨_, _, rfl, ?_, by simp, by simp, _, fun _ hm => (nomatch hm), fun _ => rfl⟩
      cases w.noNewPrivs <;> simp [statusCodes]
    · exact ⟨_, _, rfl, by simp [statusCodes], by simp, by simp, _, fun _ hm => (nomatch hm), fun _ => rfl⟩
    · exact ⟨_, _, rfl, by simp [statusCodes], by simp, by simp, _, fun _ hm => (nomatch hm), fun _ => rfl⟩
  · rw [h]
    refine ⟨_, _, rfl, by simp [statusCodes], by simp, ?_, _, ?_, fun _ => rfl⟩
    rotate_left
    · intro h hm e
      simp only [List.mem_cons, List.not_mem_nil, or_false] at hm
      rcases hm with rfl | rfl <;> exact absurd e (by dsimp only; decide)
    intro h hm
    simp only [List.mem_cons, List.not_mem_nil, or_false] at hm
    rcases hm with rfl | rfl
    · exact .inl ⟨rfl, by decide +kernel⟩
    · exact .inr (.inl rfl)
  · rw [h]
    refine ⟨_, _, rfl, ?_⟩
    unfold StaticFileHandler.handle
    split
    · exact ⟨by decide, by decide, by simp, _, by simp, fun _ => rfl⟩
    · exact ordinary_file _ _ _
  · rw [h]; exact ⟨_, _, rfl, by simp [statusCodes], by simp, by simp, _, by simp, fun _ => rfl⟩

theorem answers_custom404 (f : Bytes) {h : Handler World} (ht : Answers h) : Answers (custom404 f h) := by
  intro req w
  obtain ⟨r, w', h1, h2⟩ := ht req w
  rw [custom404, h1]
  simp only
  split
  · exact ⟨_, w', rfl, by simp [statusCodes], (ordinary_file _ _ _).2⟩
  · exact ⟨_, w', rfl, h2⟩

theorem answers_stats {h : Handler World} (ht : Answers h) : Answers (statsMiddleware h) := by
  intro req w
  obtain ⟨r, w', h1, h2⟩ := ht req { w with
    stats := { w.stats with total := w.stats.total + 1 }, tick := w.tick + 1 }
  simp only [statsMiddleware, World.now]
  rw [h1]
  exact ⟨_, _, rfl, h2⟩

theorem answers_app (page : Page) (a : Args) (path method : Bytes) : Answers (a.getHandler page path method) := by
  rw [getHandler_app]
  unfold appMiddlewares
  have ht := answers_target page a path method
  by_cases h1 : a.statusPage = true <;> by_cases h2 : a.status404FilePath = []
  · simpa [h1, h2, wrapped] using answers_stats ht
  · simpa [h1, h2, wrapped] using answers_stats (answers_custom404 _ ht)
  · simpa [h1, h2, wrapped] using ht
  · simpa [h1, h2, wrapped] using answers_custom404 _ ht

end Props

open Spec Props

namespace Sim
variable {W : Type}

/-- The program's configuration of a connection. -/
def progCfg (page : Page) (a : Args) (charSigned : Bool) : Cfg World :=
  { getHandler := a.getHandler page, charSigned }

/-- All handlers of an application return ordinary responses. -/
def OrdinaryApp (cfg : Cfg W) : Prop :=
  ∀ path method req w, ∃ r w', cfg.getHandler path method req w = (.resp r, w') ∧ Ordinary r

theorem progCfg_ordinary (page : Page) (a : Args) (sgn : Bool) : OrdinaryApp (progCfg page a sgn) :=
  fun path method req w => answers_app page a path method req w

/-! ## C115 -/

theorem Serves.ordinary {cfg : Cfg W} (happ : OrdinaryApp cfg) {w0 : W} {ins : List Frame}
    {calls : List (HttpRequest × HOut)} {answers : List (Nat × List Header × Bytes)} {T : Table} {w : W}
    (h : Serves cfg w0 ins calls answers T w) :
    ∀ x ∈ answers, (x.2.1 = [] ∧ x.2.2 = []) ∨ ∃ r, Ordinary r ∧ ResponseFields r x.2.1 ∧ x.2.2 = r.body := by
  induction h with
  | nil => simp
  | request ins calls answers T T' w w' f block fields path method o r out h ht hb hr hp hm hh ho hf ih =>
    intro x hx
    rcases List.mem_append.mp hx with hx | hx
    · exact ih x hx
    · simp only [List.mem_cons, List.not_mem_nil, or_false] at hx
      subst hx
      obtain ⟨r', w1, h1, h2⟩ := happ path method ⟨method, path, fields⟩ w
      have h3 : (o, w') = (HOut.resp r', w1) := hh.symm.trans h1
      cases h3
      rcases ho with ho | ⟨ho, -⟩
      · cases ho
        exact .inr ⟨_, h2, hf, rfl⟩
      · cases ho
  | incomplete ins calls answers T T' w f block fields h ht hb hr hn ih =>
    intro x hx
    rcases List.mem_append.mp hx with hx | hx
    · exact ih x hx
    · simp only [List.mem_cons, List.not_mem_nil, or_false] at hx
      subst hx
      exact .inl ⟨rfl, rfl⟩
  | other ins calls answers T w f h ht hs ih => exact ih

theorem ordinary_fields {cfg : Cfg W} (happ : OrdinaryApp cfg) {w : W} {now : Nat} {r : ProcRes} {s : Sim W}
    (h : Called cfg w now r s) : ∀ x ∈ responses s.trace,
      (x.2.1.headers = [] ∧ x.2.1.body = []) ∨ ∃ status len own,
        x.2.1.headers = ⟨b!":status", status⟩ :: own ++
          (if x.2.1.body.length = 0 then [] else [⟨b!"content-length", len⟩]) ++
          [⟨b!"server", b!"ion"⟩, ⟨b!"x-powered-by", b!"ion"⟩] ∧
        status ∈ [b!"200", b!"204", b!"403", b!"404", b!"500"] ∧ IsDecimal x.2.1.body.length len ∧
        own.length ≤ 2 ∧ ∀ f ∈ own, HandlerField f := by
  intro x hx
  obtain ⟨good, bad, T, w', g1, g2, rfl, g4⟩ := h.steps.servedTo
  rcases Serves.ordinary happ g2 (asAnswer x) (List.mem_map.mpr ⟨x, hx, rfl⟩) with h | ⟨r, h1, ⟨status, len, k1, k2, k3⟩, h3⟩
  · exact .inl h
  · refine .inr ⟨status, len, r.headers, ?_, ?_, ?_, h1.2.1, h1.2.2.1⟩
    · simp only [asAnswer] at k3 h3
      rw [h3]; exact k3
    · have hc := h1.1
      have e : status = decimal r.status.toNat := decimal_unique _ k1 (decimal_spec _)
      simp only [statusCodes, List.mem_cons, List.not_mem_nil, or_false] at hc
      rw [e]
      rcases hc with hc | hc | hc | hc | hc <;> rw [hc] <;> decide +kernel
    · simp only [asAnswer] at h3
      rw [h3]; exact k2

/-- C115. Every response the program sends either is the empty one for a request without `:path` or
`:method`, or consists of `:status` with one of five codes, at most two fields out of `content-type` (one
of eighteen media types), `cache-control: no-store` and `content-length`, the length of a body that is not
empty, `server` and `x-powered-by`. -/
theorem C115_fields (page : Page) (a : Args) (sgn : Bool) (w : World) (now : Nat) (r : ProcRes) (s : Sim World)
    (h : Called (progCfg page a sgn) w now r s) : ∀ x ∈ responses s.trace,
      (x.2.1.headers = [] ∧ x.2.1.body = []) ∨ ∃ status len own,
        x.2.1.headers = ⟨b!":status", status⟩ :: own ++
          (if x.2.1.body.length = 0 then [] else [⟨b!"content-length", len⟩]) ++
          [⟨b!"server", b!"ion"⟩, ⟨b!"x-powered-by", b!"ion"⟩] ∧
        status ∈ [b!"200", b!"204", b!"403", b!"404", b!"500"] ∧ IsDecimal x.2.1.body.length len ∧
        own.length ≤ 2 ∧ ∀ f ∈ own, HandlerField f :=
  ordinary_fields (progCfg_ordinary page a sgn) h

theorem Serves.length {cfg : Cfg W} (happ : OrdinaryApp cfg) {w0 : W} {ins : List Frame}
    {calls : List (HttpRequest × HOut)} {answers : List (Nat × List Header × Bytes)} {T : Table} {w : W}
    (h : Serves cfg w0 ins calls answers T w) : ∀ x ∈ answers, ∃ n,
      (∀ f ∈ x.2.1, f.name = b!"content-length" → IsDecimal n f.value) ∧ (x.2.2 ≠ [] → n = x.2.2.length) := by
  intro x hx
  rcases Serves.ordinary happ h x hx with ⟨h1, h2⟩ | ⟨r, ⟨-, -, -, n, h1, h2⟩, ⟨status, len, -, k2, k3⟩, h3⟩
  · exact ⟨0, by simp [h1], by simp [h2]⟩
  · refine ⟨n, ?_, by rw [h3]; exact h2⟩
    intro f hf e
    rw [k3] at hf
    simp only [List.cons_append, List.mem_cons, List.mem_append, List.not_mem_nil, or_false] at hf
    rcases hf with rfl | (hf | hf) | rfl | rfl
    · exact absurd e (by dsimp only; decide)
    · exact h1 f hf e
    · split at hf
      · cases hf
      · rename_i hb
        simp only [List.mem_cons, List.not_mem_nil, or_false] at hf
        subst hf
        rw [h2 fun hx => hb (by rw [hx]; rfl)]
        exact k2
    · exact absurd e (by decide)
    · exact absurd e (by decide)

/-- C115, lengths: a response of the program never announces two different lengths, and a response with a body
announces no other length than its own. -/
theorem C115_length (page : Page) (a : Args) (sgn : Bool) (w : World) (now : Nat) (r : ProcRes) (s : Sim World)
    (h : Called (progCfg page a sgn) w now r s) : ∀ x ∈ responses s.trace, ∃ n,
      (∀ f ∈ x.2.1.headers, f.name = b!"content-length" → IsDecimal n f.value) ∧
      (x.2.1.body ≠ [] → n = x.2.1.body.length) := by
  intro x hx
  obtain ⟨good, bad, T, w', g1, g2, rfl, g4⟩ := h.steps.servedTo
  exact Serves.length (progCfg_ordinary page a sgn) g2 (asAnswer x) (List.mem_map.mpr ⟨x, hx, rfl⟩)

/-- C115, for instance: the program never sends a `date` field, which RFC 9110 (section 6.6.1) requires of
servers with a clock, nor `set-cookie`, `location`, or any other name than these six. -/
theorem C115_names (page : Page) (a : Args) (sgn : Bool) (w : World) (now : Nat) (r : ProcRes) (s : Sim World)
    (h : Called (progCfg page a sgn) w now r s) : ∀ x ∈ responses s.trace, ∀ f ∈ x.2.1.headers,
      f.name ∈ [b!":status", b!"content-type", b!"cache-control", b!"content-length", b!"server", b!"x-powered-by"] ∧
      f.name ≠ b!"date" := by
  intro x hx f hf
  have key : f.name ∈ [b!":status", b!"content-type", b!"cache-control", b!"content-length", b!"server",
      b!"x-powered-by"] := by
    rcases C115_fields page a sgn w now r s h x hx with ⟨e, -⟩ | ⟨status, len, own, e, -, -, -, ho⟩
    · rw [e] at hf; cases hf
    · rw [e] at hf
      simp only [List.cons_append, List.mem_cons, List.mem_append, List.not_mem_nil, or_false] at hf
      rcases hf with rfl | (hf | hf) | rfl | rfl
      · dsimp only; decide
      · rcases ho f hf with ⟨e, -⟩ | rfl | ⟨e, -⟩
        · rw [e]; decide
        · decide
        · rw [e]; decide
      · split at hf
        · cases hf
        · simp only [List.mem_cons, List.not_mem_nil, or_false] at hf
          rw [hf]; dsimp only; decide
      · decide
      · decide
  refine ⟨key, fun e => ?_⟩
  rw [e] at key
  revert key
  decide

/-! ## The length of a header block -/

theorem strWire_length {s w : Bytes} (h : StrWire encDialect s w) : w.length ≤ 6 + 4 * s.length := by
  cases h with
  | plain len h hs =>
    have := h.2.1
    simp only [List.length_append]; omega
  | huffman len data h hd hs =>
    have h6 := h.2.1
    obtain ⟨pad, h1, -, h3⟩ := hd
    have hl := congrArg List.length h1
    have key : ∀ s : Bytes, (huffBits s).length ≤ 30 * s.length := by
      intro s
      induction s with
      | nil => simp [huffBits]
      | cons c s ih =>
        have := (codeBits_length c).2
        rw [codeBits_eq] at this
        simp only [huffBits, List.flatMap_cons, List.length_append, List.length_cons] at ih ⊢
        omega
    have := key s
    simp only [bitsOf_length, List.length_append] at hl ⊢
    omega

theorem writeString_length {ε : Type} {sgn : Bool} {s w : Bytes} (h : Encodable sgn s)
    (hw : (writeLengthAndString sgn s : Outcome ε Bytes) = .ok w) : w.length ≤ 6 + 4 * s.length := by
  obtain ⟨w', h1, h2⟩ := writeString_enc (ε := ε) h
  rw [h1] at hw
  cases hw
  exact strWire_length h2

theorem encodeHeader_length {ε : Type} {sgn : Bool} {t t' : DynTable} {h : Header} {w : Bytes}
    (hn : Encodable sgn h.name) (hv : Encodable sgn h.value)
    (he : (encodeHeader sgn t h : Outcome ε (Bytes × DynTable)) = .ok (w, t')) : w.length ≤ 4 * size h := by
  have hsz : size h = h.name.length + h.value.length + 32 := rfl
  unfold encodeHeader at he
  split at he
  · cases he; simp only [List.length_cons, List.length_nil]; omega
  · split at he
    · cases he; simp only [List.length_cons, List.length_nil]; omega
    · split at he
      · obtain ⟨v, h1, he⟩ := Outcome.bind_eq_ok.mp he
        obtain ⟨t1, h2, he⟩ := Outcome.bind_eq_ok.mp he
        cases he
        have := writeString_length hv h1
        simp only [List.length_cons]; omega
      · split at he
        · obtain ⟨v, h1, he⟩ := Outcome.bind_eq_ok.mp he
          obtain ⟨t1, h2, he⟩ := Outcome.bind_eq_ok.mp he
          cases he
          have := writeString_length hv h1
          simp only [List.length_cons]; omega
        · obtain ⟨n, h0, he⟩ := Outcome.bind_eq_ok.mp he
          obtain ⟨v, h1, he⟩ := Outcome.bind_eq_ok.mp he
          obtain ⟨t1, h2, he⟩ := Outcome.bind_eq_ok.mp he
          cases he
          have := writeString_length hv h1
          have := writeString_length hn h0
          simp only [List.length_cons, List.length_append]; omega

/-- A header block has at most four times the octets of its fields' sizes. -/
theorem encodeBlock_length {ε : Type} {sgn : Bool} (hs : List Header) : ∀ {t t' : DynTable} {w : Bytes},
    (∀ h ∈ hs, Encodable sgn h.name ∧ Encodable sgn h.value) →
    (encodeBlock sgn t hs : Outcome ε (Bytes × DynTable)) = .ok (w, t') → w.length ≤ 4 * sizes hs := by
  induction hs with
  | nil => intro t t' w _ h; cases h; simp
  | cons h hs ih =>
    intro t t' w henc he
    unfold encodeBlock at he
    obtain ⟨⟨b, t1⟩, h1, he⟩ := Outcome.bind_eq_ok.mp he
    obtain ⟨⟨bs, t2⟩, h2, he⟩ := Outcome.bind_eq_ok.mp he
    cases he
    have := encodeHeader_length (henc h (by simp)).1 (henc h (by simp)).2 h1
    have := ih (fun x hx => henc x (by simp [hx])) h2
    simp only [sizes_cons, List.length_append]; omega

/-- Every block was made by the encoder. -/
def Encoded (cfg : Cfg W) (s : Sim W) : Prop := ∀ x ∈ responses s.trace, ∃ t t',
  (encodeBlock cfg.charSigned t x.2.1.headers : Outcome Stop (Bytes × DynTable)) = .ok (x.2.2, t')

theorem Encoded.quiet {cfg : Cfg W} {s t : Sim W} {es : List Ev} (i : Encoded cfg s)
    (ht : t.trace = s.trace ++ es) (hq : responses es = []) : Encoded cfg t := by
  have e : responses t.trace = responses s.trace := by rw [ht, responses_append, hq, List.append_nil]
  unfold Encoded
  rw [e]
  exact i

theorem Encoded.step {cfg : Cfg W} {b : Bool} {s t : Sim W} (h : Step cfg b s t) (i : Encoded cfg s) :
    Encoded cfg t := by
  cases h with
  | env => exact i
  | readsLeft => exact i
  | handshake _ n h => exact i.quiet rfl rfl
  | writeBlocked _ ws h hst => exact i.quiet rfl rfl
  | writeFailed _ ws e h he hst => exact i.quiet rfl rfl
  | wrote _ ws n t h hn hst => exact i.quiet rfl rfl
  | read _ bs t hw hst hr => exact i.quiet rfl rfl
  | readFailed _ e hw hst hr => exact i.quiet (es := [.readFail e]) (by cases e <;> rfl) rfl
  | oversized _ h hd hh hl hw => exact i.quiet (es := []) (by simp) rfl
  | shutdown _ h hw => exact i.quiet rfl rfl
  | close _ h => exact i.quiet (es := (goawayChunks s.st).map Ev.enqueue) rfl (by simp [goawayChunks, responses])
  | wantRead _ h => exact i.quiet rfl rfl
  | wantWrite _ h => exact i.quiet rfl rfl
  | discard _ h => exact i.quiet rfl rfl
  | preface _ rest h hw hr =>
    exact i.quiet (es := .prefaceOk :: settingsChunks.map Ev.enqueue) (by simp [enq, emit]) (by simp [responses])
  | frame _ s1 h hd hh hl hr hw ha =>
    generalize FrameReader.mk hd ((s.rbuf.drop 9).take hd.length.toNat) = f at ha
    cases ha with
    | settingsAck ht hfl => exact i.quiet (es := [.frame f]) rfl rfl
    | settings l ht hfl hrs => exact i.quiet (es := [.frame f, .enqueue _]) (by simp [enq]; rfl) rfl
    | badSettings e ht hfl hrs => exact i.quiet (es := [.frame f]) rfl rfl
    | badHeaders block e dec' ht hbk hdc => exact i.quiet (es := [.frame f]) rfl rfl
    | windowUpdate w ht h => exact i.quiet (es := [.frame f]) rfl rfl
    | goaway ht => exact i.quiet (es := [.frame f]) rfl rfl
    | other h1' h4' h7 h8 => exact i.quiet (es := [.frame f]) rfl rfl
    | request data hs dec' resp evs w' block enc' ht hbk hdc hrp he =>
      have p6 : responses evs = [] := by cases hrp <;> rfl
      have e : responses (s.trace ++ [.frame f] ++ answerEvs evs f.header.streamId hs resp block) =
          responses s.trace ++ [(f.header.streamId, resp, block)] := by
        simp [responses, answerEvs, p6]
      unfold Encoded
      simp only
      rw [e]
      intro x hx
      rcases List.mem_append.mp hx with hx | hx
      · exact i x hx
      · simp only [List.mem_cons, List.not_mem_nil, or_false] at hx
        subst hx
        exact ⟨_, _, he⟩

/-! ## C114 -/

/-- What every field of the program's responses satisfies. -/
def plain (f : Header) : Bool :=
  (decide (f.name ∈ [b!":status", b!"content-type", b!"cache-control", b!"content-length", b!"server"]) ||
    decide (f = ⟨b!"x-powered-by", b!"ion"⟩)) && f.value.all fun c => decide (c.toNat < 128)

theorem isDecimal_ascii {n : Nat} {d : Bytes} (h : IsDecimal n d) : d.all (fun c => decide (c.toNat < 128)) = true := by
  rw [List.all_eq_true]
  intro c hc
  have := h.2.1 c hc
  simp only [decide_eq_true_eq]; omega

theorem mediaTypes_ascii : ∀ v ∈ mediaTypes, v.all (fun c => decide (c.toNat < 128)) = true := by decide +kernel

theorem Called.plain {cfg : Cfg W} (happ : OrdinaryApp cfg) {w : W} {now : Nat} {r : ProcRes} {s : Sim W}
    (h : Called cfg w now r s) : ∀ x ∈ responses s.trace,
      x.2.1.headers.length ≤ 6 ∧ ∀ f ∈ x.2.1.headers, Sim.plain f = true := by
  intro x hx
  rcases ordinary_fields happ h x hx with ⟨e, -⟩ | ⟨status, len, own, e, hs, hl, ho, hf⟩
  · rw [e]; simp
  · rw [e]
    refine ⟨?_, ?_⟩
    · simp only [List.length_cons, List.length_append, List.length_nil, List.cons_append]
      have : (if x.2.1.body.length = 0 then [] else [(⟨b!"content-length", len⟩ : Header)]).length ≤ 1 := by
        split <;> simp
      omega
    · intro f hm
      simp only [List.cons_append, List.mem_cons, List.mem_append, List.not_mem_nil, or_false] at hm
      rcases hm with rfl | (hm | hm) | rfl | rfl
      · simp only [List.mem_cons, List.not_mem_nil, or_false] at hs
        rcases hs with rfl | rfl | rfl | rfl | rfl <;> decide +kernel
      · rcases hf f hm with ⟨e, hv⟩ | rfl | ⟨e, n, hv⟩
        · simp only [Sim.plain, e, mediaTypes_ascii _ hv, Bool.and_true]; simp
        · decide +kernel
        · simp only [Sim.plain, e, isDecimal_ascii hv, Bool.and_true]; simp
      · split at hm
        · cases hm
        · simp only [List.mem_cons, List.not_mem_nil, or_false] at hm
          subst hm
          simp only [Sim.plain, isDecimal_ascii hl, Bool.and_true]; simp
      · decide +kernel
      · decide +kernel

theorem plain_static {f : Header} (h : Sim.plain f = true) : NameInStatic f.name ∨ f = ⟨b!"x-powered-by", b!"ion"⟩ := by
  simp only [Sim.plain, Bool.and_eq_true, Bool.or_eq_true, decide_eq_true_eq] at h
  rcases h.1 with h | h
  · left
    simp only [List.mem_cons, List.not_mem_nil, or_false] at h
    rcases h with h | h | h | h | h <;> rw [h]
    · exact ⟨8, _, by decide, rfl, rfl⟩
    · exact ⟨31, _, by decide, rfl, rfl⟩
    · exact ⟨24, _, by decide, rfl, rfl⟩
    · exact ⟨28, _, by decide, rfl, rfl⟩
    · exact ⟨54, _, by decide, rfl, rfl⟩
  · exact .inr h

theorem size_le_sizes {f : Header} {U : List Header} (h : f ∈ U) : size f ≤ sizes U := by
  induction U with
  | nil => cases h
  | cons g U ih =>
    rw [sizes_cons]
    rcases List.mem_cons.mp h with rfl | h
    · omega
    · have := ih h; omega

theorem sizes_filter_le (p : Header → Bool) (U : List Header) : sizes (U.filter p) ≤ sizes U := by
  induction U with
  | nil => simp
  | cons g U ih =>
    rw [List.filter_cons]
    split
    · rw [sizes_cons, sizes_cons]; omega
    · rw [sizes_cons]; omega

theorem sizes_le_mul {hs : List Header} {m : Nat} (h : ∀ f ∈ hs, size f ≤ m) : sizes hs ≤ m * hs.length := by
  induction hs with
  | nil => simp
  | cons f hs ih =>
    have := h f (by simp)
    have := ih fun x hx => h x (by simp [hx])
    rw [sizes_cons, List.length_cons, Nat.mul_add]; omega

theorem static_size {f : Header} (h : InStatic f) : size f ≤ 100 := by
  obtain ⟨i, hi, hs⟩ := h
  have key : ∀ i : Fin 62, (staticEntry i.val).all (fun h => decide (size h ≤ 100)) = true := by decide +kernel
  have := key ⟨i, by omega⟩
  simpa [hs] using this

theorem ordinary_client {cfg : Cfg W} (happ : OrdinaryApp cfg) {w : W} {now : Nat} {r : ProcRes} {s : Sim W}
    (h : Called cfg w now r s) (U : List Header) (hn : U.length ≤ 65)
    (hsub : ∀ x ∈ responses s.trace, ∀ f ∈ x.2.1.headers, InStatic f ∨ f ∈ U)
    (c : Nat) (hc : sizes U ≤ c) (hc' : c ≤ 65536) :
    ∃ (good bad : List FrameReader) (calls : List (HttpRequest × HOut))
      (answers : List (Nat × List Header × Bytes)) (first outs extra : List Frame) (T T' : Table),
      frames s.trace = good ++ bad ∧
      Serves cfg w (good.map asFrame) calls answers T s.world ∧ handled s.trace = calls ∧
      FramesWire (first ++ outs ++ extra) (produced s.trace) ∧
      (∀ limit, ClientSees limit ⟨[], c⟩ outs answers T') ∧
      ((first = [] ∧ frames s.trace = []) ∨ ∃ f, first = [f] ∧ ServerPreface f) ∧
      (bad = [] ∨ (r ≠ .wantRead ∧ ∃ f, bad = [f] ∧ Unacceptable T (asFrame f))) ∧
      (extra = [] ∨ (r = .discard ∧ ∃ g, extra = [g] ∧ g.type = 7 ∧ g.payload.length = 8)) := by
  have hpl := h.plain happ
  have hsize : ∀ f ∈ U.filter plain, size f ≤ 65536 := fun f hf =>
    Nat.le_trans (size_le_sizes (List.mem_filter.mp hf).1) (Nat.le_trans hc hc')
  have henc : ∀ f ∈ U.filter plain, Encodable cfg.charSigned f.name ∧ Encodable cfg.charSigned f.value := by
    intro f hf
    have h1 := hsize f hf
    have h2 := (List.mem_filter.mp hf).2
    have hsz : size f = f.name.length + f.value.length + 32 := rfl
    simp only [plain, Bool.and_eq_true, Bool.or_eq_true, decide_eq_true_eq, List.all_eq_true] at h2
    refine ⟨⟨by omega, .inr (.inr ?_)⟩, by omega, .inr (.inr h2.2)⟩
    rcases h2.1 with h2 | h2
    · simp only [List.mem_cons, List.not_mem_nil, or_false] at h2
      rcases h2 with h2 | h2 | h2 | h2 | h2 <;> rw [h2] <;> decide +kernel
    · rw [h2]; decide +kernel
  have hsub' : ∀ x ∈ responses s.trace, ∀ f ∈ x.2.1.headers, InStatic f ∨ f ∈ U.filter plain := fun x hx f hf =>
    (hsub x hx f hf).imp_right fun hu => List.mem_filter.mpr ⟨hu, (hpl x hx).2 f hf⟩
  have hblocks : ∀ x ∈ responses s.trace, x.2.2.length < 2 ^ 24 := by
    intro x hx
    have he : Encoded cfg s := Steps.inv (P := Encoded cfg)
      (fun _ _ _ _ st i => i.step st) h.steps (by simp [Encoded, Sim.init, responses])
    obtain ⟨t, t', he⟩ := he x hx
    have h1 := encodeBlock_length x.2.1.headers
      (fun f hf => (hsub' x hx f hf).elim static_encodable (henc f)) he
    have h2 := sizes_le_mul (m := 65536) (hs := x.2.1.headers) fun f hf =>
      (hsub' x hx f hf).elim (fun h => Nat.le_trans (static_size h) (by decide)) (hsize f)
    have h3 := (hpl x hx).1
    omega
  refine C84_end_to_end_partial cfg w now r s h hblocks (U.filter plain)
    ⟨Nat.le_trans (List.length_filter_le _ _) hn, ?_⟩ henc hsub' c
    (Nat.le_trans (sizes_filter_le _ _) hc) hc'
  intro x hx y hy hxy
  rcases plain_static (List.mem_filter.mp hx).2 with h1 | h1
  · exact .inl h1
  · rcases plain_static (List.mem_filter.mp hy).2 with h2 | h2
    · exact .inl (hxy ▸ h2)
    · exact .inr (h1.trans h2.symm)

/-- C114, what holds: if the responses on a connection have at most 65 different fields outside the static
table, together within the client's table limit, then the client reads every response of the program exactly
as the program's handlers returned it. Missing: connections with more different fields. -/
theorem C114_client_partial (page : Page) (a : Args) (sgn : Bool) (w : World) (now : Nat) (r : ProcRes) (s : Sim World)
    (h : Called (progCfg page a sgn) w now r s) (U : List Header) (hn : U.length ≤ 65)
    (hsub : ∀ x ∈ responses s.trace, ∀ f ∈ x.2.1.headers, InStatic f ∨ f ∈ U)
    (c : Nat) (hc : sizes U ≤ c) (hc' : c ≤ 65536) :
    ∃ (good bad : List FrameReader) (calls : List (HttpRequest × HOut))
      (answers : List (Nat × List Header × Bytes)) (first outs extra : List Frame) (T T' : Table),
      frames s.trace = good ++ bad ∧
      Serves (progCfg page a sgn) w (good.map asFrame) calls answers T s.world ∧ handled s.trace = calls ∧
      FramesWire (first ++ outs ++ extra) (produced s.trace) ∧
      (∀ limit, ClientSees limit ⟨[], c⟩ outs answers T') ∧
      ((first = [] ∧ frames s.trace = []) ∨ ∃ f, first = [f] ∧ ServerPreface f) ∧
      (bad = [] ∨ (r ≠ .wantRead ∧ ∃ f, bad = [f] ∧ Unacceptable T (asFrame f))) ∧
      (extra = [] ∨ (r = .discard ∧ ∃ g, extra = [g] ∧ g.type = 7 ∧ g.payload.length = 8)) :=
  ordinary_client (progCfg_ordinary page a sgn) h U hn hsub c hc hc'

/-- The fields of the program's responses that are not in the static table, apart from lengths. -/
def fixedFields : List Header :=
  [⟨b!":status", b!"403"⟩, ⟨b!"cache-control", b!"no-store"⟩, ⟨b!"server", b!"ion"⟩, ⟨b!"x-powered-by", b!"ion"⟩] ++
  mediaTypes.map fun v => ⟨b!"content-type", v⟩

/-- A field announcing a length. -/
def lengthField (n : Nat) : Header := ⟨b!"content-length", decimal n⟩

theorem decimal_length_le {n k : Nat} (h : n < 10 ^ (k + 1)) : (decimal n).length ≤ k + 1 := by
  induction k generalizing n with
  | zero =>
    rw [decimal]
    rw [if_pos (by simpa using h)]
    simp
  | succ k ih =>
    rw [decimal]
    split
    · simp
    · have := ih (n := n / 10) (by rw [Nat.pow_succ] at h; omega)
      simp only [List.length_append, List.length_cons, List.length_nil]; omega

theorem ordinary_lengths {cfg : Cfg W} (happ : OrdinaryApp cfg) {w : W} {now : Nat} {r : ProcRes} {s : Sim W}
    (h : Called cfg w now r s) (L : List Nat) (hL : L.length ≤ 43)
    (hb : ∀ n ∈ L, n < 10 ^ 19)
    (hsub : ∀ x ∈ responses s.trace, ∀ f ∈ x.2.1.headers, f.name = b!"content-length" →
      ∃ n ∈ L, IsDecimal n f.value)
    (c : Nat) (hc : 4096 ≤ c) (hc' : c ≤ 65536) :
    ∃ (good bad : List FrameReader) (calls : List (HttpRequest × HOut))
      (answers : List (Nat × List Header × Bytes)) (first outs extra : List Frame) (T T' : Table),
      frames s.trace = good ++ bad ∧
      Serves cfg w (good.map asFrame) calls answers T s.world ∧ handled s.trace = calls ∧
      FramesWire (first ++ outs ++ extra) (produced s.trace) ∧
      (∀ limit, ClientSees limit ⟨[], c⟩ outs answers T') ∧
      ((first = [] ∧ frames s.trace = []) ∨ ∃ f, first = [f] ∧ ServerPreface f) ∧
      (bad = [] ∨ (r ≠ .wantRead ∧ ∃ f, bad = [f] ∧ Unacceptable T (asFrame f))) ∧
      (extra = [] ∨ (r = .discard ∧ ∃ g, extra = [g] ∧ g.type = 7 ∧ g.payload.length = 8)) := by
  have hlen : ∀ f : Header, f.name = b!"content-length" → (∃ n ∈ L, IsDecimal n f.value) →
      f ∈ L.map lengthField := by
    rintro ⟨n, v⟩ e ⟨m, hm, hd⟩
    refine List.mem_map.mpr ⟨m, hm, ?_⟩
    rw [lengthField, decimal_unique m (decimal_spec m) hd]
    simp only at e
    rw [e]
  have hsz : sizes (L.map lengthField) ≤ 65 * L.length := by
    have := sizes_le_mul (hs := L.map lengthField) (m := 65) (by
      intro f hf
      obtain ⟨n, hn, rfl⟩ := List.mem_map.mp hf
      have := decimal_length_le (k := 18) (hb n hn)
      have e : size (lengthField n) = 14 + (decimal n).length + 32 := rfl
      omega)
    simpa using this
  refine ordinary_client happ h (fixedFields ++ L.map lengthField) ?_ ?_ c ?_ hc'
  · have : fixedFields.length = 22 := by decide
    rw [List.length_append, List.length_map]; omega
  · intro x hx f hf
    rcases ordinary_fields happ h x hx with ⟨e, -⟩ | ⟨status, len, own, e, hs, hl, -, ho⟩
    · rw [e] at hf; cases hf
    · have hf' := hf
      rw [e] at hf
      simp only [List.cons_append, List.mem_cons, List.mem_append, List.not_mem_nil, or_false] at hf
      rcases hf with rfl | (hf | hf) | rfl | rfl
      · simp only [List.mem_cons, List.not_mem_nil, or_false] at hs
        rcases hs with rfl | rfl | rfl | rfl | rfl
        · exact .inl ⟨8, by decide, rfl⟩
        · exact .inl ⟨9, by decide, rfl⟩
        · exact .inr (List.mem_append_left _ (by decide +kernel))
        · exact .inl ⟨13, by decide, rfl⟩
        · exact .inl ⟨14, by decide, rfl⟩
      · rcases ho f hf with ⟨e, hv⟩ | rfl | ⟨e, n, hv⟩
        · refine .inr (List.mem_append_left _ (List.mem_append_right _ (List.mem_map.mpr ⟨f.value, hv, ?_⟩)))
          rw [← e]
        · exact .inr (List.mem_append_left _ (by decide +kernel))
        · exact .inr (List.mem_append_right _ (hlen f e (hsub x hx f hf' e)))
      · split at hf
        · cases hf
        · simp only [List.mem_cons, List.not_mem_nil, or_false] at hf
          subst hf
          exact .inr (List.mem_append_right _ (hlen _ rfl (hsub x hx _ hf' rfl)))
      · exact .inr (List.mem_append_left _ (by decide +kernel))
      · exact .inr (List.mem_append_left _ (by decide +kernel))
  · have : sizes fixedFields = 1259 := by decide +kernel
    rw [sizes_append]; omega

/-- C114, in terms of files: a client with the default table of 4096 octets reads every response exactly as
long as at most 43 different lengths below 10^19 are announced on its connection. -/
theorem C114_lengths_partial (page : Page) (a : Args) (sgn : Bool) (w : World) (now : Nat) (r : ProcRes)
    (s : Sim World) (h : Called (progCfg page a sgn) w now r s) (L : List Nat) (hL : L.length ≤ 43)
    (hb : ∀ n ∈ L, n < 10 ^ 19)
    (hsub : ∀ x ∈ responses s.trace, ∀ f ∈ x.2.1.headers, f.name = b!"content-length" →
      ∃ n ∈ L, IsDecimal n f.value)
    (c : Nat) (hc : 4096 ≤ c) (hc' : c ≤ 65536) :
    ∃ (good bad : List FrameReader) (calls : List (HttpRequest × HOut))
      (answers : List (Nat × List Header × Bytes)) (first outs extra : List Frame) (T T' : Table),
      frames s.trace = good ++ bad ∧
      Serves (progCfg page a sgn) w (good.map asFrame) calls answers T s.world ∧ handled s.trace = calls ∧
      FramesWire (first ++ outs ++ extra) (produced s.trace) ∧
      (∀ limit, ClientSees limit ⟨[], c⟩ outs answers T') ∧
      ((first = [] ∧ frames s.trace = []) ∨ ∃ f, first = [f] ∧ ServerPreface f) ∧
      (bad = [] ∨ (r ≠ .wantRead ∧ ∃ f, bad = [f] ∧ Unacceptable T (asFrame f))) ∧
      (extra = [] ∨ (r = .discard ∧ ∃ g, extra = [g] ∧ g.type = 7 ∧ g.payload.length = 8)) :=
  ordinary_lengths (progCfg_ordinary page a sgn) h L hL hb hsub c hc hc'

/-! ### More lengths -/

/-- A directory with files `a`, `aa`, ... of 1, 2, ... octets. -/
def manyFiles (n : Nat) : FS := Files.ofList
  (([b!"s"], .dir) :: (List.range n).map fun i =>
    ([b!"s", List.replicate (i + 1) 0x61], .file (List.replicate (i + 1) 0x62) true))

/-- The application serving it. -/
def manyCfg : Cfg World := progCfg (fun _ _ _ _ => []) { staticMap := [b!"/", b!"/s"] } true

/-- A request with this `:method` (at index 2) and the path of the `i`-th file (at index 4). -/
def fileRequest (method : Bytes) (i : Nat) : Bytes :=
  [0, 0, UInt8.ofNat (method.length + i + 6), 1, 5, 0, 0, 0, UInt8.ofNat (2 * i + 1), 0x02,
    UInt8.ofNat method.length] ++ method ++ [0x04, UInt8.ofNat (i + 2), 0x2f] ++ List.replicate (i + 1) 0x61

/-- GET for the first 62 files, HEAD for the next. -/
def manyRequests : Bytes := (List.range 62).flatMap (fileRequest b!"GET") ++ fileRequest b!"HEAD" 62

/-- The sizes of the writes. -/
def manyWrites : List Nat := 88 :: (List.range 61).map (fun i => 27 + i + (if i < 8 then 0 else 1)) ++ [17]

/-- The 66 fields of the responses that are not in the static table. -/
def manyFields : List Header :=
  [⟨b!"server", b!"ion"⟩, ⟨b!"x-powered-by", b!"ion"⟩, ⟨b!"content-type", b!"application/octet-stream"⟩] ++
  (List.range 63).map fun i => lengthField (i + 1)

theorem noInt {n flag v : Nat} {w x bs : Bytes} (h : IntRep n flag v w) (e : w ++ x = 255 :: bs)
    (hb : ∀ b ∈ bs, 128 ≤ b.toNat) (hn : (n = 7 ∧ flag = 1) ∨ (flag + 1) * 2 ^ n ≤ 128) : False := by
  cases h with
  | short b hb' hv =>
    simp only [List.cons_append, List.cons.injEq] at e
    rw [e.1] at hb'
    have h255 : (255 : UInt8).toNat = 255 := rfl
    rw [h255] at hb'
    rcases hn with ⟨rfl, rfl⟩ | hn
    · omega
    · rw [Nat.add_mul] at hn; omega
  | long b cs hb' hc hv =>
    simp only [List.cons_append, List.cons.injEq] at e
    have key : ∀ cs : Bytes, ContOctets cs → ∃ c ∈ cs, c.toNat < 128 := by
      intro cs h
      induction h with
      | last b h => exact ⟨b, by simp, h⟩
      | more b bs h hs ih => obtain ⟨c, h1, h2⟩ := ih; exact ⟨c, by simp [h1], h2⟩
    obtain ⟨c, h1, h2⟩ := key cs hc
    have := hb c (by rw [← e.2]; simp [h1])
    omega

/-- No field representation begins with 255 followed only by octets above 127. -/
theorem noRep {r : Rep} {w x bs : Bytes} (h : RepWire Dialect.rfc r w) (e : w ++ x = 255 :: bs)
    (hb : ∀ b ∈ bs, 128 ≤ b.toNat) : False := by
  cases h with
  | indexed i _ h => exact noInt h e hb (.inl ⟨rfl, rfl⟩)
  | literalIndexed mode i value wi wv h0 hi hv =>
    rw [List.append_assoc] at e
    exact noInt hi e hb (.inr (by cases mode <;> decide))
  | literalNew mode name value wi wn wv hi hn hv =>
    rw [List.append_assoc] at e
    exact noInt hi e hb (.inr (by cases mode <;> decide))
  | sizeUpdate n _ h => exact noInt h e hb (.inr (by decide))

/-- The block of the last response is no header block. -/
theorem noBlock : ∀ reps, ¬ BlockWire Dialect.rfc reps [136, 92, 2, 54, 51, 255, 253, 252] := by
  intro reps h
  have step : ∀ {reps : List Rep} {r : Rep} {w rest : Bytes}, RepWire Dialect.rfc r w → w ≠ [] →
      BlockWire Dialect.rfc reps (w ++ rest) → ∃ reps', BlockWire Dialect.rfc reps' rest := by
    intro reps r w rest hr hne hb
    generalize hx : w ++ rest = x at hb
    cases hb with
    | nil => simp at hx; exact absurd hx.1 hne
    | cons r' rs w' ws h' hs =>
      obtain ⟨-, -, rfl⟩ := repWire_unique hr h' hx
      exact ⟨rs, hs⟩
  obtain ⟨reps1, h⟩ := step (w := [136]) (rest := [92, 2, 54, 51, 255, 253, 252])
    (.indexed 8 [136] (.short _ (by decide) (by decide))) (by decide) h
  obtain ⟨reps2, h⟩ := step (r := .literal .incremental (.index 28) b!"63") (w := [92, 2, 54, 51])
    (rest := [255, 253, 252]) (.literalIndexed _ _ _ [92] [2, 54, 51] (by decide)
      (.short _ (by decide) (by decide)) (.plain [2] (.short _ (by decide) (by decide)) trivial)) (by decide) h
  generalize hx : ([255, 253, 252] : Bytes) = x at h
  cases h with
  | nil => cases hx
  | cons r rs w ws h' hs => exact noRep h' hx.symm (by decide +kernel)

set_option maxRecDepth 100000 in
/-- C114 as stated fails, and 65 is the best bound. A client asks over one connection for 63 files of
different sizes (the last with HEAD); the program has all of them, and answers. Only 66 different fields
outside the static table are sent, and they fit the smallest default table; but what is sent
as the last response is not a header block, so that no client can read it. -/
theorem C114_refuted : ∃ r s x, Called manyCfg { fs := manyFiles 63 } 0 r s ∧ r = .wantRead ∧
    (handled s.trace).length = 63 ∧
    (∀ q ∈ handled s.trace, ∃ resp, q.2 = .resp resp ∧ resp.status = 200) ∧
    manyFields.length = 66 ∧ sizes manyFields ≤ 4096 ∧
    (∀ y ∈ responses s.trace, ∀ f ∈ y.2.1.headers, InStatic f ∨ f ∈ manyFields) ∧
    (responses s.trace).length = 63 ∧ (responses s.trace).getLast? = some x ∧
    ∀ reps, ¬ BlockWire Dialect.rfc reps x.2.2 := by
  have hrun : ∃ r s, Called manyCfg { fs := manyFiles 63 } 0 r s ∧ (r == .wantRead &&
      (handled s.trace).length == 63 &&
      (handled s.trace).all (fun q => match q.2 with | .resp p => p.status == 200 | _ => false) &&
      (responses s.trace).all (fun y => y.2.1.headers.all fun f =>
        decide (f = ⟨b!":status", b!"200"⟩) || decide (f ∈ manyFields)) &&
      (responses s.trace).length == 63 &&
      ((responses s.trace).getLast?.map fun x => x.2.2) == some [136, 92, 2, 54, 51, 255, 253, 252]) = true :=
    Shows.called (e := exEnv (clientPreface ++ manyRequests) manyWrites) (es := []) (by decide +kernel)
  obtain ⟨r, s, h1, h2⟩ := hrun
  simp only [Bool.and_eq_true, beq_iff_eq, List.all_eq_true, Bool.or_eq_true, decide_eq_true_eq] at h2
  obtain ⟨⟨⟨⟨⟨h2, h3⟩, h4⟩, h5⟩, h6⟩, h7⟩ := h2
  cases hl : (responses s.trace).getLast? with
  | none => rw [hl] at h7; cases h7
  | some x =>
    rw [hl] at h7
    simp only [Option.map_some, Option.some.injEq] at h7
    refine ⟨r, s, x, h1, h2, h3, ?_, by decide +kernel, by decide +kernel, ?_, h6, hl, ?_⟩
    · intro q hq
      have := h4 q hq
      split at this
      · rename_i p hp
        exact ⟨p, hp, by simpa using this⟩
      · cases this
    · intro y hy f hf
      rcases h5 y hy f hf with rfl | h
      · exact .inl ⟨8, by decide, rfl⟩
      · exact .inr h
    · rw [h7]; exact noBlock

set_option maxRecDepth 100000 in
/-- The conditions of the positive theorems are met by three requests. -/
example : ∃ r s, Called manyCfg { fs := manyFiles 3 } 0 r s ∧ (r == .wantRead &&
      (responses s.trace).length == 3 &&
      (responses s.trace).all (fun y => y.2.1.headers.all fun f =>
        (decide (f.name ≠ b!"content-length") || decide (f.value ∈ [1, 2, 3].map decimal)))) = true :=
  Shows.called (e := exEnv (clientPreface ++ (List.range 3).flatMap (fileRequest b!"GET")) [88, 27, 28]) (es := [])
    (by decide +kernel)

end Sim
end Ion
