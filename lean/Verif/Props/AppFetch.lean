import Verif.Props.ServerLive
import Verif.Props.StaticFound

/-! # C131: what a conforming client receives from the program -/

namespace Ion
open Spec Props
namespace Sim
variable {W : Type}

/-- How many requests a client makes: its HEADERS frames. -/
def requests (fs : List Frame) : Nat := (fs.filter fun f => f.type = 1).length

theorem Serves.requests {cfg : Cfg W} {w0 : W} {fs : List Frame} {calls : List (HttpRequest × HOut)}
    {answers : List (Nat × List Header × Bytes)} {T : Table} {w : W} (h : Serves cfg w0 fs calls answers T w) :
    answers.length = requests fs := by
  induction h with
  | nil => rfl
  | request ins calls answers T T' w w' f block fields path method o r out h ht hb hr hp hm hh ho hf ih =>
    simp [ih, Sim.requests, ht, List.filter_append]
  | incomplete ins calls answers T T' w f block fields h ht hb hr hn ih =>
    simp [ih, Sim.requests, ht, List.filter_append]
  | other ins calls answers T w f h ht hs ih => simp [ih, Sim.requests, ht, List.filter_append]

theorem decimal_lt (n : Nat) : n < 10 ^ (decimal n).length := by
  induction n using Nat.strongRecOn with
  | _ n ih =>
    rw [decimal]
    split
    · simpa
    · have := ih (n / 10) (by omega)
      rw [List.length_append, List.length_singleton, Nat.pow_succ]
      omega

theorem isDecimal_lt {n k : Nat} {v : Bytes} (h : IsDecimal n v) (hk : v.length ≤ k) : n < 10 ^ k := by
  have e := decimal_unique n h (decimal_spec n)
  have := decimal_lt n
  rw [← e] at this
  exact Nat.lt_of_lt_of_le this (Nat.pow_le_pow_right (by decide) hk)

/-- One length for each answer. -/
theorem lengths_of (answers : List (Nat × List Header × Bytes))
    (h : ∀ x ∈ answers, ∃ n, ∀ f ∈ x.2.1, f.name = b!"content-length" → IsDecimal n f.value)
    (hd : ∀ x ∈ answers, ∀ f ∈ x.2.1, f.name = b!"content-length" → f.value.length ≤ 19) :
    ∃ L : List Nat, L.length = answers.length ∧ (∀ n ∈ L, n < 10 ^ 19) ∧
      ∀ x ∈ answers, ∀ f ∈ x.2.1, f.name = b!"content-length" → ∃ n ∈ L, IsDecimal n f.value := by
  induction answers with
  | nil => exact ⟨[], rfl, by simp, by simp⟩
  | cons x xs ih =>
    obtain ⟨L, h1, h2, h3⟩ := ih (fun y hy => h y (by simp [hy])) (fun y hy => hd y (by simp [hy]))
    obtain ⟨n, hn⟩ := h x (by simp)
    by_cases hx : ∃ f ∈ x.2.1, f.name = b!"content-length"
    · obtain ⟨f, hf, e⟩ := hx
      refine ⟨n :: L, by simp [h1], ?_, ?_⟩
      · intro m hm
        rcases List.mem_cons.mp hm with rfl | hm
        · exact isDecimal_lt (hn f hf e) (hd x (by simp) f hf e)
        · exact h2 m hm
      · intro y hy g hg e
        rcases List.mem_cons.mp hy with rfl | hy
        · exact ⟨n, by simp, hn g hg e⟩
        · obtain ⟨m, k1, k2⟩ := h3 y hy g hg e
          exact ⟨m, by simp [k1], k2⟩
    · refine ⟨0 :: L, by simp [h1], ?_, ?_⟩
      · intro m hm
        rcases List.mem_cons.mp hm with rfl | hm
        · decide
        · exact h2 m hm
      · intro y hy g hg e
        rcases List.mem_cons.mp hy with rfl | hy
        · exact absurd ⟨g, hg, e⟩ hx
        · obtain ⟨m, k1, k2⟩ := h3 y hy g hg e
          exact ⟨m, by simp [k1], k2⟩

theorem ordinary_fetched {cfg : Cfg W} (happ : OrdinaryApp cfg) {w : W} {now : Nat} {s0 : Sim W} {env : Env}
    {fs : List Frame} {v : Bytes} (h0 : InUse cfg w now s0) (hc : Conforming fs) (hv : FramesWire fs v)
    (hu : Unbroken s0.trace) (hs : Sound env) (hp : Prompt cfg env s0)
    (hin : received s0.trace ++ pending env.reads = Spec.preface ++ v) (hne : fs ≠ []) (hreq : requests fs ≤ 43)
    (hlen : ∀ calls answers T w', Serves cfg w fs calls answers T w' → ∀ x ∈ answers, ∀ f ∈ x.2.1,
      f.name = b!"content-length" → f.value.length ≤ 19)
    (c : Nat) (hc1 : 4096 ≤ c) (hc2 : c ≤ 65536) :
    ∃ (s : Sim W) (calls : List (HttpRequest × HOut)) (answers : List (Nat × List Header × Bytes))
      (first : Frame) (outs : List Frame) (T T' : Table),
      s0.process cfg env = .ok (.wantRead, s) ∧ Serves cfg w fs calls answers T s.world ∧
      handled s.trace = calls ∧ ServerPreface first ∧ FramesWire (first :: outs) (accepted s.trace) ∧
      ∀ limit, ClientSees limit ⟨[], c⟩ outs answers T' := by
  obtain ⟨s, T, h1, h2, h3, h4, h5⟩ := C129_answered cfg w now s0 env fs v h0 happ.good hc hv hu hs hp hin
  obtain ⟨L, l1, l2, l3⟩ := lengths_of _ (fun x hx => (Serves.length happ h4 x hx).imp fun n hn => hn.1)
    (hlen _ _ _ _ h4)
  obtain ⟨good, bad, calls, answers, first, outs, extra, T1, T2, g1, g2, g3, g4, g5, g6, g7, g8⟩ :=
    ordinary_lengths happ (r := .wantRead) ⟨s0, env, h0, h1⟩ L (by rw [l1, Serves.requests h4]; exact hreq) l2
      (fun x hx => l3 (asAnswer x) (List.mem_map.mpr ⟨x, hx, rfl⟩)) c hc1 hc2
  have hb : bad = [] := g7.resolve_right fun h => h.1 rfl
  have he : extra = [] := g8.resolve_right fun h => by cases h.1
  subst hb he
  rw [List.append_nil] at g1 g4
  rcases g6 with ⟨-, e⟩ | ⟨f, rfl, hf⟩
  · rw [e] at h3
    exact absurd h3.symm (by simpa using hne)
  · refine ⟨s, calls, answers, f, outs, T1, T2, h1, ?_, g3, hf, ?_, g5⟩
    · rw [g1] at h3
      rw [← h3]; exact g2
    · rw [h5 hne]; simpa using g4


/-! ### Answers of the program -/

/-- No file has 10^19 octets or more. -/
def SmallFiles (fs : FS) : Prop := ∀ loc c b, fs.look loc = some (.file c b) → c.length < 10 ^ 19

/-- On the files `fs` all responses of the handler are shorter than 10^19 octets and announce no greater
length; the files stay. -/
def Measured (fs : FS) (h : Handler World) : Prop := ∀ req w, w.fs = fs → ∃ r w', h req w = (.resp r, w') ∧
  w'.fs = fs ∧ r.body.length < 10 ^ 19 ∧
  ∀ f ∈ r.headers, f.name = b!"content-length" → ∃ n, n < 10 ^ 19 ∧ IsDecimal n f.value

theorem measured_file {fs : FS} (hs : SmallFiles fs) (p : Bytes) (head : Bool) :
    (StaticFileHandler.fileResponse fs p head).body.length < 10 ^ 19 ∧
    ∀ f ∈ (StaticFileHandler.fileResponse fs p head).headers, f.name = b!"content-length" →
      ∃ n, n < 10 ^ 19 ∧ IsDecimal n f.value := by
  unfold StaticFileHandler.fileResponse
  split
  · exact ⟨by simp, by simp⟩
  · rename_i ho
    obtain ⟨c, hc⟩ := Props.isReadable_iff.mp (by simpa using ho)
    obtain ⟨loc, -, hl⟩ := id hc
    have hlt := hs _ _ _ hl
    cases head with
    | true =>
      simp only [if_true, StaticFileHandler.headResponse, Props.getFileSize_of hc]
      refine ⟨by simp, ?_⟩
      intro f hf e
      simp only [List.mem_cons, List.not_mem_nil, or_false] at hf
      rcases hf with rfl | rfl
      · exact ⟨_, hlt, decimal_spec _⟩
      · exact absurd e (by dsimp only; decide)
    | false =>
      simp only [Bool.false_eq_true, if_false, StaticFileHandler.getResponse, Props.readFile_of hc]
      refine ⟨hlt, ?_⟩
      intro f hf e
      simp only [List.mem_cons, List.not_mem_nil, or_false] at hf
      subst hf
      exact absurd e (by dsimp only; decide)

theorem measured_target {page : Page} (hpage : ∀ a b c d, (page a b c d).length < 10 ^ 19) {fs : FS}
    (hs : SmallFiles fs) (a : Args) (path method : Bytes) : Measured fs (appTarget page a path method) := by
  intro req w hw
  rcases target_cases page a path method with ⟨h, h1, _, h3⟩ | ⟨_, _, _, h⟩ | ⟨s, root, _, _, _, h⟩ | ⟨_, h⟩
  · rw [h3]
    simp only [testOps, List.mem_cons, Op.route.injEq, List.not_mem_nil, or_false] at h1
    rcases h1 with ⟨-, -, rfl⟩ | ⟨-, -, rfl⟩ | ⟨-, -, rfl⟩ | ⟨-, -, rfl⟩ | ⟨-, -, rfl⟩
    · exact ⟨_, _, rfl, hw, by simp, fun _ hm => (nomatch hm)⟩
    · exact ⟨_, _, rfl, hw, by simp, fun _ hm => (nomatch hm)⟩
    · exact ⟨_, _, rfl, hw, by simp, fun _ hm => (nomatch hm)⟩
    · exact ⟨_, _, rfl, hw, by rw [List.length_replicate]; decide, fun _ hm => (nomatch hm)⟩
    · exact ⟨_, _, rfl, hw, by rw [List.length_replicate]; decide, fun _ hm => (nomatch hm)⟩
  · rw [h]
    refine ⟨_, _, rfl, hw, hpage _ _ _ _, ?_⟩
    intro f hf e
    simp only [List.mem_cons, List.not_mem_nil, or_false] at hf
    rcases hf with rfl | rfl <;> exact absurd e (by dsimp only; decide)
  · rw [h]
    refine ⟨_, _, rfl, hw, ?_⟩
    unfold StaticFileHandler.handle
    split
    · exact ⟨by simp, by simp⟩
    · rw [hw]; exact measured_file hs _ _
  · rw [h]; exact ⟨_, _, rfl, hw, by simp, by simp⟩

theorem measured_custom404 {fs : FS} (hs : SmallFiles fs) (p : Bytes) {h : Handler World} (ht : Measured fs h) :
    Measured fs (custom404 p h) := by
  intro req w hw
  obtain ⟨r, w', h1, h2, h3⟩ := ht req w hw
  rw [custom404, h1]
  simp only
  split
  · refine ⟨_, w', rfl, h2, ?_⟩
    rw [h2]
    exact measured_file hs p false
  · exact ⟨_, w', rfl, h2, h3⟩

theorem measured_stats {fs : FS} {h : Handler World} (ht : Measured fs h) : Measured fs (statsMiddleware h) := by
  intro req w hw
  obtain ⟨r, w', h1, h2, h3⟩ := ht req { w with
    stats := { w.stats with total := w.stats.total + 1 }, tick := w.tick + 1 } hw
  simp only [statsMiddleware, World.now]
  rw [h1]
  exact ⟨_, _, rfl, h2, h3⟩

theorem measured_app {page : Page} (hpage : ∀ a b c d, (page a b c d).length < 10 ^ 19) {fs : FS}
    (hs : SmallFiles fs) (a : Args) (path method : Bytes) : Measured fs (a.getHandler page path method) := by
  rw [getHandler_app]
  unfold appMiddlewares
  have ht := measured_target hpage hs a path method
  by_cases h1 : a.statusPage = true <;> by_cases h2 : a.status404FilePath = []
  · simpa [h1, h2, wrapped] using measured_stats ht
  · simpa [h1, h2, wrapped] using measured_stats (measured_custom404 hs _ ht)
  · simpa [h1, h2, wrapped] using ht
  · simpa [h1, h2, wrapped] using measured_custom404 hs _ ht

theorem tidy_app (page : Page) (a : Args) (path method : Bytes) : Tidy (a.getHandler page path method) := by
  have hst : ∀ {h : Handler World}, Tidy h → Tidy (statsMiddleware h) := by
    intro h ht req w
    obtain ⟨_, r, _, w3, _, _, h1, h2⟩ := stats_through ht req w
    exact ⟨r, w3, h1, h2⟩
  rw [getHandler_app]
  unfold appMiddlewares
  have ht := tidy_target page a path method
  by_cases h1 : a.statusPage = true <;> by_cases h2 : a.status404FilePath = []
  · simpa [h1, h2, wrapped] using hst ht
  · simpa [h1, h2, wrapped] using hst (tidy_custom404 _ ht)
  · simpa [h1, h2, wrapped] using ht
  · simpa [h1, h2, wrapped] using tidy_custom404 _ ht

/-- The program's handlers do not change the files. -/
theorem worldFrom_fs {page : Page} {a : Args} {sgn : Bool} {w0 w : World}
    (h : WorldFrom (progCfg page a sgn) w0 w) : w.fs = w0.fs := by
  induction h with
  | start => rfl
  | call w path method req h ih =>
    obtain ⟨r, w', h1, h2⟩ := tidy_app page a path method req w
    simp only [progCfg]
    rw [h1]
    exact h2.trans ih

theorem isDecimal_digits {n k : Nat} {v : Bytes} (h : IsDecimal n v) (hn : n < 10 ^ (k + 1)) : v.length ≤ k + 1 := by
  rw [decimal_unique n h (decimal_spec n)]
  exact decimal_length_le hn

/-- No answer of the program announces a length of more than 19 digits. -/
theorem answered_digits {page : Page} (hpage : ∀ a b c d, (page a b c d).length < 10 ^ 19) {a : Args} {sgn : Bool}
    {w0 : World} (hs : SmallFiles w0.fs) {fs : List Frame} {calls : List (HttpRequest × HOut)}
    {answers : List (Nat × List Header × Bytes)} {T : Table}
    (h : Answered (progCfg page a sgn) w0 fs calls answers T) : ∀ x ∈ answers, ∀ f ∈ x.2.1,
      f.name = b!"content-length" → f.value.length ≤ 19 := by
  induction h with
  | nil => simp
  | request ins calls answers T T' w w' f block fields path method o r out h ht hb hr hp hm hw hh ho hf ih =>
    intro x hx
    rcases List.mem_append.mp hx with hx | hx
    · exact ih x hx
    · simp only [List.mem_cons, List.not_mem_nil, or_false] at hx
      subst hx
      obtain ⟨r', w1, h1, -, h2, h3⟩ := measured_app hpage hs a path method ⟨method, path, fields⟩ w (worldFrom_fs hw)
      have h4 : (o, w') = (HOut.resp r', w1) := hh.symm.trans h1
      cases h4
      rcases ho with ho | ⟨ho, -⟩
      · cases ho
        obtain ⟨status, len, -, k2, k3⟩ := hf
        intro g hg e
        simp only at hg
        rw [k3] at hg
        simp only [List.cons_append, List.mem_cons, List.mem_append, List.not_mem_nil, or_false] at hg
        rcases hg with rfl | (hg | hg) | rfl | rfl
        · exact absurd e (by dsimp only; decide)
        · obtain ⟨n, hn, hd⟩ := h3 g hg e
          exact isDecimal_digits hd hn
        · split at hg
          · cases hg
          · simp only [List.mem_cons, List.not_mem_nil, or_false] at hg
            subst hg
            exact isDecimal_digits k2 h2
        · exact absurd e (by decide)
        · exact absurd e (by decide)
      · cases ho
  | incomplete ins calls answers T T' f block fields h ht hb hr hn ih =>
    intro x hx
    rcases List.mem_append.mp hx with hx | hx
    · exact ih x hx
    · simp only [List.mem_cons, List.not_mem_nil, or_false] at hx
      subst hx
      simp
  | other ins calls answers T f h ht hs ih => exact ih

theorem OrdinaryApp.replay {cfg : Cfg W} (h : OrdinaryApp cfg) : OrdinaryApp (replay cfg) := by
  intro path method req v
  obtain ⟨ws, u⟩ := v
  cases ws with
  | nil =>
    obtain ⟨r, w', h1, h2⟩ := h path method req u
    exact ⟨r, ([], w'), by simp only [Sim.replay]; rw [h1], h2⟩
  | cons x ws =>
    obtain ⟨r, w', h1, h2⟩ := h path method req x
    exact ⟨r, (ws, u), by simp only [Sim.replay]; rw [h1], h2⟩

/-! ### The answer to a request -/

theorem readable_table {fs : List Frame} {T : Table} (h : Readable fs T) : ∃ t : DynTable, t.WF ∧ t.abs = T := by
  induction h with
  | nil => exact ⟨{}, by simp [DynTable.WF, sizes], rfl⟩
  | snoc fs f T T' h hf ih =>
    obtain ⟨t, h1, rfl⟩ := ih
    rcases hf with ⟨-, block, fields, -, hr⟩ | ⟨-, rfl, -⟩
    · obtain ⟨t', -, h2, h3⟩ := ReadsAs.decode h1 hr
      exact ⟨t', h3, h2⟩
    · exact ⟨t, h1, rfl⟩

theorem readable_reads {fs : List Frame} {T : Table} (h : Readable fs T) {block : Bytes} {f1 f2 : List Header}
    {T1 T2 : Table} (h1 : ReadsAs T block f1 T1) (h2 : ReadsAs T block f2 T2) : f1 = f2 ∧ T1 = T2 := by
  obtain ⟨t, hw, rfl⟩ := readable_table h
  exact ReadsAs.unique hw h1 h2

theorem answered_table {cfg : Cfg W} {w0 : W} {fs : List Frame} {calls : List (HttpRequest × HOut)}
    {answers : List (Nat × List Header × Bytes)} {T : Table} (h : Answered cfg w0 fs calls answers T) :
    ∀ {T'}, Readable fs T' → T' = T := by
  have key : ∀ {ins : List Frame} {f : Frame} {T1 T' : Table}, Readable (ins ++ [f]) T' →
      (∀ {T'}, Readable ins T' → T' = T1) → (f.type = 1 → ∀ block fields T2, FieldBlock f block →
        ReadsAs T1 block fields T2 → T' = T2) ∧ (f.type ≠ 1 → T' = T1) := by
    intro ins f T1 T' h ih
    generalize e : ins ++ [f] = l at h
    cases h with
    | nil => simp at e
    | snoc fs g T _ h hf =>
      obtain ⟨e0, e1⟩ := List.append_inj' e rfl
      obtain rfl := (List.cons.inj e1).1
      subst e0
      obtain rfl := ih h
      rcases hf with ⟨ht, block, fields, hb, hr⟩ | ⟨ht, rfl, -⟩
      · refine ⟨fun _ block' fields' T2 hb' hr' => ?_, fun h => absurd ht h⟩
        obtain rfl := FieldBlock.unique hb hb'
        exact (readable_reads h hr hr').2
      · exact ⟨fun h => absurd h ht, fun _ => rfl⟩
  induction h with
  | nil =>
    intro T' h
    generalize e : ([] : List Frame) = l at h
    cases h with
    | nil => rfl
    | snoc fs g T _ h hf => simp at e
  | request ins calls answers T T' w w' f block fields path method o r out h ht hb hr hp hm hw hh ho hf ih =>
    intro T2 h2
    exact (key h2 ih).1 ht _ _ _ hb hr
  | incomplete ins calls answers T T' f block fields h ht hb hr hn ih =>
    intro T2 h2
    exact (key h2 ih).1 ht _ _ _ hb hr
  | other ins calls answers T f h ht hs ih =>
    intro T2 h2
    exact (key h2 ih).2 ht

theorem answered_requests {cfg : Cfg W} {w0 : W} {fs : List Frame} {calls : List (HttpRequest × HOut)}
    {answers : List (Nat × List Header × Bytes)} {T : Table} (h : Answered cfg w0 fs calls answers T) :
    answers.length = requests fs := by
  induction h with
  | nil => rfl
  | request ins calls answers T T' w w' f block fields path method o r out h ht hb hr hp hm hw hh ho hf ih =>
    simp [ih, Sim.requests, ht, List.filter_append]
  | incomplete ins calls answers T T' f block fields h ht hb hr hn ih =>
    simp [ih, Sim.requests, ht, List.filter_append]
  | other ins calls answers T f h ht hs ih => simp [ih, Sim.requests, ht, List.filter_append]

/-- The answer to the request with the HEADERS frame `f`. -/
theorem answered_at {cfg : Cfg W} {w0 : W} {fs : List Frame} {calls : List (HttpRequest × HOut)}
    {answers : List (Nat × List Header × Bytes)} {T : Table} (h : Answered cfg w0 fs calls answers T)
    {ins more : List Frame} {f : Frame} (e : fs = ins ++ f :: more) {T0 : Table} (hT : Readable ins T0)
    (ht : f.type = 1) {block : Bytes} {fields : List Header} {T1 : Table} (hb : FieldBlock f block)
    (hr : ReadsAs T0 block fields T1) {path method : Bytes} (hp : FirstField fields b!":path" path)
    (hm : FirstField fields b!":method" method) :
    ∃ before after out r o w w', answers = before ++ (f.stream, out, r.body) :: after ∧
      before.length = requests ins ∧ WorldFrom cfg w0 w ∧
      cfg.getHandler path method ⟨method, path, fields⟩ w = (o, w') ∧
      (o = .resp r ∨ (o = .stdExn ∧ r = { status := 500 })) ∧ ResponseFields r out := by
  have last : ∀ {fs' more : List Frame} {g : Frame}, fs' ++ [g] = ins ++ f :: more →
      (fs' = ins ∧ g = f) ∨ ∃ more', more = more' ++ [g] ∧ fs' = ins ++ f :: more' := by
    intro fs' more g e
    rcases List.eq_nil_or_concat more with rfl | ⟨more', x, rfl⟩
    · obtain ⟨rfl, e2⟩ := List.append_inj' e rfl
      cases e2
      exact .inl ⟨rfl, rfl⟩
    · have e : fs' ++ [g] = (ins ++ f :: more') ++ [x] := by simpa using e
      obtain ⟨rfl, e2⟩ := List.append_inj' e rfl
      cases e2
      exact .inr ⟨more', by simp, rfl⟩
  induction h generalizing more with
  | nil => simp at e
  | request ins' calls answers T T' w w' g block' fields' path' method' o r out h ht' hb' hr' hp' hm' hw hh ho hf ih =>
    rcases last e with ⟨rfl, rfl⟩ | ⟨more', -, e⟩
    · obtain rfl := FieldBlock.unique hb hb'
      obtain rfl := answered_table h hT
      obtain ⟨rfl, -⟩ := readable_reads hT hr hr'
      obtain rfl := FirstField.unique hp hp'
      obtain rfl := FirstField.unique hm hm'
      exact ⟨answers, [], out, r, o, w, w', rfl, answered_requests h, hw, hh, ho, hf⟩
    · obtain ⟨b, a, out', r', o', w1, w2, rfl, h2⟩ := ih e
      exact ⟨b, a ++ [(g.stream, out, r.body)], out', r', o', w1, w2, by simp, h2⟩
  | incomplete ins' calls answers T T' g block' fields' h ht' hb' hr' hn ih =>
    rcases last e with ⟨rfl, rfl⟩ | ⟨more', -, e⟩
    · obtain rfl := FieldBlock.unique hb hb'
      obtain rfl := answered_table h hT
      obtain ⟨rfl, -⟩ := readable_reads hT hr hr'
      exact absurd hn (fun hn => hn.elim (FirstField.not_absent hp) (FirstField.not_absent hm))
    · obtain ⟨b, a, out', r', o', w1, w2, rfl, h2⟩ := ih e
      exact ⟨b, a ++ [(g.stream, [], [])], out', r', o', w1, w2, by simp, h2⟩
  | other ins' calls answers T g h ht' hs ih =>
    rcases last e with ⟨rfl, rfl⟩ | ⟨more', -, e⟩
    · exact absurd ht ht'
    · exact ih e

/-- What the program does about a response other than 404 of the handler a request is for: nothing. -/
theorem through_app (page : Page) (a : Args) (path method : Bytes) (req : HttpRequest) (w : World) {r : HttpResponse}
    (hr : r.status ≠ 404) (h : ∀ w1 : World, w1.fs = w.fs → ∃ w2, appTarget page a path method req w1 = (.resp r, w2)) :
    ∃ w', a.getHandler page path method req w = (.resp r, w') := by
  have h404 : ∀ w1 : World, w1.fs = w.fs → ∃ w2, custom404 a.status404FilePath (appTarget page a path method) req w1 =
      (.resp r, w2) := by
    intro w1 hw
    obtain ⟨w2, h2⟩ := h w1 hw
    exact ⟨w2, by rw [custom404, h2]; simp only [hr, if_false]⟩
  have hst : ∀ t : Handler World, (∀ w1 : World, w1.fs = w.fs → ∃ w2, t req w1 = (.resp r, w2)) →
      ∃ w', statsMiddleware t req w = (.resp r, w') := by
    intro t ht
    obtain ⟨w2, h2⟩ := ht { w with
      stats := { w.stats with total := w.stats.total + 1 }, tick := w.tick + 1 } rfl
    simp only [statsMiddleware, World.now]
    rw [h2]
    exact ⟨_, rfl⟩
  rw [getHandler_app]
  unfold appMiddlewares
  by_cases h1 : a.statusPage = true <;> by_cases h2 : a.status404FilePath = []
  · simpa [h1, h2, wrapped] using hst _ h
  · simpa [h1, h2, wrapped] using hst _ h404
  · simpa [h1, h2, wrapped] using h w rfl
  · simpa [h1, h2, wrapped] using h404 w rfl

end Sim

namespace Server
open Sim
variable {W : Type}

theorem ordinary_shared {cfg : Cfg W} (happ : OrdinaryApp cfg) {w0 : W} {s : Server W} (h : Started cfg w0 s)
    {ev : PollEv} {c : Conn W} (hc : s.conns.get ev.fd = some c) {fs : List Frame} {v : Bytes}
    (hcf : Conforming fs) (hv : FramesWire fs v) (he : hasEvent ev.events .error = false)
    (hh : hasEvent ev.events .hangup = false)
    (hrw : hasEvent ev.events .read = true ∨ hasEvent ev.events .write = true)
    (hp : Prompt cfg ev.env { c.sim with world := s.world }) (hu : Unbroken c.sim.trace) (hs : Sound ev.env)
    (hin : received c.sim.trace ++ pending ev.env.reads = Spec.preface ++ v) (hne : fs ≠ []) (hreq : requests fs ≤ 43)
    (hlen : ∀ calls answers T, Answered cfg w0 fs calls answers T → ∀ x ∈ answers, ∀ f ∈ x.2.1,
      f.name = b!"content-length" → f.value.length ≤ 19)
    (limit : Nat) (hc1 : 4096 ≤ limit) (hc2 : limit ≤ 65536) :
    ∃ (s' : Server W) (sim : Sim W) (answers : List (Nat × List Header × Bytes)) (first : Frame)
      (outs : List Frame) (T T' : Table), s.handleEvent cfg ev = .ok s' ∧
      s'.conns.get ev.fd = some ⟨c.file, sim⟩ ∧ Answered cfg w0 fs (handled sim.trace) answers T ∧
      ServerPreface first ∧ FramesWire (first :: outs) (accepted sim.trace) ∧
      ∀ m, ClientSees m ⟨[], limit⟩ outs answers T' := by
  obtain ⟨t, ws, hq, ha⟩ := h.alone.2 hc
  have hans : ∀ {calls answers T v'}, Spec.Serves (replay cfg) (feed ws ([], s.world)) fs calls answers T v' →
      Answered cfg w0 fs calls answers T := fun hx => answered_of_serves hx (by simpa [feed] using hq) h.alone.1
  obtain ⟨x, calls, answers, first, outs, T, T', h1, h2, h3, h4, h5, h6⟩ := ordinary_fetched (cfg := replay cfg)
    happ.replay (ha ([], s.world)) hcf hv (s0 := ({ c.sim with world := s.world } : Sim W).live) hu hs
    ⟨hp.hs, hp.reads, by
      intro s1 k1 k2
      obtain ⟨s2, rfl, k4⟩ := loops_live (s := { c.sim with
        world := s.world, hs := ev.env.hs, reads := ev.env.reads, writes := ev.env.writes }) k1
      exact hp.writes s2 k4 k2⟩ hin hne hreq (fun _ _ _ _ hx => hlen _ _ _ (hans hx)) limit hc1 hc2
  have hp : Par _ _ _ := live_process cfg ev.env { c.sim with world := s.world }
  rw [Par, h1] at hp
  obtain ⟨⟨r', sim⟩, g1, g2⟩ := Outcome.bind_eq_ok.mp hp.symm
  simp only [withLive, Outcome.ok.injEq, Prod.mk.injEq] at g2
  obtain ⟨rfl, rfl⟩ := g2
  obtain ⟨s', e1, -, -, e4⟩ := (C93_event h.serves hc).2.2 he hh hrw .wantRead sim g1
  obtain ⟨e4, -, -⟩ := e4 (by simp)
  have h3 : handled sim.trace = calls := h3
  exact ⟨s', sim, answers, first, outs, T, T', e1, e4, h3 ▸ hans h2, h4, h5, h6⟩

/-- C131: a client that follows the RFCs connects to the program and makes at most 43 requests; the program does
whatever its other clients make it do. When everything the client sends has arrived and the transport takes
what it is given, the octets handed to the transport are the server's SETTINGS frame and frames that the client,
with a table of 4096 octets or more, reads as exactly the answers to its requests. -/
theorem C131_fetched (page : Page) (a : Args) (sgn : Bool) {w0 : World} {s0 s : Server World}
    (hpage : ∀ a b c d, (page a b c d).length < 10 ^ 19) (hfiles : SmallFiles w0.fs)
    (h0 : Started (progCfg page a sgn) w0 s0) {t0 : Nat} {w : World} {c0 : Conn World} {ev : PollEv}
    (hc0 : s0.conns.get ev.fd = some c0) (hn : c0.sim = Sim.init w t0) {fs : List Frame} {v : Bytes}
    (hcf : Conforming fs) (hv : FramesWire fs v) (hne : fs ≠ []) (hreq : requests fs ≤ 43)
    (h : Cares (progCfg page a sgn) ev.fd t0 (Spec.preface ++ v) s0 s)
    (he : hasEvent ev.events .error = false) (hh : hasEvent ev.events .hangup = false)
    (hrw : hasEvent ev.events .read = true ∨ hasEvent ev.events .write = true) (hs : Sound ev.env)
    (hp : ∀ c, s.conns.get ev.fd = some c → Prompt (progCfg page a sgn) ev.env { c.sim with world := s.world } ∧
      received c.sim.trace ++ pending ev.env.reads = Spec.preface ++ v)
    (limit : Nat) (hl1 : 4096 ≤ limit) (hl2 : limit ≤ 65536) :
    ∃ (s' : Server World) (c : Conn World) (answers : List (Nat × List Header × Bytes)) (first : Frame)
      (outs : List Frame) (T T' : Table), s.handleEvent (progCfg page a sgn) ev = .ok s' ∧
      s'.conns.get ev.fd = some c ∧ c.file = c0.file ∧
      Answered (progCfg page a sgn) w0 fs (handled c.sim.trace) answers T ∧
      ServerPreface first ∧ FramesWire (first :: outs) (accepted c.sim.trace) ∧
      ∀ m, ClientSees m ⟨[], limit⟩ outs answers T' := by
  obtain ⟨c, h1, h2, -, -, h5, -⟩ := C130_life h0.serves hc0 hn (progCfg_good page a sgn) hcf hv h
  obtain ⟨s', sim, answers, first, outs, T, T', k1, k2, k3⟩ := ordinary_shared (progCfg_ordinary page a sgn)
    (h0.reach h.reach) h1 hcf hv he hh hrw (hp c h1).1 h5 hs (hp c h1).2 hne hreq
    (fun _ _ _ hx => answered_digits hpage hfiles hx) limit hl1 hl2
  exact ⟨s', ⟨c.file, sim⟩, answers, first, outs, T, T', k1, k2, h2, k3⟩

/-- The answer to a GET for a target under the prefix, when the handler of files makes 200 of it. -/
theorem file_answer (page : Page) (a : Args) (sgn : Bool) {w0 : World} {fs : List Frame}
    {calls : List (HttpRequest × HOut)} {answers : List (Nat × List Header × Bytes)} {T : Table}
    (h : Answered (progCfg page a sgn) w0 fs calls answers T) {ins more : List Frame} {f : Frame}
    (e : fs = ins ++ f :: more) {T0 T1 : Table} (hT : Readable ins T0) (ht : f.type = 1) {block : Bytes}
    {fields : List Header} (hb : FieldBlock f block) (hr : ReadsAs T0 block fields T1) {path : Bytes}
    (hp : FirstField fields b!":path" path) (hm : FirstField fields b!":method" b!"GET")
    (htest : a.underTest = true → path ∉ testPaths) (hstatus : a.statusPage = true → path ≠ b!"/_ion/status")
    {pfx root : Bytes} (hmap : a.staticMap = [pfx, root]) (hpfx : pfx <+: path) {content : Bytes}
    (hok : (StaticFileHandler.handle ⟨pfx, root⟩ w0.fs path false).status = 200 ∧
      (StaticFileHandler.handle ⟨pfx, root⟩ w0.fs path false).body = content) :
    ∃ before after out, answers = before ++ (f.stream, out, content) :: after ∧ before.length = requests ins ∧
      FirstField out b!":status" b!"200" := by
  obtain ⟨before, after, out, r, o, w, w', k1, k2, k3, k4, k5, k6⟩ := answered_at h e hT ht hb hr hp hm
  have hfs := worldFrom_fs k3
  have ht : ∀ w1 : World, w1.fs = w.fs → ∃ w2, appTarget page a path b!"GET" ⟨b!"GET", path, fields⟩ w1 =
      (.resp (StaticFileHandler.handle ⟨pfx, root⟩ w0.fs path false), w2) := by
    intro w1 hw1
    obtain ⟨-, -, h3⟩ := target_routes page a path b!"GET"
    rcases h3 (fun x => htest x.1 x.2.2) (fun x => hstatus x.1 x.2.2) with ⟨s', root', e1, -, -, h3⟩ | ⟨h3, -⟩
    · rw [hmap] at e1
      cases e1
      rw [h3]
      exact ⟨w1, by simp [hw1, hfs]⟩
    · exact absurd ⟨_, _, hmap, hpfx, .inl rfl⟩ h3
  obtain ⟨w2, hget⟩ := through_app page a path b!"GET" ⟨b!"GET", path, fields⟩ w (by rw [hok.1]; decide) ht
  have h4 : (o, w') = (HOut.resp _, w2) := k4.symm.trans hget
  cases h4
  rcases k5 with k5 | ⟨k5, -⟩
  · cases k5
    refine ⟨before, after, out, by rw [k1, hok.2], k2, ?_⟩
    obtain ⟨status, len, d1, -, rfl⟩ := k6
    rw [hok.1] at d1
    have d2 : IsDecimal 200 b!"200" := (by decide +kernel : decimal 200 = b!"200") ▸ decimal_spec 200
    obtain rfl := decimal_unique _ d1 d2
    exact ⟨[], _, rfl, fun _ hm => (nomatch hm)⟩
  · cases k5

/-- C131, files: if a request of the client is a GET for a target that resolves, perhaps through symbolic links, to
a readable regular file in the directory the program serves, its answer is 200 with the content of the file. -/
theorem C131_resolved (page : Page) (a : Args) (sgn : Bool) {w0 : World} {fs : List Frame}
    {calls : List (HttpRequest × HOut)} {answers : List (Nat × List Header × Bytes)} {T : Table}
    (h : Answered (progCfg page a sgn) w0 fs calls answers T) {ins more : List Frame} {f : Frame}
    (e : fs = ins ++ f :: more) {T0 T1 : Table} (hT : Readable ins T0) (ht : f.type = 1) {block : Bytes}
    {fields : List Header} (hb : FieldBlock f block) (hr : ReadsAs T0 block fields T1) {path : Bytes}
    (hp : FirstField fields b!":path" path) (hm : FirstField fields b!":method" b!"GET")
    (htest : a.underTest = true → path ∉ testPaths) (hstatus : a.statusPage = true → path ≠ b!"/_ion/status")
    {pfx root : Bytes} (hmap : a.staticMap = [pfx, root]) (hpfx : pfx <+: path) (hwf : w0.fs.WF)
    {base loc : List Name} (hbase : w0.fs.stat (parsePath root) = .ok base) (hdir : w0.fs.look base = some .dir)
    (hrel : (parsePath (StaticFileHandler.getRelativePath ⟨pfx, root⟩ path)).abs = false)
    (hloc : w0.fs.stat (FPath.append ⟨true, base, false⟩
      (parsePath (StaticFileHandler.getRelativePath ⟨pfx, root⟩ path))) = .ok loc)
    (hin : base <+: loc) {content : Bytes} (hfile : w0.fs.look loc = some (.file content true)) :
    ∃ before after out, answers = before ++ (f.stream, out, content) :: after ∧ before.length = requests ins ∧
      FirstField out b!":status" b!"200" :=
  have hok := (C53_existing hwf ⟨pfx, root⟩ path false hbase hdir hrel hloc).2 hin content hfile
  file_answer page a sgn h e hT ht hb hr hp hm htest hstatus hmap hpfx ⟨hok.1, hok.2 rfl⟩

/-- C131, files by name: if a request of the client is a GET for the prefix followed by the names of directories and
of a readable file, its answer is 200 with the content of the file. -/
theorem C131_file (page : Page) (a : Args) (sgn : Bool) {w0 : World} {fs : List Frame}
    {calls : List (HttpRequest × HOut)} {answers : List (Nat × List Header × Bytes)} {T : Table}
    (h : Answered (progCfg page a sgn) w0 fs calls answers T) {ins more : List Frame} {f : Frame}
    (e : fs = ins ++ f :: more) {T0 T1 : Table} (hT : Readable ins T0) (ht : f.type = 1) {block : Bytes}
    {fields : List Header} (hb : FieldBlock f block) (hr : ReadsAs T0 block fields T1) {path : Bytes}
    (hp : FirstField fields b!":path" path) (hm : FirstField fields b!":method" b!"GET")
    (htest : a.underTest = true → path ∉ testPaths) (hstatus : a.statusPage = true → path ≠ b!"/_ion/status")
    {pfx root : Bytes} (hmap : a.staticMap = [pfx, root]) (hwf : w0.fs.WF) {base names : List Name}
    (hbase : w0.fs.stat (parsePath root) = .ok base) (hdir : w0.fs.look base = some .dir)
    (hask : AsksFor pfx path names) (hl : ∀ pre t, pre <+: names → w0.fs.look (base ++ pre) ≠ some (.link t))
    (hsearch : SearchableTo w0.fs base names)
    {content : Bytes} (hfile : w0.fs.look (base ++ names) = some (.file content true)) :
    ∃ before after out, answers = before ++ (f.stream, out, content) :: after ∧ before.length = requests ins ∧
      FirstField out b!":status" b!"200" :=
  have hok := (C132_found hwf ⟨pfx, root⟩ hbase hdir hask
    (fun c hc => hwf.names _ _ hfile c (List.mem_append_right _ hc)) hl hsearch).1 content hfile
  file_answer page a sgn h e hT ht hb hr hp hm htest hstatus hmap (by cases hask <;> exact List.prefix_append _ _)
    ⟨hok.1, hok.2.1⟩

/-! ### A client that fetches a page -/

def hiArgs : Args := { staticMap := [b!"/", b!"/s"] }

def hiFiles : FS := Files.ofList [([b!"s"], .dir), ([b!"s", b!"index.html"], .file b!"hi" true)]

def hiCfg : Cfg World := progCfg (fun _ _ _ _ => []) hiArgs true

theorem hiFiles_wf : hiFiles.WF := Files.ofList_wf _ (by decide +kernel)

theorem hiFiles_small : SmallFiles hiFiles := by
  intro loc content r hx
  by_cases h0 : loc = []
  · rw [FS.look, if_pos h0] at hx
    cases hx
  · rw [FS.look, if_neg h0] at hx
    have := Files.mem_of_lookup hx
    simp only [List.mem_cons, Prod.mk.injEq, reduceCtorEq, and_false, List.not_mem_nil, or_false, false_or,
      Node.file.injEq] at this
    rw [this.2.1]
    decide

theorem hiFiles_links (pre : List Name) (t : Bytes) (hp : pre <+: [b!"index.html"]) :
    hiFiles.look ([b!"s"] ++ pre) ≠ some (.link t) := by
  obtain ⟨rest, hp⟩ := hp
  match pre, hp with
  | [], _ => rw [show hiFiles.look ([b!"s"] ++ []) = some .dir from by decide +kernel]; simp
  | [_], hp =>
    simp only [List.cons_append, List.nil_append, List.cons.injEq] at hp
    obtain ⟨rfl, -⟩ := hp
    rw [show hiFiles.look ([b!"s"] ++ [b!"index.html"]) = some (.file b!"hi" true) from by decide +kernel]
    simp
  | _ :: _ :: _, hp => simp at hp

/-- A client connects on 5, another on 6 that does not speak HTTP/2; then the first one asks for `/`, and reads
the file `index.html` of the directory. -/
example : ∃ s0 s s' c first outs out T', Started hiCfg { fs := hiFiles } s0 ∧
    Cares hiCfg 5 0 (Spec.preface ++ (exSettings ++ exGet)) s0 s ∧ s.os.closed = [2] ∧
    s.handleEvent hiCfg (exRead 5 (exEnv (Spec.preface ++ (exSettings ++ exGet)) [36, 64])) = .ok s' ∧
    s'.conns.get 5 = some c ∧ ServerPreface first ∧ FramesWire (first :: outs) (accepted c.sim.trace) ∧
    (∀ m, ClientSees m ⟨[], 4096⟩ outs [(1, out, b!"hi")] T') ∧ FirstField out b!":status" b!"200" := by
  obtain ⟨s0, c0, h1, h2, h3, h4⟩ : ∃ s0 c0,
      handleEvents hiCfg [exAccept 5] (begin { fs := hiFiles } 3 true false) = .ok s0 ∧ s0.conns.get 5 = some c0 ∧
      c0.sim = Sim.init { fs := hiFiles } 0 ∧
      (match handleEvents hiCfg [exAccept 6, exRead 6 (exEnv (List.replicate 24 0x47) [])] s0 with
        | .ok s => s.os.closed == [2] && (match s.conns.get 5 with
          | some c => c.sim.trace.isEmpty &&
            prompt hiCfg 5 { c.sim with
              world := s.world,
              hs := (exEnv (Spec.preface ++ (exSettings ++ exGet)) [36, 64]).hs,
              reads := (exEnv (Spec.preface ++ (exSettings ++ exGet)) [36, 64]).reads,
              writes := (exEnv (Spec.preface ++ (exSettings ++ exGet)) [36, 64]).writes }
          | none => false)
        | _ => false) = true :=
    ⟨_, _, rfl, rfl, rfl, by decide +kernel⟩
  have hs0 : Started hiCfg { fs := hiFiles } s0 := ⟨3, true, false, events_reach _ (fun _ _ => trivial) h1⟩
  cases hx : handleEvents hiCfg [exAccept 6, exRead 6 (exEnv (List.replicate 24 0x47) [])] s0 with
  | err e => rw [hx] at h4; cases h4
  | ub u => rw [hx] at h4; cases h4
  | ok s =>
    simp only [hx, Bool.and_eq_true, beq_iff_eq] at h4
    obtain ⟨hcl, h4⟩ := h4
    have hcare : Cares hiCfg 5 0 (Spec.preface ++ (exSettings ++ exGet)) s0 s :=
      Cares.events _ .start (by simp [exAccept, exRead]) hx
    obtain ⟨s', c, answers, first, outs, T, T', g1, g2, -, g4, g5, g6, g7⟩ := C131_fetched _ hiArgs true
      (by intros; decide) hiFiles_small hs0
      (ev := exRead 5 (exEnv (Spec.preface ++ (exSettings ++ exGet)) [36, 64])) h2 h3 exConforming exConforming_wire
      (by simp) (by decide) hcare (by decide) (by decide) (by decide)
      ⟨by simp [exRead, exEnv], by simp [exRead, exEnv], by simp [exRead, exEnv]⟩
      (by
        intro c hc
        have hc : s.conns.get 5 = some c := hc
        simp only [hc, Bool.and_eq_true, List.isEmpty_iff] at h4
        exact ⟨⟨fun _ => ⟨_, rfl⟩, by simp [exRead, exEnv], fun s1 h => prompt_loops h 5 h4.2⟩,
          by simp [exRead, exEnv, h4.1, received, pending]⟩)
      4096 (by decide) (by decide)
    obtain ⟨before, after, out, k1, k2, k3⟩ := C131_file _ hiArgs true g4 (ins := [⟨4, 0, 0, []⟩])
      (f := ⟨1, 5, 1, [0x82, 0x84]⟩) (more := []) rfl
      (.snoc [] _ _ _ .nil (.inr ⟨by decide, rfl, by decide, by decide, by decide⟩)) rfl (block := [0x82, 0x84])
      (fields := [⟨b!":method", b!"GET"⟩, ⟨b!":path", b!"/"⟩]) rfl
      (T1 := ⟨[], 65536⟩) ⟨[.indexed 2, .indexed 4],
        .cons _ _ [0x82] [0x84] (.indexed 2 _ ⟨.short _ (by decide) (by decide), by decide, by decide⟩)
          (.cons _ _ [0x84] [] (.indexed 4 _ ⟨.short _ (by decide) (by decide), by decide, by decide⟩) .nil),
        by decide +kernel⟩ (path := b!"/")
      ⟨[⟨b!":method", b!"GET"⟩], [], rfl, by decide⟩ ⟨[], [⟨b!":path", b!"/"⟩], rfl, by decide⟩ (by decide) (by decide)
      (pfx := b!"/") (root := b!"/s") rfl hiFiles_wf (base := [b!"s"]) (names := [b!"index.html"])
      (by decide +kernel) (by decide +kernel) (.index [] (.inl rfl)) hiFiles_links (fun _ _ _ _ => rfl)
      (content := b!"hi") (by decide +kernel)
    obtain rfl : before = [] := List.eq_nil_of_length_eq_zero (by rw [k2]; rfl)
    have hlen := answered_requests g4
    obtain rfl : after = [] := List.eq_nil_of_length_eq_zero (by rw [k1] at hlen; simpa [requests] using hlen)
    rw [k1] at g7
    exact ⟨s0, s, s', c, first, outs, out, T', hs0, hcare, hcl, g1, g2, g5, g6, g7, k3⟩

end Server
end Ion
