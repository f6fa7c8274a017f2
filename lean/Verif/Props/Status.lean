import Verif.Props.App

/-! # What the status page shows (C92) -/

namespace Ion
namespace Props

/-- The time handlers took according to the clock: for each request that completed, the difference between
the first and the last reading of the clock while it was handled. -/
def handlerTime (h : Bytes → Bytes → Handler World) : List HttpRequest → World → Int
  | [], _ => 0
  | q :: qs, w =>
    let (o, w') := h q.path q.method q w
    (match o with
      | .resp _ => (w.clock (w'.tick - 1) : Int) - w.clock w.tick
      | _ => 0) + handlerTime h qs w'

/-- A handler that leaves the clock running. -/
def KeepsClock (h : Handler World) : Prop := ∀ req w, (h req w).2.clock = w.clock

theorem keepsClock_target (page : Page) (a : Args) (path method : Bytes) :
    KeepsClock (appTarget page a path method) := by
  intro req w
  rcases target_cases page a path method with ⟨h, h1, _, h3⟩ | ⟨_, _, _, h⟩ | ⟨s, root, _, _, _, h⟩ | ⟨_, h⟩
  · rw [h3]
    simp only [testOps, List.mem_cons, Op.route.injEq, List.not_mem_nil, or_false] at h1
    rcases h1 with ⟨-, -, rfl⟩ | ⟨-, -, rfl⟩ | ⟨-, -, rfl⟩ | ⟨-, -, rfl⟩ | ⟨-, -, rfl⟩ <;> rfl
  · rw [h]; rfl
  · rw [h]
  · rw [h]

theorem keepsClock_custom404 (f : Bytes) {h : Handler World} (hl : KeepsClock h) : KeepsClock (custom404 f h) := by
  intro req w
  have := hl req w
  rw [custom404]
  generalize h req w = x at this
  obtain ⟨o, w'⟩ := x
  cases o with
  | resp r => simp only; split <;> exact this
  | stdExn => exact this
  | otherExn => exact this

/-- One request: the clock, the start time, and the time added. -/
theorem time_step {h : Handler World} (hl : LeavesStats h) (hk : KeepsClock h) (req : HttpRequest) (w : World) :
    let out := statsMiddleware h req w
    out.2.clock = w.clock ∧ out.2.stats.startTime = w.stats.startTime ∧
    out.2.stats.durationUs = w.stats.durationUs +
      (match out.1 with
        | .resp _ => (w.clock (out.2.tick - 1) : Int) - w.clock w.tick
        | _ => 0) := by
  have hl' := hl req { w with stats := { w.stats with total := w.stats.total + 1 }, tick := w.tick + 1 }
  have hk' := hk req { w with stats := { w.stats with total := w.stats.total + 1 }, tick := w.tick + 1 }
  simp only [statsMiddleware, World.now]
  generalize h req { w with stats := { w.stats with total := w.stats.total + 1 }, tick := w.tick + 1 } = x at hl' hk'
  obtain ⟨o, w'⟩ := x
  simp only at hl' hk'
  cases o with
  | resp r => simp [hl', hk']
  | stdExn => simp [hl', hk']
  | otherExn => simp [hl', hk']

theorem bump_keys (c k : UInt16) : ∀ m : List (UInt16 × UInt64),
    (∃ n, (k, n) ∈ bump c m) ↔ k = c ∨ ∃ n, (k, n) ∈ m := by
  intro m
  induction m with
  | nil => simp [bump]
  | cons e m ih =>
    obtain ⟨j, n⟩ := e
    rw [bump]
    split
    · simp only [List.mem_cons, Prod.mk.injEq]
      constructor
      · rintro ⟨x, ⟨h1, -⟩ | h⟩
        · exact .inl h1
        · exact .inr ⟨x, h⟩
      · rintro (h | ⟨x, h⟩)
        · exact ⟨1, .inl ⟨h, rfl⟩⟩
        · exact ⟨x, .inr h⟩
    · split
      · rename_i hj
        simp only [List.mem_cons, Prod.mk.injEq]
        constructor
        · rintro ⟨x, ⟨h1, -⟩ | h⟩
          · exact .inl (h1.trans hj.symm)
          · exact .inr ⟨x, .inr h⟩
        · rintro (h | ⟨x, ⟨h1, -⟩ | h⟩)
          · exact ⟨_, .inl ⟨h.trans hj, rfl⟩⟩
          · exact ⟨_, .inl ⟨h1, rfl⟩⟩
          · exact ⟨_, .inr h⟩
      · simp only [List.mem_cons, exists_or, ih]
        constructor
        · rintro (h | h | h)
          · exact .inr (.inl h)
          · exact .inl h
          · exact .inr (.inr h)
        · rintro (h | h | h)
          · exact .inr (.inl h)
          · exact .inl h
          · exact .inr (.inr h)

/-- Any sequence of requests. -/
theorem time_serve (inner : Bytes → Bytes → Handler World) (hl : ∀ p m, LeavesStats (inner p m))
    (hk : ∀ p m, KeepsClock (inner p m)) (qs : List HttpRequest) : ∀ w : World, Ordered w.stats.codes →
    let h := fun p m => statsMiddleware (inner p m)
    let res := serve h qs w
    res.2.clock = w.clock ∧ res.2.stats.startTime = w.stats.startTime ∧
    res.2.stats.durationUs = w.stats.durationUs + handlerTime h qs w ∧ Ordered res.2.stats.codes ∧
    ∀ k, (∃ n, (k, n) ∈ res.2.stats.codes) ↔ withStatus k res.1 ≠ 0 ∨ ∃ n, (k, n) ∈ w.stats.codes := by
  induction qs with
  | nil => intro w ho; simp [serve, handlerTime, withStatus, ho]
  | cons q qs ih =>
    intro w ho
    have hs := time_step (hl q.path q.method) (hk q.path q.method) q w
    have hc := stats_step (hl q.path q.method) q w ho
    simp only [serve, handlerTime]
    generalize statsMiddleware (inner q.path q.method) q w = x at hs hc
    obtain ⟨o, w1⟩ := x
    simp only at hs hc ⊢
    obtain ⟨h1, h2, h3⟩ := hs
    obtain ⟨-, c2, c3, c4⟩ := hc
    have ih := ih w1 c2
    simp only at ih
    generalize hy : serve (fun p m => statsMiddleware (inner p m)) qs w1 = y at ih
    obtain ⟨os, w2⟩ := y
    simp only at ih ⊢
    obtain ⟨i1, i2, i3, i4, i5⟩ := ih
    refine ⟨i1.trans h1, i2.trans h2, by rw [i3, h3, Int.add_assoc], i4, ?_⟩
    intro k
    rw [i5]
    cases o with
    | resp r =>
      rw [c3 r rfl, bump_keys, withStatus]
      by_cases hr : r.status = k
      · simp [hr]
      · simp [hr, Ne.symm hr, eq_comm]
    | stdExn => rw [c4 (by simp), withStatus] <;> simp
    | otherExn => rw [c4 (by simp), withStatus] <;> simp

/-- C92. After any requests to an application with a status page, a GET of `/_ion/status` is answered 200
with a page that is not to be stored and shows: the whole seconds since the start (by the clock as this
request is handled), the number of requests including this one, the time the handlers took so far, and in
order of the code, for exactly the status codes that were answered, how often they were. -/
theorem C92_status (page : Page) (a : Args) (hp : a.statusPage = true) (qs : List HttpRequest) (w : World)
    (t0 : Nat) (hw : w.stats = { startTime := t0 }) (req : HttpRequest) :
    let h := a.getHandler page
    let res := serve h qs w
    ∃ r w' secs codes, h b!"/_ion/status" b!"GET" req res.2 = (.resp r, w') ∧ r.status = 200 ∧
      r.headers = [⟨b!"content-type", b!"text/html; charset=utf-8"⟩, ⟨b!"cache-control", b!"no-store"⟩] ∧
      r.body = page (formatDuration secs) (UInt64.ofNat (qs.length + 1)) (handlerTime h qs w) codes ∧
      secs = UInt64.ofNat ((w.clock (res.2.tick + 1) - t0) / 10 ^ 6) ∧
      codes.Pairwise (fun x y => x.1 < y.1) ∧
      (∀ k, (∃ n, (k, n) ∈ codes) ↔ withStatus k res.1 ≠ 0) ∧
      ∀ k n, (k, n) ∈ codes → n = UInt64.ofNat (withStatus k res.1) := by
  have hc : w.stats.codes = [] := by rw [hw]
  have hd : w.stats.durationUs = 0 := by rw [hw]
  obtain rfl : w.stats.startTime = t0 := by rw [hw]
  obtain ⟨b1, -, b3⟩ := C68_app page a hp qs w _ hw
  let inner := fun p m => wrapped (if a.status404FilePath ≠ [] then [custom404 a.status404FilePath] else [])
    (appTarget page a p m)
  have hg : a.getHandler page = fun p m => statsMiddleware (inner p m) := by
    funext p m
    rw [getHandler_app, appMiddlewares, if_pos hp]
    rfl
  have hl : ∀ p m, LeavesStats (inner p m) := by
    intro p m
    show LeavesStats (wrapped _ _)
    split
    · exact leaves_custom404 _ (leaves_target page a p m)
    · exact leaves_target page a p m
  have hk : ∀ p m, KeepsClock (inner p m) := by
    intro p m
    show KeepsClock (wrapped _ _)
    split
    · exact keepsClock_custom404 _ (keepsClock_target page a p m)
    · exact keepsClock_target page a p m
  have hs : inner b!"/_ion/status" b!"GET" = fun req w => statusHandler page req w := by
    show wrapped _ _ = _
    have ht : appTarget page a b!"/_ion/status" b!"GET" = statusHandler page :=
      (target_routes page a b!"/_ion/status" b!"GET").2.1 ⟨hp, rfl, rfl⟩
    rw [ht]
    split
    · funext req w
      simp only [wrapped]
      rfl
    · rfl
  have ts := time_serve inner hl hk qs w (by rw [hc]; trivial)
  rw [← hg] at ts
  simp only at ts b1 b3 ⊢
  generalize serve (a.getHandler page) qs w = res at *
  obtain ⟨os, w1⟩ := res
  simp only at ts b1 b3 ⊢
  obtain ⟨t1, t2, t3, t4, t5⟩ := ts
  have hord : ∀ l : List (UInt16 × UInt64), Ordered l → l.Pairwise (fun x y => x.1 < y.1) := by
    intro l
    induction l with
    | nil => intro _; exact List.Pairwise.nil
    | cons e l ih => intro h; exact List.pairwise_cons.2 ⟨h.1, ih h.2⟩
  have hmem : ∀ (l : List (UInt16 × UInt64)), Ordered l → ∀ k n, (k, n) ∈ l → l.lookup k = some n := by
    intro l
    induction l with
    | nil => intro _ k n h; cases h
    | cons e l ih =>
      obtain ⟨j, m⟩ := e
      intro h k n hm
      rw [List.lookup_cons]
      rcases List.mem_cons.1 hm with he | hm
      · cases he; simp
      · have hlt := h.1 _ hm
        have hne : (k == j) = false := by
          rw [beq_eq_false_iff_ne]
          rintro rfl
          exact absurd hlt (UInt16.lt_irrefl _)
        rw [hne]
        exact ih h.2 k n hm
  rw [hg]
  simp only
  have e : statsMiddleware (inner b!"/_ion/status" b!"GET") req w1 = statsMiddleware (statusHandler page) req w1 := by
    rw [hs]
  rw [e]
  refine ⟨_, _, _, w1.stats.codes, rfl, rfl, rfl, ?_, rfl, hord _ t4, ?_, ?_⟩
  · simp only
    rw [t1, t2, b1, t3, hd, hg, ofNat_succ]
    simp
  · intro k
    rw [t5 k, hc]
    simp
  · intro k n hm
    rw [← b3 k, countOf, hmem _ t4 k n hm]
    rfl

/-- Three requests, the clock going on by 0.7 s at each reading; the status page is asked for at 5.6 s. -/
example :
    let w : World := { exWorld with clock := fun i => i * 700000 }
    let page : Page := fun up n t codes => up ++ b!" " ++ decimal n.toNat ++ b!" " ++ decimal t.toNat ++
      codes.flatMap fun c => b!" " ++ decimal c.1.toNat ++ b!":" ++ decimal c.2.toNat
    w.stats = { startTime := 0 } ∧
    respOf ((exArgs.getHandler page b!"/_ion/status" b!"GET" ⟨b!"GET", b!"/_ion/status", []⟩)
      (serve (exArgs.getHandler page) [⟨b!"GET", b!"/static/home", []⟩, ⟨b!"GET", b!"/x", []⟩,
        ⟨b!"GET", b!"/_ion/status", []⟩] w).2) =
      some { status := 200, body := b!"5s 4 2800000 200:2 404:1",
             headers := [⟨b!"content-type", b!"text/html; charset=utf-8"⟩, ⟨b!"cache-control", b!"no-store"⟩] } := by
  decide +kernel

end Props
end Ion
