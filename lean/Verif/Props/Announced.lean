import Verif.Model.MainLog
import Verif.Props.App

/-!
# The log announces what is served (C179)
-/

namespace Ion
namespace Props

/-- The message about static files (app/main.cpp:38). -/
def servingText (s root : Bytes) : Bytes := b!"serving static files at '" ++ s ++ b!"' -> '" ++ root ++ b!"'"

/-- A handler of which the answers, if there are any, have a status as given. -/
def Statuses (p : UInt16 → Prop) (h : Handler World) : Prop := ∀ req w r w', h req w = (.resp r, w') → p r.status

theorem statuses_stats {p : UInt16 → Prop} {h : Handler World} (hh : Statuses p h) : Statuses p (statsMiddleware h) := by
  intro req w r w' e
  simp only [statsMiddleware] at e
  split at e
  · rename_i res w1 hn
    cases e
    exact hh _ _ _ _ hn
  · rename_i out w1 hno hn
    cases e
    exact absurd rfl (hno _)

theorem statuses_404 {p : UInt16 → Prop} (f : Bytes) {h : Handler World} (hh : Statuses p h) : Statuses p (custom404 f h) := by
  intro req w r w' e
  simp only [custom404] at e
  split at e
  · rename_i res w1 hn
    have hp := hh _ _ _ _ hn
    split at e
    · rename_i h4
      cases e
      rw [h4] at hp
      exact hp
    · cases e
      exact hp
  · rename_i out w1 hno hn
    cases e
    exact absurd rfl (hno _)

theorem statuses_wrapped {p : UInt16 → Prop} (a : Args) {h : Handler World} (hh : Statuses p h) :
    Statuses p (wrapped ((if a.statusPage = true then [statsMiddleware] else []) ++
        (if a.status404FilePath = [] then [] else [custom404 a.status404FilePath])) h) := by
  by_cases h1 : a.statusPage = true <;> by_cases h2 : a.status404FilePath = [] <;> simp [h1, h2, wrapped]
  · exact statuses_stats hh
  · exact statuses_stats (statuses_404 _ hh)
  · exact hh
  · exact statuses_404 _ hh

/-- The process gets as far as listening: what `main` does before succeeds. -/
def Reaches {W : Type} (st : StartEnv) (env : ProcEnv W) (args : Args) : Prop :=
  env.parse = .ok args ∧ (telemetryWanted st.otel && !st.telemetry) = false ∧ args.logLevelEnum ≠ none ∧
    constructServer env.fs env.ssl args.toServerConfig = .ok ()

theorem setup_logged {W : Type} {st : StartEnv} {env : ProcEnv W} {args : Args} (h : Reaches st env args) (t : MainTexts)
    {n : Note} (hn : n ∈ setupNotes args t) : n ∈ mainNotes st env t := by
  obtain ⟨h1, h2, h3, h4⟩ := h
  obtain ⟨l, hl⟩ := Option.ne_none_iff_exists'.mp h3
  simp only [mainNotes, h1, h2, hl, runServerNotes, h4]
  simp [hn]

/-- C179: whatever is answered with something else than 404 was announced: by "running under test mode" if it is one of the
test routes, by the address of the status page if it is that, and otherwise by the prefix and the directory from which it
is served. -/
theorem C179_announced {W : Type} (st : StartEnv) (env : ProcEnv W) (a : Args) (t : MainTexts) (hr : Reaches st env a)
    (page : Page) (path method : Bytes) (req : HttpRequest) (w w' : World) (r : HttpResponse)
    (h : a.getHandler page path method req w = (.resp r, w')) (h4 : r.status ≠ 404) :
    ((2, b!"running under test mode") ∈ mainNotes st env t ∧ path ∈ testPaths ∧ method = b!"GET") ∨
    ((2, b!"status page enabled: /_ion/status") ∈ mainNotes st env t ∧ path = b!"/_ion/status" ∧ method = b!"GET") ∨
    ∃ s root, (2, servingText s root) ∈ mainNotes st env t ∧ s <+: path ∧ (method = b!"GET" ∨ method = b!"HEAD") := by
  obtain ⟨target, k1, -, -, -, k5⟩ := C72_routes page a path method
  by_cases ht : a.underTest = true ∧ method = b!"GET" ∧ path ∈ testPaths
  · refine .inl ⟨setup_logged hr t ?_, ht.2.2, ht.2.1⟩
    simp [setupNotes, ht.1]
  by_cases hs : a.statusPage = true ∧ method = b!"GET" ∧ path = b!"/_ion/status"
  · refine .inr (.inl ⟨setup_logged hr t ?_, hs.2.2, hs.2.1⟩)
    simp [setupNotes, hs.1]
  by_cases hf : ∃ s root, a.staticMap = [s, root] ∧ s <+: path ∧ (method = b!"GET" ∨ method = b!"HEAD")
  · obtain ⟨s, root, h1, h2, h3⟩ := hf
    refine .inr (.inr ⟨s, root, setup_logged hr t ?_, h2, h3⟩)
    simp [setupNotes, h1, servingText]
  · have k := k5 ht hs hf
    rw [k1, k] at h
    have := statuses_wrapped (p := fun s => s = 404) a
      (h := fun _ w => (.resp { status := 404 }, w)) (by intro _ _ _ _ e; cases e; rfl) _ _ _ _ h
    exact absurd this h4

/-- Messages with these first letters are those of `run_server`. -/
theorem from_setup {W : Type} {st : StartEnv} {env : ProcEnv W} {args : Args} (hp : env.parse = .ok args) {t : MainTexts}
    {n : Note} (hn : n ∈ mainNotes st env t) (h2 : n.1 = 2) (hc : n.2.head? = some 0x72 ∨ n.2.head? = some 0x73) :
    n ∈ setupNotes args t := by
  have other : ∀ (l : Nat) (b : UInt8) (rest : Bytes), b ≠ 0x72 → b ≠ 0x73 → n ≠ (l, b :: rest) := by
    intro l b rest h3 h4 e
    subst e
    simp [h3, h4] at hc
  have level : ∀ (l : Nat) (x : Bytes), l ≠ 2 → n ≠ (l, x) := fun l x hl e => hl (by rw [e] at h2; exact h2)
  have hfatal : n ∉ fatalNotes t := fun h => level 5 _ (by decide) (List.mem_singleton.mp h)
  simp only [mainNotes, hp] at hn
  split at hn
  · cases hn
  rcases List.mem_append.mp hn with hn | hn
  · simp only [telemetryNotes] at hn
    split at hn
    · cases hn
    · exact absurd (List.mem_singleton.mp hn) (other 2 _ _ (by decide) (by decide))
  split at hn
  · cases hn
  rcases List.mem_cons.mp hn with hn | hn
  · exact absurd hn (other 2 0x69 _ (by decide) (by decide))
  rcases List.mem_append.mp hn with hn | hn
  · rcases List.mem_append.mp hn with hn | hn
    · simp only [privsNotes] at hn
      split at hn <;> exact absurd (List.mem_singleton.mp hn) (level _ _ (by decide))
    · simp only [accessNotes] at hn
      split at hn
      · cases hn
      split at hn
      · exact absurd (List.mem_singleton.mp hn) (other 2 0x77 _ (by decide) (by decide))
      · exact absurd (List.mem_singleton.mp hn) (level _ _ (by decide))
  · simp only [runServerNotes] at hn
    split at hn
    · exact absurd hn hfatal
    · cases hn
    rcases List.mem_append.mp hn with hn | hn
    · exact hn
    split at hn
    · exact absurd hn hfatal
    split at hn
    · exact absurd (List.mem_singleton.mp hn) (other 2 _ _ (by decide) (by decide))
    · cases hn
    · exact absurd hn hfatal
    · cases hn
    · cases hn

theorem mem_setup {a : Args} {t : MainTexts} {n : Note} (h : n ∈ setupNotes a t) :
    (a.underTest = true ∧ n = (2, b!"running under test mode")) ∨
    (a.statusPage = true ∧ n = (2, b!"status page enabled: /_ion/status")) ∨
    (a.statusPage = true ∧ n = (2, b!"instance id: " ++ t.instanceId)) ∨
    ∃ p q, a.staticMap = [p, q] ∧ n = (2, servingText p q) := by
  simp only [setupNotes] at h
  rcases List.mem_append.mp h with h | h
  · rcases List.mem_append.mp h with h | h
    · split at h
      · rename_i hu
        exact .inl ⟨hu, List.mem_singleton.mp h⟩
      · cases h
    · split at h
      · rename_i hu
        rcases List.mem_cons.mp h with h | h
        · exact .inr (.inl ⟨hu, h⟩)
        · exact .inr (.inr (.inl ⟨hu, List.mem_singleton.mp h⟩))
      · cases h
  · split at h
    · rename_i p q hm
      exact .inr (.inr (.inr ⟨p, q, hm, List.mem_singleton.mp h⟩))
    · cases h

/-- Texts are cut at the first quote. -/
theorem cut_quote {a b x y : Bytes} (ha : (0x27 : UInt8) ∉ a) (hb : (0x27 : UInt8) ∉ b)
    (h : a ++ 0x27 :: x = b ++ 0x27 :: y) : a = b ∧ x = y := by
  induction a generalizing b with
  | nil =>
    cases b with
    | nil => exact ⟨rfl, by simpa using h⟩
    | cons c b =>
      simp only [List.nil_append, List.cons_append, List.cons.injEq] at h
      exact absurd (h.1 ▸ List.mem_cons_self) hb
  | cons c a ih =>
    cases b with
    | nil =>
      simp only [List.nil_append, List.cons_append, List.cons.injEq] at h
      exact absurd (h.1 ▸ List.mem_cons_self) ha
    | cons d b =>
      simp only [List.cons_append, List.cons.injEq] at h
      obtain ⟨rfl, h⟩ := h
      obtain ⟨rfl, rfl⟩ := ih (fun m => ha (List.mem_cons_of_mem _ m)) (fun m => hb (List.mem_cons_of_mem _ m)) h
      exact ⟨rfl, rfl⟩

/-- C179: what is announced is served. After "running under test mode" none of the test routes is answered with 404; after
the announcement of the status page it is answered with 200. A prefix without quotes that is announced with a directory is
the one given on the command line, with that directory, if there is no quote in the one given either. -/
theorem C179_kept_partial {W : Type} (st : StartEnv) (env : ProcEnv W) (a : Args) (t : MainTexts) (hp : env.parse = .ok a)
    (page : Page) :
    ((2, b!"running under test mode") ∈ mainNotes st env t → ∀ path ∈ testPaths, ∀ req w r w',
      a.getHandler page path b!"GET" req w = (.resp r, w') → r.status ≠ 404) ∧
    ((2, b!"status page enabled: /_ion/status") ∈ mainNotes st env t → ∀ req w r w',
      a.getHandler page b!"/_ion/status" b!"GET" req w = (.resp r, w') → r.status = 200) ∧
    (∀ s root, (2, servingText s root) ∈ mainNotes st env t → (0x27 : UInt8) ∉ s →
      (∀ p q, a.staticMap = [p, q] → (0x27 : UInt8) ∉ p) → a.staticMap = [s, root]) := by
  refine ⟨fun hn path hpath req w r w' h => ?_, fun hn req w r w' h => ?_, fun s root hn hs hq => ?_⟩
  · have hu : a.underTest = true := by
      have := from_setup hp hn rfl (.inl rfl)
      rcases mem_setup this with h | h | h | ⟨p, q, -, h⟩
      · exact h.1
      · exact absurd h.2 (by decide +kernel)
      · exact absurd (congrArg (fun n => n.2.head?) h.2) (fun e => nomatch e)
      · exact absurd (congrArg (fun n => n.2.head?) h) (by simp [servingText])
    obtain ⟨target, k1, k2, -⟩ := C72_routes page a path b!"GET"
    rw [k1] at h
    refine statuses_wrapped (p := fun s => s ≠ 404) a ?_ _ _ _ _ h
    intro req w r w' e
    obtain ⟨r2, e2, ha⟩ := k2 ⟨hu, rfl, hpath⟩ req w
    rw [e2] at e
    cases e
    rcases ha.2 with h | h | h | h | h <;> (have h := h.2.1; revert h; try split) <;> (intro h; rw [h]; decide)
  · have hu : a.statusPage = true := by
      have := from_setup hp hn rfl (.inr rfl)
      rcases mem_setup this with h | h | h | ⟨p, q, -, h⟩
      · exact absurd h.2 (by decide +kernel)
      · exact h.1
      · exact absurd (congrArg (fun n => n.2.head?) h.2) (fun e => nomatch e)
      · exact absurd (congrArg (fun n => n.2.drop 1 |>.head?) h) (by simp [servingText])
    obtain ⟨target, k1, -, k3, -⟩ := C72_routes page a b!"/_ion/status" b!"GET"
    rw [k1] at h
    refine statuses_wrapped (p := fun s => s = 200) a ?_ _ _ _ _ h
    intro req w r w' e
    rw [k3 ⟨hu, rfl, rfl⟩] at e
    simp only [statusHandler] at e
    cases e
    rfl
  · have := from_setup hp hn rfl (.inr rfl)
    rcases mem_setup this with h | h | h | ⟨p, q, hm, h⟩
    · exact absurd (congrArg (fun n => n.2.head?) h.2) (fun e => nomatch e)
    · exact absurd (congrArg (fun n => n.2.drop 1 |>.head?) h.2) (fun e => nomatch e)
    · exact absurd (congrArg (fun n => n.2.head?) h.2) (fun e => nomatch e)
    · have e : b!"serving static files at '" ++ (s ++ 0x27 :: (b!" -> '" ++ root ++ b!"'")) =
          b!"serving static files at '" ++ (p ++ 0x27 :: (b!" -> '" ++ q ++ b!"'")) := by
        have := congrArg Prod.snd h
        simpa [servingText] using this
      obtain ⟨e1, e2⟩ := cut_quote hs (hq p q hm) (List.append_cancel_left e)
      rw [hm, e1, List.append_cancel_left (List.append_cancel_right e2)]

/-- A program with these arguments that can listen. -/
def exServing (a : Args) : ProcEnv Nat where
  parse := .ok a
  fs := { node := fun _ => none }
  ssl := { useCertificate := fun _ => true, usePrivateKey := fun _ => true, keyMatches := fun _ _ => true }
  listen := ⟨some 3, some 2, true, true, true, true⟩
  cfg := fun _ => ⟨fun _ _ _ w => (.stdExn, w), true⟩
  world := 0
  stops := [.signal]
  iters := []

/-- C179 fails of the directory if there are quotes: two programs that serve different directories at different prefixes log
the same. -/
theorem C179_refuted : ∃ a b : Args, a.staticMap = [b!"/x", b!"/srv' -> '/etc"] ∧ b.staticMap = [b!"/x' -> '/srv", b!"/etc"] ∧
    Reaches {} (exServing a) a ∧ Reaches {} (exServing b) b ∧
    ∀ t, mainNotes {} (exServing a) t = mainNotes {} (exServing b) t := by
  refine ⟨{ cleartext := true, staticMap := [b!"/x", b!"/srv' -> '/etc"] },
    { cleartext := true, staticMap := [b!"/x' -> '/srv", b!"/etc"] }, rfl, rfl, ⟨rfl, ?_, ?_, ?_⟩, ⟨rfl, ?_, ?_, ?_⟩, fun t => rfl⟩
  all_goals decide +kernel

/-- With everything asked for, everything is announced. -/
example : ((mainNotes {} (exServing { cleartext := true, underTest := true, statusPage := true, staticMap := [b!"/s", b!"/srv"] })
      ⟨b!"1.0", b!"ab", [], [], []⟩).drop 2).map (·.2) =
    [b!"running under test mode", b!"status page enabled: /_ion/status", b!"instance id: ab",
     b!"serving static files at '/s' -> '/srv'", b!"exiting"] := by
  decide +kernel

end Props
end Ion
