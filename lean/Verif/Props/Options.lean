import Verif.Model.Options
import Verif.Props.App
import Verif.Props.Process

/-! # Options (C108) -/

namespace Ion.Props

/-- What the program asked for by a command line and an environment is: each option as given; else as its
environment variable says, if it has one; else the documented default. -/
structure Wanted (c : CommandLine) (e : Environ) (a : Args) : Prop where
  port : (a.port.toNat : Nat) = c.port.getD 8443
  logLevel : a.logLevel = c.logLevel.getD b!"info"
  noStatic : c.static = none → a.staticMap = []
  static : ∀ url dir, c.static = some (url, dir) → a.staticMap = [url, dir]
  accessLog : a.accessLogPath = c.accessLog.getD []
  cleartext : a.cleartext = c.cleartext.getD false
  cert : ∀ v, c.tlsCertPath = some v → a.certPath = v
  certEnv : c.tlsCertPath = none → a.certPath = e.certPath
  key : ∀ v, c.tlsKeyPath = some v → a.keyPath = v
  keyEnv : c.tlsKeyPath = none → a.keyPath = e.keyPath
  custom404 : a.status404FilePath = c.custom404FilePath.getD []
  underTest : a.underTest = c.underTest.getD false
  statusPage : a.statusPage = c.statusPage.getD false

/-- The values a command line may have. -/
def Acceptable (c : CommandLine) : Prop :=
  (∀ n, c.port = some n → 1 ≤ n ∧ n ≤ 65535) ∧ ∀ l, c.logLevel = some l → ∃ n ∈ spdlogLevels, SameButCase n l

/-- C108, "the program is configured as its command line and environment say", refuted: the options are bound to
a variable of a function that has returned. Unless the compiler leaves out the copy, the first option given is
written to an object that is no more. -/
theorem C108_refuted (c : CommandLine) (e : Environ) (h : c ≠ {} ∨ e ≠ {}) :
    parseArgs false c e = .ub .dangling := by
  have henv : ∀ o v, orEnv o v = none → o = none ∧ v = [] := by
    intro o v h
    rcases o with _ | x
    · by_cases hv : v = []
      · exact ⟨rfl, hv⟩
      · simp [orEnv, hv] at h
    · simp [orEnv] at h
  have : c.writes e ≠ [] := by
    intro hw
    simp only [CommandLine.writes, List.append_eq_nil_iff, Option.toList_eq_nil_iff, Option.map_eq_none_iff] at hw
    obtain ⟨⟨⟨⟨⟨⟨⟨⟨⟨h1, h2⟩, h3⟩, h4⟩, h5⟩, h6⟩, h7⟩, h8⟩, h9⟩, h10⟩ := hw
    obtain ⟨h6, k6⟩ := henv _ _ h6
    obtain ⟨h7, k7⟩ := henv _ _ h7
    rcases c with ⟨_, _, _, _, _, _, _, _, _, _⟩
    rcases e with ⟨ec, ek⟩
    simp only at h1 h2 h3 h4 h5 h6 h7 h8 h9 h10 k6 k7
    subst h1 h2 h3 h4 h5 h6 h7 h8 h9 h10 k6 k7
    simp at h
  simp [parseArgs, this]

/-- A command line with one option is enough. -/
example : parseArgs false { port := some 443 } {} = .ub .dangling ∧ parseArgs false {} {} = .ok {} := by
  decide +kernel

/-- The effect of one option. -/
def wr {α : Type} (f : α → OptWrite) (o : Option α) (a : Args) : Args := (o.map f).toList.foldl OptWrite.run a

theorem wr_other {α β : Type} {f : α → OptWrite} (g : Args → β) (h : ∀ a x, g (OptWrite.run a (f x)) = g a)
    (o : Option α) (a : Args) : g (wr f o a) = g a := by
  cases o with
  | none => rfl
  | some x => exact h a x

theorem wr_same {α β : Type} {f : α → OptWrite} (g : Args → β) (k : α → β)
    (h : ∀ a x, g (OptWrite.run a (f x)) = k x) (o : Option α) (a : Args) :
    g (wr f o a) = (o.map k).getD (g a) := by
  cases o with
  | none => rfl
  | some x => exact h a x

theorem writes_run (c : CommandLine) (e : Environ) : (c.writes e).foldl OptWrite.run {} =
    wr .statusPage c.statusPage (wr .underTest c.underTest (wr .custom404 c.custom404FilePath
      (wr .keyPath (orEnv c.tlsKeyPath e.keyPath) (wr .certPath (orEnv c.tlsCertPath e.certPath)
        (wr .cleartext c.cleartext (wr .accessLog c.accessLog
          (wr (fun x : Bytes × Bytes => .static [x.1, x.2]) c.static (wr .logLevel c.logLevel
            (wr .port c.port {}))))))))) := by
  simp only [CommandLine.writes, List.foldl_append, wr]

theorem writes_checked (c : CommandLine) (e : Environ) :
    (c.writes e).all OptWrite.checked = true ↔ Acceptable c := by
  have hall : ∀ {α : Type} (f : α → OptWrite) (o : Option α), ((o.map f).toList.all OptWrite.checked = true ↔
      ∀ x, o = some x → (f x).checked = true) := by
    intro α f o
    cases o <;> simp
  simp only [CommandLine.writes, List.all_append, Bool.and_eq_true, hall, Acceptable]
  simp [OptWrite.checked, C77_check]

/-- C108, if the compiler leaves out the copy: acceptable command lines configure the program as they say, and
others end it with status 105. Missing: compilers that do not. -/
theorem C108_wanted_partial (c : CommandLine) (e : Environ) :
    (Acceptable c → ∃ a, parseArgs true c e = .ok a ∧ Wanted c e a) ∧
    (¬ Acceptable c → parseArgs true c e = .err 105) := by
  constructor
  · intro h
    refine ⟨(c.writes e).foldl OptWrite.run {}, by simp [parseArgs, (writes_checked c e).mpr h], ?_⟩
    rw [writes_run]
    have henv : ∀ o v, ((orEnv o v).map id).getD [] = o.getD v := by
      intro o v
      cases o with
      | some x => rfl
      | none => by_cases hv : v = [] <;> simp [orEnv, hv]
    constructor
    · iterate 9 rw [wr_other Args.port (fun _ _ => rfl)]
      rw [wr_same Args.port UInt16.ofNat (fun _ _ => rfl)]
      rcases hp : c.port with _ | n
      · rfl
      · have := h.1 n hp
        simp only [Option.map_some, Option.getD_some, UInt16.toNat_ofNat']
        omega
    · iterate 8 rw [wr_other Args.logLevel (fun _ _ => rfl)]
      rw [wr_same Args.logLevel id (fun _ _ => rfl), wr_other Args.logLevel (fun _ _ => rfl)]
      simp
    · intro hs
      iterate 7 rw [wr_other Args.staticMap (fun _ _ => rfl)]
      rw [hs]
      rw [wr_same Args.staticMap (fun x => [x.1, x.2]) (fun _ _ => rfl)]
      iterate 2 rw [wr_other Args.staticMap (fun _ _ => rfl)]
      rfl
    · intro url dir hs
      iterate 7 rw [wr_other Args.staticMap (fun _ _ => rfl)]
      rw [wr_same Args.staticMap (fun x => [x.1, x.2]) (fun _ _ => rfl), hs]
      rfl
    · iterate 6 rw [wr_other Args.accessLogPath (fun _ _ => rfl)]
      rw [wr_same Args.accessLogPath id (fun _ _ => rfl)]
      iterate 3 rw [wr_other Args.accessLogPath (fun _ _ => rfl)]
      simp
    · iterate 5 rw [wr_other Args.cleartext (fun _ _ => rfl)]
      rw [wr_same Args.cleartext id (fun _ _ => rfl)]
      iterate 4 rw [wr_other Args.cleartext (fun _ _ => rfl)]
      simp
    · intro v hv
      iterate 4 rw [wr_other Args.certPath (fun _ _ => rfl)]
      rw [wr_same Args.certPath id (fun _ _ => rfl), hv]
      rfl
    · intro hv
      iterate 4 rw [wr_other Args.certPath (fun _ _ => rfl)]
      rw [wr_same Args.certPath id (fun _ _ => rfl)]
      iterate 5 rw [wr_other Args.certPath (fun _ _ => rfl)]
      rw [henv, hv]
      rfl
    · intro v hv
      iterate 3 rw [wr_other Args.keyPath (fun _ _ => rfl)]
      rw [wr_same Args.keyPath id (fun _ _ => rfl), hv]
      rfl
    · intro hv
      iterate 3 rw [wr_other Args.keyPath (fun _ _ => rfl)]
      rw [wr_same Args.keyPath id (fun _ _ => rfl)]
      iterate 6 rw [wr_other Args.keyPath (fun _ _ => rfl)]
      rw [henv, hv]
      rfl
    · iterate 2 rw [wr_other Args.status404FilePath (fun _ _ => rfl)]
      rw [wr_same Args.status404FilePath id (fun _ _ => rfl)]
      iterate 7 rw [wr_other Args.status404FilePath (fun _ _ => rfl)]
      simp
    · iterate 1 rw [wr_other Args.underTest (fun _ _ => rfl)]
      rw [wr_same Args.underTest id (fun _ _ => rfl)]
      iterate 8 rw [wr_other Args.underTest (fun _ _ => rfl)]
      simp
    · rw [wr_same Args.statusPage id (fun _ _ => rfl)]
      iterate 9 rw [wr_other Args.statusPage (fun _ _ => rfl)]
      simp
  · intro h
    have : (c.writes e).all OptWrite.checked = false := by
      rw [Bool.eq_false_iff]
      exact fun hk => h ((writes_checked c e).mp hk)
    simp only [parseArgs]
    simp [this]

/-- Options, an environment variable, a default; and a port that is not accepted. -/
example : Acceptable { port := some 80, statusPage := some true } ∧
    parseArgs true { port := some 80, statusPage := some true } { keyPath := b!"k" } =
      .ok { port := 80, statusPage := true, keyPath := b!"k" } ∧
    ¬ Acceptable { port := some 65536 } := by
  refine ⟨⟨by simp, by simp⟩, by decide +kernel, fun h => ?_⟩
  have := (h.1 65536 rfl).2
  omega

/-- C108: without options and environment the program cannot serve: it wants a certificate. With `--cleartext`
alone it answers 404 to every request. -/
theorem C108_defaults {W : Type} (env : ProcEnv W) (elided : Bool) (a : Args) (page : Page) (path method : Bytes)
    (req : HttpRequest) (w : World) :
    (parseArgs elided {} {} = .ok a → env.parse = .ok a → env.outStart = false → env.outEnd = false →
      mainExit env = .status 1) ∧
    (parseArgs true { cleartext := some true } {} = .ok a → constructServer env.fs env.ssl a.toServerConfig = .ok () ∧
      respOf (a.getHandler page path method req w) = some { status := 404 }) := by
  constructor
  · intro h hp h1 h2
    have ha : a = {} := by
      have : parseArgs elided {} {} = .ok {} := by cases elided <;> decide +kernel
      rw [this] at h
      cases h
      rfl
    subst ha
    have hl : ({} : Args).logLevel ∈ Args.levelNames := by decide +kernel
    exact (C99_status_partial env {} hp hl (.inl ⟨h1, h2⟩)).1 .certNotSet rfl
  · intro h
    have ha : a = { cleartext := true } := by
      have : parseArgs true { cleartext := some true } {} = .ok { cleartext := true } := by decide +kernel
      rw [this] at h
      cases h
      rfl
    subst ha
    refine ⟨rfl, ?_⟩
    obtain ⟨target, k1, -, -, -, k5⟩ := C72_routes page { cleartext := true } path method
    rw [k1, k5 (by simp) (by simp) (by simp)]
    rfl

end Ion.Props
