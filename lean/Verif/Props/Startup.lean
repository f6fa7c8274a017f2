import Verif.Model.Startup
import Verif.Props.AccessLog
import Verif.Props.Clock

/-!
# The access log's file and start-up (C124, C125)
-/

namespace Ion.Props
open Ion

variable {W : Type}

/-! ### C124 -/

theorem logging_after (args : Args) (opens : Bool) (old : Bytes) (r : Registry)
    (h : startLogging args opens old = some r) : ∃ level, args.logLevelEnum = some level ∧ r.level = level ∧
      r.file = old ∧ r.access = if args.accessLogPath ≠ [] ∧ opens = true then some level else none := by
  rw [startLogging] at h
  cases hl : args.logLevelEnum with
  | none => rw [hl] at h; cases h
  | some level =>
    rw [hl] at h
    injection h with h
    subst h
    refine ⟨level, rfl, ?_⟩
    by_cases h1 : args.accessLogPath = []
    · simp [Registry.setup, Registry.setLevel, h1]
    · cases opens <;> simp [Registry.setup, Registry.setLevel, h1]

theorem logCalls_file (cs : List LogCall) (r : Registry) :
    (cs.foldl LogCall.run r).file = if (∃ l, r.access = some l ∧ l ≤ 2) then
      r.file ++ ((cs.filter (·.written)).map fun c => accessEntry c.headers c.status c.length c.peer c.tm ++ [0x0a]).flatten
    else r.file := by
  induction cs generalizing r with
  | nil => simp
  | cons c cs ih =>
    rw [List.foldl_cons, ih]
    have ha : (LogCall.run r c).access = r.access := by
      simp only [LogCall.run, Registry.logRequest]
      split
      · rfl
      · split <;> rfl
    rw [ha]
    split
    · rename_i h
      obtain ⟨l, h1, h2⟩ := h
      cases hw : c.written <;>
        simp [LogCall.run, Registry.logRequest, h1, h2, hw]
    · rename_i h
      simp only [LogCall.run, Registry.logRequest]
      split
      · rfl
      · rename_i l hl
        have : ¬ l ≤ 2 := fun h2 => h ⟨l, hl, h2⟩
        simp [this]

/-- C124 exactly: the file receives one line for each request that is logged, in this order and after what was in it,
if a path is given, the file can be opened, and the log level of the program is "trace", "debug" or "info"; otherwise
it receives nothing. A line the file does not take is lost. -/
theorem C124_exact_partial (args : Args) (opens : Bool) (old : Bytes) (r : Registry) (cs : List LogCall)
    (h : startLogging args opens old = some r) :
    (args.accessLogPath ≠ [] ∧ opens = true ∧ args.logLevel ∈ [b!"trace", b!"debug", b!"info"] →
      (cs.foldl LogCall.run r).file = old ++ ((cs.filter (·.written)).map fun c =>
        accessEntry c.headers c.status c.length c.peer c.tm ++ [0x0a]).flatten) ∧
    (¬ (args.accessLogPath ≠ [] ∧ opens = true ∧ args.logLevel ∈ [b!"trace", b!"debug", b!"info"]) →
      (cs.foldl LogCall.run r).file = old) := by
  obtain ⟨level, h1, h2, h3, h4⟩ := logging_after args opens old r h
  have hlev : level ≤ 2 ↔ args.logLevel ∈ [b!"trace", b!"debug", b!"info"] := by
    rw [Args.logLevelEnum, List.findIdx?_eq_some_iff_getElem] at h1
    obtain ⟨hlt, hq, -⟩ := h1
    simp only [decide_eq_true_eq] at hq
    have key : ∀ i : Fin 7, (i.val ≤ 2 ↔ Args.levelNames[i.val]'i.isLt ∈ [b!"trace", b!"debug", b!"info"]) := by
      decide +kernel
    rw [← hq]
    exact key ⟨level, hlt⟩
  rw [logCalls_file, h3, h4]
  constructor
  · rintro ⟨p1, p2, p3⟩
    rw [if_pos ⟨level, by rw [if_pos ⟨p1, p2⟩], hlev.mpr p3⟩]
  · intro hn
    rw [if_neg]
    rintro ⟨l, hl, hl2⟩
    split at hl
    · rename_i hp
      injection hl with hl
      exact hn ⟨hp.1, hp.2, hlev.mp (hl ▸ hl2)⟩
    · cases hl

/-- C124, "with --access-log every answered request is in the file", is false: with --log-level warn (error, critical)
the file is opened and stays as it is, whatever is requested; and so does a file that cannot be opened. -/
theorem C124_refuted : ∃ (args : Args) (r : Registry), args.accessLogPath ≠ [] ∧ Args.levelAccepted args.logLevel = true ∧
    startLogging args true [] = some r ∧ r.access ≠ none ∧
    ∀ cs : List LogCall, (cs.foldl LogCall.run r).file = [] := by
  refine ⟨{ accessLogPath := b!"/var/log/ion.log", logLevel := b!"warn" }, ⟨3, some 3, []⟩, by decide +kernel,
    by decide +kernel, by decide +kernel, by decide, fun cs => ?_⟩
  exact (C124_exact_partial { accessLogPath := b!"/var/log/ion.log", logLevel := b!"warn" } true [] ⟨3, some 3, []⟩ cs
    (by decide +kernel)).2 (by decide +kernel)

/-- A request to log. -/
def exLogCall : LogCall :=
  ⟨[⟨b!":method", b!"GET"⟩, ⟨b!":path", b!"/"⟩], 200, 2, .inet 127 0 0 1, ⟨21, 9, 1, 16, 10, 2026, -12600⟩, true⟩

/-- The default level. -/
example : startLogging { accessLogPath := b!"/var/log/ion.log" } true b!"x" = some ⟨2, some 2, b!"x"⟩ ∧
    ([exLogCall].foldl LogCall.run ⟨2, some 2, b!"x"⟩).file = b!"x" ++
      b!"127.0.0.1 - - [16/Nov/2026:01:09:21 -0330] \"GET / HTTP/2\" 200 2 \"-\" \"-\"" ++ [0x0a] := by
  decide +kernel

/-! ### C125 -/

/-- The OpenTelemetry specification: the value "true" in any case disables the SDK. -/
def SaysDisabled (otel : Option Bytes) : Prop := ∃ v, otel = some v ∧ toLower v = b!"true"

/-- What the operator has asked for is in force. -/
structure InForce (st : StartEnv) (args : Args) (s : Settings) : Prop where
  privs : s.noNewPrivs = true
  access : args.accessLogPath ≠ [] → s.logging.access ≠ none
  telemetry : SaysDisabled st.otel → s.telemetry = false

/-- The settings `run_server` is called with. -/
def Begins (st : StartEnv) (args : Args) (s : Settings) : Prop :=
  ∃ outStart old level, startUp st args outStart old = .ok (s, level)

/-- C125, "the server only begins to serve if its settings are in force", is false in three ways: it begins although
`prctl` fails, although the access log cannot be opened, and exports spans although OTEL_SDK_DISABLED is "TRUE". -/
theorem C125_refuted (args : Args) (h : args.logLevelEnum ≠ none) (hp : args.accessLogPath ≠ []) :
    (∃ s, Begins { prctl := false } args s ∧ s.noNewPrivs = false) ∧
    (∃ s, Begins { accessOpens := false } args s ∧ s.logging.access = none) ∧
    (∃ s, Begins { otel := some b!"TRUE" } args s ∧ s.telemetry = true) := by
  cases hl : args.logLevelEnum with
  | none => exact absurd hl h
  | some level =>
    have h1 : telemetryWanted (some b!"TRUE") = true := by decide +kernel
    have h2 : telemetryWanted none = true := rfl
    refine ⟨⟨⟨true, false, ⟨level, some level, []⟩⟩, ⟨false, [], level, ?_⟩, rfl⟩,
      ⟨⟨true, true, ⟨level, none, []⟩⟩, ⟨false, [], level, ?_⟩, rfl⟩,
      ⟨⟨true, true, ⟨level, some level, []⟩⟩, ⟨false, [], level, ?_⟩, rfl⟩⟩
    all_goals simp [startUp, hl, hp, h1, h2, line, bind, Except.bind, Registry.setup, Registry.setLevel]

/-- C125 if the calls succeed and the variable is written in lower case: the settings are in force. Missing: the
other cases. -/
theorem C125_in_force_partial (st : StartEnv) (args : Args) (s : Settings) (h : Begins st args s)
    (h1 : st.prctl = true) (h2 : st.accessOpens = true)
    (h3 : SaysDisabled st.otel → st.otel = some b!"true") : InForce st args s := by
  obtain ⟨o, old, level, hk⟩ := h
  have hs : s = ⟨telemetryWanted st.otel, st.prctl,
      (({ file := old } : Registry).setLevel level).setup args.accessLogPath st.accessOpens⟩ := by
    rw [startUp] at hk
    simp only [line, bind, Except.bind] at hk
    grind
  subst hs
  refine ⟨h1, fun hp => ?_, fun hd => ?_⟩
  · simp [Registry.setup, hp, h2]
  · simp only
    rw [h3 hd]
    decide +kernel

/-- The model of `Model/Process.lean` is the one with a start-up in which nothing throws and no line is the first to
find standard output broken. -/
theorem C125_process (st : StartEnv) (env : ProcEnv W) (h1 : st.telemetry = true) (h2 : st.outEarly = false)
    (h3 : env.outStart = false ∨ ∀ args, env.parse = .ok args → args.logLevelEnum.all (· ≤ 2) = true) :
    processExit st env = mainExit env := by
  rw [processExit, mainExit]
  cases hp : env.parse with
  | error c => rfl
  | ok args =>
    simp only [startUp, h1, h2, Bool.not_true, Bool.and_false, Bool.false_eq_true, if_false, line, logLine, bind,
      Except.bind]
    cases hl : args.logLevelEnum with
    | none => rfl
    | some level =>
      rcases h3 with h3 | h3
      · simp only [h3, Bool.and_false, Bool.false_eq_true, if_false]
        by_cases h : args.accessLogPath = [] <;> simp [h]
      · have := h3 args hp
        rw [hl] at this
        simp only [Option.all_some, decide_eq_true_eq] at this
        cases env.outStart
        · by_cases h : args.accessLogPath = [] <;> simp [h]
        · simp [this]

/-- The server begins exactly if nothing throws before `main`'s `try` and no line it logs meets a broken pipe; an
exception there, of the exporter or of `log_level_enum`, ends the process by `std::terminate`, not with a status. -/
theorem C125_before_try (st : StartEnv) (env : ProcEnv W) (args : Args) (hp : env.parse = .ok args) :
    (telemetryWanted st.otel = true → st.telemetry = false → processExit st env = .terminate) ∧
    (st.outEarly = false → args.logLevelEnum = none → processExit st env = .terminate) ∧
    (∀ old, st.outEarly = false → env.outStart = false →
      ((∃ r, startUp st args env.outStart old = .ok r) ↔
        (telemetryWanted st.otel = true → st.telemetry = true) ∧ args.logLevelEnum ≠ none)) := by
  refine ⟨fun h1 h2 => ?_, fun h1 h2 => ?_, fun old h1 h2 => ?_⟩
  · rw [processExit, hp]
    simp [startUp, h1, h2, bind, Except.bind]
  · rw [processExit, hp]
    simp only [startUp, h1, h2, Bool.and_false, line, bind, Except.bind]
    cases telemetryWanted st.otel <;> cases st.telemetry <;> rfl
  · cases hl : args.logLevelEnum with
    | none =>
      simp only [startUp, h1, hl, Bool.and_false, line, bind, Except.bind]
      cases telemetryWanted st.otel <;> cases st.telemetry <;> simp
    | some level =>
      simp only [startUp, h1, h2, hl, Bool.and_false, line, bind, Except.bind]
      by_cases h : args.accessLogPath = [] <;>
        cases telemetryWanted st.otel <;> cases st.telemetry <;> simp [h]

/-- A start-up in which everything asked for is in force. -/
example : Begins { otel := some b!"true" } { accessLogPath := b!"a" } ⟨false, true, ⟨2, some 2, []⟩⟩ :=
  ⟨false, [], 2, by decide +kernel⟩

end Ion.Props
