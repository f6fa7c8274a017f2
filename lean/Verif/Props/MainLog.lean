import Verif.Model.MainLog
import Verif.Props.Process

/-!
# The log tells how the program ended (C178)
-/

namespace Ion
namespace Props

/-- The notes written at a level, except that "OpenTelemetry disabled." is logged before the level is set
(app/main.cpp:101-107), and so is written at every level. -/
def shown (level : Nat) (notes : List Note) : List Note := notes.filter fun n => decide (level ≤ n.1)

/-- Notes that say nothing about the end: not critical, and not beginning like "exiting". -/
def Passing (ns : List Note) : Prop := ∀ n ∈ ns, n.1 < 5 ∧ n.2.head? ≠ some 0x65

theorem Passing.nil : Passing [] := fun _ h => nomatch h

theorem Passing.cons {n : Note} {ns : List Note} (h : n.1 < 5 ∧ n.2.head? ≠ some 0x65) (hs : Passing ns) :
    Passing (n :: ns) := by
  intro x hx
  rcases List.mem_cons.mp hx with rfl | hx
  · exact h
  · exact hs x hx

theorem Passing.append {a b : List Note} (ha : Passing a) (hb : Passing b) : Passing (a ++ b) := by
  intro x hx
  rcases List.mem_append.mp hx with hx | hx
  · exact ha x hx
  · exact hb x hx

theorem setup_passing (args : Args) (t : MainTexts) : Passing (setupNotes args t) := by
  simp only [setupNotes]
  refine Passing.append (Passing.append ?_ ?_) ?_
  · split
    · exact .cons ⟨by decide, by decide⟩ .nil
    · exact .nil
  · split
    · exact .cons ⟨by decide, by decide⟩ (.cons ⟨by simp, fun h => nomatch h⟩ .nil)
    · exact .nil
  · split
    · exact .cons ⟨by simp, fun h => nomatch h⟩ .nil
    · exact .nil

theorem start_passing (st : StartEnv) (args : Args) (t : MainTexts) : Passing (privsNotes st t ++ accessNotes st args t) := by
  simp only [privsNotes, accessNotes]
  refine Passing.append ?_ ?_
  · split
    · exact .cons ⟨by decide, by decide⟩ .nil
    · exact .cons ⟨by simp, fun h => nomatch h⟩ .nil
  · split
    · exact .nil
    · split <;> exact .cons ⟨by simp, fun h => nomatch h⟩ .nil

/-- The notes are passing ones, then one that tells how the process ends, or none. -/
def Ends (e : Exit) (t : MainTexts) (ns : List Note) : Prop :=
  ∃ pre, Passing pre ∧ ((e = .status 0 ∧ ns = pre ++ [(2, b!"exiting")]) ∨
    (e = .status 1 ∧ ns = pre ++ [(5, b!"fatal error: " ++ t.what)]) ∨
    ((∀ n, e ≠ .status n) ∧ ns = pre))

theorem Ends.prepend {e : Exit} {t : MainTexts} {a ns : List Note} (ha : Passing a) (h : Ends e t ns) : Ends e t (a ++ ns) := by
  obtain ⟨pre, hp, h⟩ := h
  refine ⟨a ++ pre, ha.append hp, ?_⟩
  rcases h with ⟨h1, rfl⟩ | ⟨h1, rfl⟩ | ⟨h1, rfl⟩
  · exact .inl ⟨h1, by rw [List.append_assoc]⟩
  · exact .inr (.inl ⟨h1, by rw [List.append_assoc]⟩)
  · exact .inr (.inr ⟨h1, rfl⟩)

theorem runServer_ends {W : Type} (env : ProcEnv W) (args : Args) (level : Nat) (t : MainTexts) (ho : env.outEnd = false) :
    Ends (runServer env args level) t (runServerNotes env args t) := by
  have hf : Ends (fatal level env.outEnd) t (fatalNotes t) := by
    refine ⟨[], .nil, .inr (.inl ⟨?_, rfl⟩)⟩
    simp [fatal, logLine, ho]
  have hn : ∀ e : Exit, (∀ n, e ≠ .status n) → Ends e t [] := fun e h => ⟨[], .nil, .inr (.inr ⟨h, rfl⟩)⟩
  simp only [runServer, runServerNotes]
  generalize constructServer env.fs env.ssl args.toServerConfig = c
  cases c with
  | err e => exact hf
  | ub u => exact hn _ (fun _ h => nomatch h)
  | ok u =>
    refine Ends.prepend (setup_passing _ _) ?_
    generalize ListenSock.make env.little args.port env.listen {} = m
    obtain ⟨m, os⟩ := m
    cases m with
    | error e => exact hf
    | ok sock =>
      simp only
      generalize Server.run (env.cfg args) env.iters
        (env.stops.foldl Server.stop (Server.begin env.world sock.fd env.pollerCreated env.ctlFails)) = r
      cases r with
      | returned s u =>
        refine ⟨[], .nil, .inl ⟨?_, rfl⟩⟩
        simp [logLine, ho]
      | ub u => exact hn _ (fun _ h => nomatch h)
      | running s => exact hn _ (fun _ h => nomatch h)
      | threw e =>
        by_cases he : e = .process .escaped
        · subst he
          exact hn _ (fun _ h => nomatch h)
        · simp only
          exact hf

theorem process_ends {W : Type} (st : StartEnv) (env : ProcEnv W) (t : MainTexts) (args : Args) (hp : env.parse = .ok args)
    (h1 : st.outEarly = false) (h2 : env.outStart = false) (h3 : env.outEnd = false) :
    Ends (processExit st env) t (mainNotes st env t) := by
  have hn : ∀ (e : Exit) (ns : List Note), Passing ns → (∀ n, e ≠ .status n) → Ends e t ns :=
    fun e ns h hs => ⟨ns, h, .inr (.inr ⟨hs, rfl⟩)⟩
  have ht : Passing (telemetryNotes st) := by
    simp only [telemetryNotes]
    split
    · exact .nil
    · exact .cons ⟨by decide, by decide⟩ .nil
  have hl : ∀ a b, line a b false = .ok () := by intro a b; simp [line]
  simp only [processExit, mainNotes, hp, startUp, h1, h2, Bool.and_false, hl]
  by_cases hw : (telemetryWanted st.otel && !st.telemetry) = true
  · rw [if_pos hw, if_pos hw]
    exact hn _ _ .nil (fun _ h => nomatch h)
  · rw [if_neg hw, if_neg hw]
    cases hv : args.logLevelEnum with
    | none => exact hn _ _ (ht.append .nil) (fun _ h => nomatch h)
    | some level =>
      have key : Ends (runServer env args level) t (telemetryNotes st ++ ((2, b!"ion " ++ t.version ++ b!" started ⚡️") ::
          (privsNotes st t ++ accessNotes st args t ++ runServerNotes env args t))) := by
        refine Ends.prepend ht (Ends.prepend (a := [_]) (.cons ⟨by simp, fun h => nomatch h⟩ .nil) ?_)
        exact Ends.prepend (start_passing _ _ _) (runServer_ends env args level t h3)
      by_cases ha : args.accessLogPath = [] <;> simpa [ha, bind, Except.bind, pure, Except.pure] using key

/-- C178, as far as it holds: if the process ends with an exit status after its command line was accepted, then the last
note of `main` says so: "exiting" if the status is 0, and "fatal error" with the reason, at level critical, if it is 1; it
never ends with another status. And no such note is written if it does not end like this. Missing: ends by
`std::terminate`, and by `SIGPIPE` if standard output is a broken pipe. -/
theorem C178_ends_partial {W : Type} (st : StartEnv) (env : ProcEnv W) (t : MainTexts) (args : Args) (hp : env.parse = .ok args)
    (h1 : st.outEarly = false) (h2 : env.outStart = false) (h3 : env.outEnd = false) :
    (∀ n, processExit st env = .status n → n = 0 ∧ (mainNotes st env t).getLast? = some (2, b!"exiting") ∨
      n = 1 ∧ (mainNotes st env t).getLast? = some (5, b!"fatal error: " ++ t.what)) ∧
    ((2, b!"exiting") ∈ mainNotes st env t → processExit st env = .status 0) ∧
    (∀ text, (5, text) ∈ mainNotes st env t → processExit st env = .status 1) := by
  obtain ⟨pre, hpre, h⟩ := process_ends st env t args hp h1 h2 h3
  have e0 : (2, b!"exiting") ∉ pre := fun hm => (hpre _ hm).2 rfl
  have e5 : ∀ text, (5, text) ∉ pre := fun text hm => Nat.lt_irrefl _ (hpre _ hm).1
  rcases h with ⟨h, hm⟩ | ⟨h, hm⟩ | ⟨h, hm⟩ <;> rw [hm]
  · refine ⟨fun n hn => .inl ⟨?_, by simp⟩, fun _ => h, fun text ht => ?_⟩
    · rw [h] at hn; cases hn; rfl
    · rcases List.mem_append.mp ht with ht | ht
      · exact absurd ht (e5 _)
      · exact absurd (congrArg Prod.fst (List.mem_singleton.mp ht)) (by simp)
  · refine ⟨fun n hn => .inr ⟨?_, by simp⟩, fun ht => ?_, fun _ _ => h⟩
    · rw [h] at hn; cases hn; rfl
    · rcases List.mem_append.mp ht with ht | ht
      · exact absurd ht e0
      · exact absurd (congrArg Prod.fst (List.mem_singleton.mp ht)) (by simp)
  · exact ⟨fun n hn => absurd hn (h n), fun ht => absurd ht e0, fun text ht => absurd ht (e5 _)⟩

/-- C178: the reason of a failure is written at every level but off, and "exiting" at info and below; at
off, neither is. -/
theorem C178_levels {W : Type} (st : StartEnv) (env : ProcEnv W) (t : MainTexts) (args : Args) (hp : env.parse = .ok args)
    (h1 : st.outEarly = false) (h2 : env.outStart = false) (h3 : env.outEnd = false) :
    (processExit st env = .status 1 → ∀ level ∈ [0, 1, 2, 3, 4, 5],
      (shown level (mainNotes st env t)).getLast? = some (5, b!"fatal error: " ++ t.what)) ∧
    (processExit st env = .status 0 → ∀ level ∈ [0, 1, 2],
      (shown level (mainNotes st env t)).getLast? = some (2, b!"exiting")) ∧
    (∀ n ∈ shown 6 (mainNotes st env t), n ≠ (2, b!"exiting") ∧ n.1 ≠ 5) := by
  have h6 : ∀ ns : List Note, ∀ n ∈ shown 6 ns, n ≠ (2, b!"exiting") ∧ n.1 ≠ 5 := by
    intro ns n hn
    have hl : 6 ≤ n.1 := by simpa using (List.mem_filter.mp hn).2
    exact ⟨fun e => by rw [e] at hl; simp at hl, by omega⟩
  obtain ⟨pre, hpre, h⟩ := process_ends st env t args hp h1 h2 h3
  have last : ∀ (level : Nat) (x : Note), level ≤ x.1 → (shown level (pre ++ [x])).getLast? = some x := by
    intro level x hx
    rw [shown, List.filter_append, List.filter_cons_of_pos (by simpa using hx)]
    simp
  rcases h with ⟨h, hm⟩ | ⟨h, hm⟩ | ⟨h, hm⟩ <;> rw [hm]
  · refine ⟨fun h' => (by rw [h] at h'; cases h'), fun _ level hl => last level _ ?_, h6 _⟩
    · simp only [List.mem_cons, List.not_mem_nil, or_false] at hl
      simp only
      omega
  · refine ⟨fun _ level hl => last level _ ?_, fun h' => (by rw [h] at h'; cases h'), h6 _⟩
    · simp only [List.mem_cons, List.not_mem_nil, or_false] at hl
      simp only
      omega
  · exact ⟨fun h' => absurd h' (h _), fun h' => absurd h' (h _), h6 _⟩

/-- A program that can listen and is told to stop at once. -/
def exMain (bind : Bool) : ProcEnv Nat where
  parse := .ok { cleartext := true, statusPage := true }
  fs := { node := fun _ => none }
  ssl := { useCertificate := fun _ => true, usePrivateKey := fun _ => true, keyMatches := fun _ _ => true }
  listen := ⟨some 3, some 2, true, true, bind, true⟩
  cfg := fun _ => Sim.exCfg
  world := 0
  stops := [.signal]
  iters := []

/-- C178 as stated fails: a level in capital letters ends the process by an exception that nobody catches, and `main` has
logged nothing. -/
theorem C178_refuted : ∃ (st : StartEnv) (env : ProcEnv Nat) (args : Args), env.parse = .ok args ∧
    Args.levelAccepted args.logLevel = true ∧ st.outEarly = false ∧ env.outStart = false ∧ env.outEnd = false ∧
    processExit st env = .terminate ∧ ∀ t, mainNotes st env t = [] := by
  refine ⟨{}, { exMain true with parse := .ok { cleartext := true, logLevel := b!"INFO" } },
    { cleartext := true, logLevel := b!"INFO" }, rfl, by decide +kernel, rfl, rfl, rfl, by decide +kernel, fun t => ?_⟩
  have h : ({ cleartext := true, logLevel := b!"INFO" } : Args).logLevelEnum = none := by decide +kernel
  simp only [mainNotes, h, telemetryNotes]
  rfl

/-- What `main` logs in it, and if it cannot bind its socket. -/
example : processExit {} (exMain true) = .status 0 ∧ processExit {} (exMain false) = .status 1 ∧
    (mainNotes {} (exMain true) ⟨b!"1.0", b!"ab", [], [], b!"bind"⟩).map (·.2) =
      [b!"ion 1.0 started ⚡️", b!"PR_SET_NO_NEW_PRIVS enabled", b!"status page enabled: /_ion/status", b!"instance id: ab",
       b!"exiting"] ∧
    shown 4 (mainNotes {} (exMain false) ⟨b!"1.0", b!"ab", [], [], b!"bind"⟩) = [(5, b!"fatal error: bind")] := by
  refine ⟨?_, ?_, ?_, ?_⟩ <;> decide +kernel

end Props
end Ion
