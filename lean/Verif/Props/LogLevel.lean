import Verif.Props.App
import Verif.Props.FrameLog

/-!
# What `--log-level` leaves in the log (C176)

C77 is about which values of `--log-level` are understood, C161 about the explanations of refusals at level info. C176 is
about what is left of a log at each of the levels.
-/

namespace Ion

namespace Spec

/-- The levels as users name them, from the most to the least verbose (README and `--help`). -/
def severity : List Bytes := [b!"trace", b!"debug", b!"info", b!"warn", b!"error", b!"critical", b!"off"]

/-- The name of a message's level. -/
def levelName : Level → Bytes
  | .trace => b!"trace" | .debug => b!"debug" | .info => b!"info" | .warn => b!"warn" | .err => b!"error"

/-- A message of level `name` is wanted by who sets the level `setting`: they are the same, or `setting` comes first. -/
def Wanted (setting name : Bytes) : Prop := setting = name ∨ [setting, name].Sublist severity

instance (setting name : Bytes) : Decidable (Wanted setting name) := by unfold Wanted; exact inferInstance

end Spec

namespace Sim

open Spec
variable {W : Type}

/-- C176: with a level that is understood, exactly the messages of that level and of those after it are written, in their
order. -/
theorem C176_written (a : Args) (n : Nat) (h : a.logLevelEnum = some n) (lines : List Line) :
    written n lines = lines.filter fun l => Wanted a.logLevel (levelName l.1) := by
  have key : ∀ i, i < 7 → ∀ v ∈ [Level.trace, .debug, .info, .warn, .err],
      ∀ name ∈ severity[i]?, decide (i ≤ v.rank) = decide (Wanted name (levelName v)) := by decide +kernel
  have h1 : severity[n]? = some a.logLevel := (Props.C77_enum a n).mp h
  have h2 : n < 7 := (List.getElem?_eq_some_iff.mp h1).1
  refine List.filter_congr fun l _ => ?_
  refine key n h2 l.1 ?_ a.logLevel h1
  cases l.1 <;> decide

/-- C176: a later level shows nothing that an earlier one does not show. -/
theorem C176_nested (a b : Args) (n m : Nat) (ha : a.logLevelEnum = some n) (hb : b.logLevelEnum = some m)
    (h : [a.logLevel, b.logLevel].Sublist severity) (lines : List Line) :
    (written m lines).Sublist (written n lines) := by
  have key : ∀ i, i < 7 → ∀ j, j < 7 → ∀ x ∈ severity[i]?, ∀ y ∈ severity[j]?, [x, y].Sublist severity → i ≤ j := by
    decide +kernel
  have h1 : severity[n]? = some a.logLevel := (Props.C77_enum a n).mp ha
  have h2 : severity[m]? = some b.logLevel := (Props.C77_enum b m).mp hb
  have hle := key n (List.getElem?_eq_some_iff.mp h1).1 m (List.getElem?_eq_some_iff.mp h2).1 _ h1 _ h2 h
  rw [← written_written hle]
  exact List.filter_sublist

/-- C176: with critical or off nothing of all this is written. -/
theorem C176_off (a : Args) (n : Nat) (h : a.logLevelEnum = some n) (hl : a.logLevel = b!"critical" ∨ a.logLevel = b!"off")
    (lines : List Line) : written n lines = [] := by
  rw [C176_written a n h]
  refine List.filter_eq_nil_iff.mpr fun l _ => ?_
  have key : ∀ v ∈ [Level.trace, .debug, .info, .warn, .err], ¬ Wanted b!"critical" (levelName v) ∧
      ¬ Wanted b!"off" (levelName v) := by decide +kernel
  have := key l.1 (by cases l.1 <;> decide)
  rcases hl with hl | hl <;> rw [hl]
  · simpa using this.1
  · simpa using this.2

/-- C176, the last part, as far as it holds: with trace, debug, info or warn, the log says what is wrong with a frame for
which the connection is ended; with warn and info it says nothing else about it. Missing: error. -/
theorem C176_warn_partial {cfg : Cfg W} (app : AppLog W) {s s' : Sim W} {again : Bool} (hst : s.st = .awaitingFrame)
    (hwf : s.dec.WF) (h : s.tryReadFrame cfg = .ok (again, s')) (hp : s'.st = .protocolError) (a : Args) (n : Nat)
    (ha : a.logLevelEnum = some n) (hn : Wanted a.logLevel b!"warn") :
    ∃ l ∈ written n (s.tryReadLines cfg app), (Wanted b!"info" a.logLevel → written n (s.tryReadLines cfg app) = [l]) ∧
      (TooBig s.rbuf l.2 ∨ ∃ f, s'.trace = s.trace ++ [.frame f] ∧ Fault s.dec.abs (asFrame f) l.2) := by
  have key : ∀ i, i < 7 → ∀ x ∈ severity[i]?, (Wanted x b!"warn" → i ≤ 3) ∧ (Wanted b!"info" x → 2 ≤ i) := by decide +kernel
  have h1 : severity[n]? = some a.logLevel := (Props.C77_enum a n).mp ha
  obtain ⟨k1, k2⟩ := key n (List.getElem?_eq_some_iff.mp h1).1 _ h1
  obtain ⟨level, text, h2, h3, h4⟩ := C161_refused app hst hwf h hp
  have hm : (level, text) ∈ written 2 (s.tryReadLines cfg app) := by rw [h2]; exact List.mem_singleton_self _
  have h5 := k1 hn
  refine ⟨(level, text), List.mem_filter.mpr ⟨(List.mem_filter.mp hm).1, decide_eq_true (by simp only; omega)⟩, fun hi => ?_, h4⟩
  rw [← written_written (k2 hi), h2, written_loud (by omega), written_nil]

/-- C176: with error it says so for each such frame, unless the frame is too big; then nothing is written. -/
theorem C176_error {cfg : Cfg W} (app : AppLog W) {s s' : Sim W} {again : Bool} (hst : s.st = .awaitingFrame)
    (hwf : s.dec.WF) (h : s.tryReadFrame cfg = .ok (again, s')) (hp : s'.st = .protocolError) (a : Args) (n : Nat)
    (ha : a.logLevelEnum = some n) (hn : a.logLevel = b!"error") :
    ((∃ text, TooBig s.rbuf text) ∧ written n (s.tryReadLines cfg app) = []) ∨
    (∃ f text, s'.trace = s.trace ++ [.frame f] ∧ Fault s.dec.abs (asFrame f) text ∧
      written n (s.tryReadLines cfg app) = [(.err, text)]) := by
  have key : ∀ i, i < 7 → severity[i]? = some b!"error" → i = 4 := by decide +kernel
  have h1 : severity[n]? = some a.logLevel := (Props.C77_enum a n).mp ha
  have hn4 := key n (List.getElem?_eq_some_iff.mp h1).1 (hn ▸ h1)
  subst hn4
  have h0 := C161_refused app hst hwf h hp
  simp only [tryReadFrame] at h
  simp only [tryReadLines] at h0 ⊢
  split at h
  · cases h; rw [hst] at hp; cases hp
  · rename_i hl
    rw [if_neg hl] at h0 ⊢
    obtain ⟨header, hh, h⟩ := Outcome.bind_eq_ok.mp h
    rw [hh] at h0 ⊢
    simp only at h0 ⊢
    rw [written_quiet (by decide)] at h0 ⊢
    split at h
    · rename_i hb
      cases h
      rw [if_pos hb] at h0 ⊢
      refine .inl ⟨?_, ?_⟩
      · obtain ⟨level, text, -, -, h4⟩ := h0
        rcases h4 with h4 | ⟨f, h4, -⟩
        · exact ⟨text, h4⟩
        · simp [updateState] at h4
      · rw [written_quiet (by decide), ← written_written (n := 2) (by decide), stateLines_quiet]
        rfl
    · rename_i hb
      rw [if_neg hb] at h0 ⊢
      split at h
      · cases h; rw [hst] at hp; cases hp
      · rename_i ht
        obtain ⟨s1, h1, h⟩ := Outcome.bind_eq_ok.mp h
        cases h
        rw [if_neg ht]
        obtain ⟨new, hnew, h2⟩ := frameLines_loud app (s := s.emit _) hst hwf h1
        rcases h2 with ⟨-, rfl, text, h3, h4⟩ | ⟨h2, -⟩
        · refine .inr ⟨_, text, hnew.trans (List.append_nil _), h4, ?_⟩
          rw [← written_written (n := 2) (by decide), h3, written_loud (by decide), written_nil]
        · exact absurd hp h2

/-- Nine octets that announce a frame of 65536. -/
def exTooBig : Sim Unit := { Sim.init () 0 with st := .awaitingFrame, rbuf := [1, 0, 0, 0, 0, 0, 0, 0, 1] }

/-- C176 as stated fails: with error, a connection is ended for a frame that is too big, and nothing is written. -/
theorem C176_refuted : ∃ (cfg : Cfg Unit) (app : AppLog Unit) (s s' : Sim Unit) (again : Bool) (a : Args) (n : Nat),
    s.st = .awaitingFrame ∧ s.dec.WF ∧ s.tryReadFrame cfg = .ok (again, s') ∧ s'.st = .protocolError ∧
    a.logLevelEnum = some n ∧ a.logLevel = b!"error" ∧ written n (s.tryReadLines cfg app) = [] := by
  refine ⟨⟨fun _ _ _ w => (.stdExn, w), true⟩, ⟨fun _ _ => [], fun _ _ => []⟩, exTooBig, exTooBig.updateState .protocolError,
    true, { logLevel := b!"error" }, 4, rfl, ⟨rfl, Nat.zero_le _⟩, rfl, rfl, by decide +kernel, rfl, ?_⟩
  decide +kernel

/-- With warn the same frame is explained. -/
example : ({ logLevel := b!"warn" } : Args).logLevelEnum = some 3 ∧ Wanted b!"warn" b!"warn" ∧
    written 3 (exTooBig.tryReadLines ⟨fun _ _ _ w => (.stdExn, w), true⟩ ⟨fun _ _ => [], fun _ _ => []⟩) =
      [(.warn, b!"frame too big (sz: 65536, max: 16384)")] := by
  refine ⟨?_, ?_, ?_⟩ <;> decide +kernel

end Sim
end Ion
