import Verif.Props.AppClient
import Verif.Props.ConnLive

/-!
# The program serves a conforming client (C129)
-/

namespace Ion
open Spec Props
namespace Sim

theorem OrdinaryApp.good {W : Type} {cfg : Cfg W} (happ : OrdinaryApp cfg) : GoodApp cfg := by
  intro path method req w
  obtain ⟨r, w', h1, h2⟩ := happ path method req w
  refine .inl ⟨r, by rw [h1], ?_⟩
  intro h hh x hx
  right; right
  have ascii : ∀ v : Bytes, v.all (fun c => decide (c.toNat < 128)) = true → ∀ c ∈ v, c.toNat < 128 := by
    intro v hv c hc
    simpa using List.all_eq_true.mp hv c hc
  simp only [List.mem_cons, List.not_mem_nil, or_false] at hx
  rcases h2.2.2.1 h hh with ⟨e, hv⟩ | rfl | ⟨e, n, hv⟩
  · rcases hx with rfl | rfl
    · rw [e]; exact ascii _ (by decide +kernel)
    · exact ascii _ (mediaTypes_ascii _ hv)
  · rcases hx with rfl | rfl <;> exact ascii _ (by decide +kernel)
  · rcases hx with rfl | rfl
    · rw [e]; exact ascii _ (by decide +kernel)
    · exact ascii _ (isDecimal_ascii hv)

/-- The program's handlers always return a response whose fields can be encoded. -/
theorem progCfg_good (page : Page) (a : Args) (sgn : Bool) : GoodApp (progCfg page a sgn) :=
  (progCfg_ordinary page a sgn).good

/-- C129 for the program, with any arguments: nothing has to be assumed about the application. A call that
gets the rest of a conforming client's octets answers all its requests; before that, no call gives the
connection up. -/
theorem C129_program (page : Page) (a : Args) (sgn : Bool) (w : World) (now : Nat) (s0 : Sim World) (env : Env)
    (fs : List Frame) (v : Bytes) (h0 : InUse (progCfg page a sgn) w now s0) (hc : Conforming fs)
    (hv : FramesWire fs v) (hu : Unbroken s0.trace) (hs : Sound env) :
    (Honest (progCfg page a sgn) env s0 → received s0.trace ++ pending env.reads <+: Spec.preface ++ v →
      ∃ r s, s0.process (progCfg page a sgn) env = .ok (r, s) ∧ r ≠ .discard ∧ Unbroken s.trace ∧
        ∃ rest, received s0.trace ++ pending env.reads = received s.trace ++ rest) ∧
    (Prompt (progCfg page a sgn) env s0 → received s0.trace ++ pending env.reads = Spec.preface ++ v →
      ∃ s T, s0.process (progCfg page a sgn) env = .ok (.wantRead, s) ∧ received s.trace = Spec.preface ++ v ∧
        (frames s.trace).map asFrame = fs ∧
        Serves (progCfg page a sgn) w fs (handled s.trace) ((responses s.trace).map asAnswer) T s.world ∧
        (fs ≠ [] → accepted s.trace = produced s.trace)) :=
  ⟨fun hon hin => C129_kept _ w now s0 env fs v h0 (progCfg_good page a sgn) hc hv hon hu hs hin,
    fun hp hin => C129_answered _ w now s0 env fs v h0 (progCfg_good page a sgn) hc hv hu hs hp hin⟩

/-- The program serving two files, and a client that asks for `/`. -/
example : ∃ s T, (init { fs := manyFiles 2 } 0).process manyCfg
      (exEnv (Spec.preface ++ (exSettings ++ exGet)) [36, 30]) = .ok (.wantRead, s) ∧
    received s.trace = Spec.preface ++ (exSettings ++ exGet) ∧
    (frames s.trace).map asFrame = [⟨4, 0, 0, []⟩, ⟨1, 5, 1, [0x82, 0x84]⟩] ∧
    Serves manyCfg { fs := manyFiles 2 } [⟨4, 0, 0, []⟩, ⟨1, 5, 1, [0x82, 0x84]⟩] (handled s.trace)
      ((responses s.trace).map asAnswer) T s.world ∧
    (([⟨4, 0, 0, []⟩, ⟨1, 5, 1, [0x82, 0x84]⟩] : List Frame) ≠ [] → accepted s.trace = produced s.trace) := by
  refine (C129_program _ _ _ { fs := manyFiles 2 } 0 _ _ _ _ .new exConforming exConforming_wire
    ⟨by simp [init], by simp [init]⟩ ⟨?_, ?_, ?_⟩).2 ⟨fun _ => ⟨_, rfl⟩, ?_, ?_⟩ ?_
  · simp [exEnv]
  · simp [exEnv]
  · simp [exEnv]
  · simp [exEnv]
  · exact fun s1 h => prompt_loops h 5 (by decide +kernel)
  · simp [exEnv, init, received, pending]

end Sim
end Ion
