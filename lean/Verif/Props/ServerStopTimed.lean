import Verif.Props.ServerTimed

/-!
# A stopped server ends soon (C142)

C63 says that no iteration begins after `stop()`. C142 adds time: a signal that arrives just before `poll` does not
wake it (there is no self-pipe), but `poll` returns after 25 ms at the latest.
-/

namespace Ion
namespace Server
open Sim
variable {W : Type}

/-- The loop of `start` (lib/http2_server.cpp:129-143) with time, from state `s` at time `b` to state `s'` at time
`b'`, both where the loop's condition is tested; `its` are its iterations and `calls` the times at which `stop` was
called during them. Each iteration calls `poll` once, which returns after at most the poll timeout; everything else
in an iteration takes at most `work`. -/
inductive Loop (cfg : Cfg W) (work : Nat) : Nat → Server W → List Iter → List Nat → Nat → Server W → Prop
  | start (b : Nat) (s : Server W) : Loop cfg work b s [] [] b s
  | round {b b1 b2 : Nat} {s s1 s2 : Server W} {its : List Iter} {calls : List Nat}
      (h : Loop cfg work b s its calls b1 s1) (ht : s1.terminated = false) (it : Iter)
      (hi : s1.iteration cfg it = .ok s2) (polls returns : Nat) (h1 : b1 ≤ polls) (h2 : polls ≤ returns)
      (h3 : returns ≤ b2) (hp : returns ≤ polls + 25 * 10 ^ 6) (hw : (polls - b1) + (b2 - returns) ≤ work)
      (times : List Nat) (hl : times.length = it.stops.length) (hin : ∀ t ∈ times, b1 ≤ t ∧ t ≤ b2) :
      Loop cfg work b s (its ++ [it]) (calls ++ times) b2 s2

theorem foldl_stop (l : List StopReason) : ∀ s : Server W, (l.foldl stop s).terminated = (s.terminated || !l.isEmpty) := by
  induction l with
  | nil => intro s; simp
  | cons r l ih => intro s; rw [List.foldl_cons, ih]; simp [stop]

/-- The loop with time is the loop of the model. -/
theorem Loop.run {cfg : Cfg W} {work b b' : Nat} {s s' : Server W} {its : List Iter} {calls : List Nat}
    (h : Loop cfg work b s its calls b' s') (rest : List Iter) :
    Server.run cfg (its ++ rest) s = Server.run cfg rest s' := by
  induction h generalizing rest with
  | start => rfl
  | round h ht it hi _ _ _ _ _ _ _ _ _ _ ih =>
    rw [List.append_assoc, ih, List.singleton_append, Server.run.eq_def]
    simp [ht, hi]

/-- C142. In a server in service whose loop runs from `b` to `b'`: if `stop` was called at `t`, the loop is left
within the poll timeout of 25 ms and the time the work of one iteration takes (`start` returns, whatever would come
after); as long as `stop` was not called it goes on. -/
theorem C142_stops_in_time {cfg : Cfg W} {work b b' : Nat} {s s' : Server W} {its : List Iter} {calls : List Nat}
    (hs : Serves cfg s) (h0 : s.terminated = false) (h : Loop cfg work b s its calls b' s') :
    (∀ t ∈ calls, t ≤ b' ∧ b' ≤ t + 25 * 10 ^ 6 + work ∧
      ∀ rest, Server.run cfg (its ++ rest) s = .returned s' rest) ∧
    (calls = [] → s'.terminated = false) := by
  have key : (∀ t ∈ calls, t ≤ b' ∧ b' ≤ t + 25 * 10 ^ 6 + work ∧ s'.terminated = true) ∧
      (calls = [] → s'.terminated = false) ∧ Inv s' := by
    have hi0 := hs.inv
    clear hs
    induction h with
    | start => exact ⟨by simp, fun _ => h0, hi0⟩
    | @round b1 b2 _ s1 s2 its calls h ht it hi polls returns h1 h2 h3 hp hw times hl hin ih =>
      obtain ⟨i1, i2, i3⟩ := ih h0 hi0
      have hnone : calls = [] := by
        cases calls with
        | nil => rfl
        | cons t l =>
          have := (i1 t (by simp)).2.2
          rw [ht] at this
          cases this
      have hterm : s2.terminated = !it.stops.isEmpty := by
        obtain ⟨s3, evs, hev, rfl⟩ := iteration_ok hi
        rw [foldl_stop, events_terminated evs (i3.reap it.now) hev, (reap_same i3 it.now).1, ht, Bool.false_or]
      refine ⟨fun t hm => ?_, fun he => ?_, (iteration_reach (P := anyEv) (fun _ _ _ _ => trivial) hi).inv i3⟩
      · rw [hnone, List.nil_append] at hm
        obtain ⟨k1, k2⟩ := hin t hm
        refine ⟨k2, by omega, ?_⟩
        rw [hterm]
        cases hx : it.stops with
        | nil => rw [hx] at hl; rw [List.length_eq_zero_iff.mp hl] at hm; cases hm
        | cons => rfl
      · have : times = [] := (List.append_eq_nil_iff.mp he).2
        rw [this] at hl
        rw [hterm, List.length_eq_zero_iff.mp hl.symm]
        rfl
  refine ⟨fun t ht => ?_, key.2.1⟩
  obtain ⟨h1, h2, h3⟩ := key.1 t ht
  refine ⟨h1, h2, fun rest => ?_⟩
  rw [h.run rest, Server.run.eq_def]
  simp [h3]

/-- `SIGTERM` comes 1 ms after an idle server has begun to wait: it ends 24 ms later. -/
example : ∃ s', Loop exCfg 0 0 (begin 0 3 true false) [{ stops := [.signal] }] [10 ^ 6] (25 * 10 ^ 6) s' ∧
    Serves exCfg (begin 0 3 true false) ∧ (begin 0 3 true false : Server Nat).terminated = false ∧
    Server.run exCfg ([{ stops := [.signal] }] ++ []) (begin 0 3 true false) = .returned s' [] := by
  have hs : Serves exCfg (begin 0 3 true false) := ⟨0, 3, true, false, .start⟩
  have h0 : (begin 0 3 true false : Server Nat).terminated = false := by decide +kernel
  obtain ⟨s', hi⟩ : ∃ s', (begin 0 3 true false).iteration exCfg { stops := [.signal] } = .ok s' := by
    simp only [Server.iteration, ite_self]
    exact ⟨_, rfl⟩
  have hl := Loop.round (Loop.start (cfg := exCfg) (work := 0) 0 _) h0 _ hi 0 (25 * 10 ^ 6) (Nat.le_refl _) (by decide)
    (Nat.le_refl (25 * 10 ^ 6)) (by decide) (by decide) [10 ^ 6] rfl (by decide)
  exact ⟨s', hl, hs, h0, ((C142_stops_in_time hs h0 hl).1 (10 ^ 6) (by simp)).2.2 []⟩

end Server
end Ion
