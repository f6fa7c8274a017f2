import Verif.Lemmas.ConnTrace

/-!
# Concrete connections, for the examples beside the theorems
-/

namespace Ion
namespace Sim
variable {W : Type}

/-- Calls `process()` once per environment, as the server does. -/
def drive (cfg : Cfg W) : List Env → ProcRes × Sim W → Option (ProcRes × Sim W)
  | [], x => some x
  | e :: es, (r, s) =>
    if r = .discard then none
    else match s.process cfg e with
      | .ok x => drive cfg es x
      | _ => none

theorem drive_called_aux {cfg : Cfg W} {w : W} {now : Nat} : ∀ (es : List Env) (r r' : ProcRes)
    (s s' : Sim W), Called cfg w now r s → drive cfg es (r, s) = some (r', s') →
    Called cfg w now r' s'
  | [], r, r', s, s', h, hd => by simp [drive] at hd; obtain ⟨rfl, rfl⟩ := hd; exact h
  | e :: es, r, r', s, s', h, hd => by
    simp only [drive] at hd
    by_cases hr : r = .discard
    · simp [hr] at hd
    · simp only [hr, if_false] at hd
      cases hp : s.process cfg e with
      | ok x =>
        rw [hp] at hd
        exact drive_called_aux es x.1 r' x.2 s' ⟨s, e, h.inUse hr, hp⟩ hd
      | err _ => rw [hp] at hd; cases hd
      | ub _ => rw [hp] at hd; cases hd

theorem drive_called {cfg : Cfg W} {w : W} {now : Nat} {e : Env} {es : List Env} {r' : ProcRes}
    {s' : Sim W} (hd : drive cfg (e :: es) (.wantRead, init w now) = some (r', s')) :
    Called cfg w now r' s' := by
  simp only [drive] at hd
  cases hp : (init w now).process cfg e with
  | ok x =>
    rw [hp] at hd
    exact drive_called_aux es x.1 r' x.2 s' ⟨_, e, .new, hp⟩ hd
  | err _ => rw [hp] at hd; cases hd
  | ub _ => rw [hp] at hd; cases hd

/-- The server calls `process()` with these environments and ends in a state that passes a check. -/
def Shows (cfg : Cfg W) (w : W) (envs : List Env) (p : ProcRes → Sim W → Bool) : Prop :=
  (match drive cfg envs (.wantRead, init w 0) with
    | some (r, s) => p r s
    | none => false) = true

instance (cfg : Cfg W) (w : W) (envs : List Env) (p : ProcRes → Sim W → Bool) :
    Decidable (Shows cfg w envs p) := inferInstanceAs (Decidable (_ = true))

theorem Shows.called {cfg : Cfg W} {w : W} {e : Env} {es : List Env} {p : ProcRes → Sim W → Bool}
    (h : Shows cfg w (e :: es) p) : ∃ r s, Called cfg w 0 r s ∧ p r s = true := by
  unfold Shows at h
  cases hd : drive cfg (e :: es) (.wantRead, init w 0) with
  | none => rw [hd] at h; cases h
  | some x => rw [hd] at h; exact ⟨x.1, x.2, drive_called hd, h⟩

theorem run_append (cfg : Cfg W) (cs ds : List Call) (s : Sim W) :
    run cfg (cs ++ ds) s = (run cfg cs s >>= run cfg ds) := by
  induction cs generalizing s with
  | nil => rfl
  | cons c cs ih =>
    simp only [List.cons_append, run]
    cases s.call cfg c with
    | ok t => exact ih t
    | err e => rfl
    | ub u => rfl

theorem InUse.run {cfg : Cfg W} {w : W} {now : Nat} {s : Sim W} (h : InUse cfg w now s) :
    ∃ calls, Sim.run cfg calls (init w now) = .ok s := by
  induction h with
  | new => exact ⟨[], rfl⟩
  | step s s' env r hs h hr ih =>
    obtain ⟨calls, hc⟩ := ih
    exact ⟨calls ++ [.process env], by rw [run_append, hc]; simp [Sim.run, call, h]⟩

theorem Called.run {cfg : Cfg W} {w : W} {now : Nat} {r : ProcRes} {s : Sim W}
    (h : Called cfg w now r s) : ∃ calls, Sim.run cfg calls (init w now) = .ok s := by
  obtain ⟨s0, env, h1, h2⟩ := h
  obtain ⟨calls, hc⟩ := h1.run
  exact ⟨calls ++ [.process env], by rw [run_append, hc]; simp [Sim.run, call, h2]⟩

theorem Shows.run {cfg : Cfg W} {w : W} {e : Env} {es : List Env} {p : Sim W → Bool}
    (h : Shows cfg w (e :: es) fun _ s => p s) :
    ∃ calls s, Sim.run cfg calls (init w 0) = .ok s ∧ p s = true := by
  obtain ⟨r, s, h1, h2⟩ := h.called
  obtain ⟨calls, h3⟩ := h1.run
  exact ⟨calls, s, h3, h2⟩

/-- An application that answers "hi" and counts requests. -/
def exCfg : Cfg Nat :=
  { getHandler := fun _ _ => fun _ n => (.resp { status := 200, body := [104, 105] }, n + 1) }

/-- An empty SETTINGS frame. -/
def exSettings : Bytes := [0, 0, 0, 4, 0, 0, 0, 0, 0]

/-- A HEADERS frame on stream 1 for `GET /`. -/
def exGet : Bytes := [0, 0, 2, 1, 5, 0, 0, 0, 1, 0x82, 0x84]

/-- The header of a frame announcing 16385 octets. -/
def exBig : Bytes := [0, 64, 1, 0, 0, 0, 0, 0, 1]

/-- A DATA frame with 16000 octets. -/
def exData : Bytes := [0, 62, 128, 0, 0, 0, 0, 0, 1] ++ List.replicate 16000 7

/-- The transport delivers these octets at once and accepts every write of these sizes. -/
def exEnv (bs : Bytes) (ws : List Nat) : Env :=
  { hs := .done 1, reads := [.data bs 2], writes := ws.map (fun n => .wrote n 3) }

end Sim
end Ion
