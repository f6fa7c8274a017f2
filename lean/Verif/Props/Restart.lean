import Verif.Model.Restart
import Verif.Props.ServerStopTimed

/-! # Starting again, and the reason for stopping (C146, C147) -/

namespace Ion
namespace Server

variable {W : Type}

theorem returned_terminated (cfg : Cfg W) (its : List Iter) : ∀ {s s' : Server W} {unused : List Iter},
    run cfg its s = .returned s' unused → s'.terminated = true := by
  induction its with
  | nil =>
    intro s s' unused h
    rw [run] at h
    split at h
    · cases h; assumption
    · cases h
  | cons it its ih =>
    intro s s' unused h
    rw [run] at h
    split at h
    · cases h; assumption
    · rcases hx : s.iteration cfg it with s1 | e | u <;> simp only [hx] at h
      · exact ih h
      · cases h
      · cases h

theorem again_fields (s : Server W) (listener : Nat) (created ctlFails : Bool) :
    (s.again listener created ctlFails).terminated = s.terminated ∧
    (s.again listener created ctlFails).conns = s.conns ∧
    (s.again listener created ctlFails).world = s.world ∧
    (s.again listener created ctlFails).reason = s.reason := by
  simp [again, pollSet, ended]

theorem run_terminated (cfg : Cfg W) (its : List Iter) {s : Server W} (h : s.terminated = true) :
    run cfg its s = .returned s its := by
  cases its <;> rw [run, if_pos h]

theorem set_other (p : EPoll) (os : Os) (fd fd' : Nat) (events : PollEvents) (fails : Bool) :
    (p.set os fd events fails).2.files = os.files ∧
    (fd' ≠ fd → (p.set os fd events fails).2.interest.get fd' = os.interest.get fd') := by
  have key : ∀ op, (os.ctl op fd (toEpoll events) fails).2.files = os.files ∧
      (fd' ≠ fd → (os.ctl op fd (toEpoll events) fails).2.interest.get fd' = os.interest.get fd') := by
    intro op
    simp only [Os.ctl]
    split
    · exact ⟨rfl, fun _ => rfl⟩
    · cases op <;> simp only <;> split <;> simp +contextual [Assoc.get_put_ne, Assoc.get_del_ne]
  rw [EPoll.set]
  generalize (if p.table.has fd then CtlOp.mod else .add) = op
  have := key op
  cases p.created
  · exact ⟨rfl, fun _ => rfl⟩
  · simp only [if_true]
    generalize os.ctl op fd (toEpoll events) fails = x at this
    obtain ⟨b, os'⟩ := x
    cases b <;> exact this

/-- C146 is false of every server: once `start` has returned, any further call returns before its first iteration,
whatever clients do. -/
theorem C146_refuted (cfg : Cfg W) (its : List Iter) (s s' : Server W) (unused : List Iter)
    (h : run cfg its s = .returned s' unused) (listener : Nat) (created ctlFails : Bool) (its' : List Iter) :
    run cfg its' (s'.again listener created ctlFails) = .returned (s'.again listener created ctlFails) its' := by
  exact run_terminated cfg its' (by
    rw [(again_fields s' listener created ctlFails).1]
    exact returned_terminated cfg its h)

/-- C146, what is true: the further call does no harm. It calls no handler, keeps every connection as it was with its
socket open, leaves none registered with the kernel, and names the same reason. -/
theorem C146_harmless_partial {cfg : Cfg W} {s : Server W} (h : Serves cfg s) (ht : s.terminated = true)
    (listener : Nat) (created ctlFails : Bool) (its : List Iter) (hl : s.ended.os.files.get listener = none) :
    ∃ s', run cfg its (s.again listener created ctlFails) = .returned s' its ∧ s'.conns = s.conns ∧
      s'.world = s.world ∧ s'.shutdownLine = s.shutdownLine ∧
      ∀ fd c, s.conns.get fd = some c → s'.os.files.get fd = some c.file ∧ s'.os.interest.get fd = none := by
  have hf := again_fields s listener created ctlFails
  refine ⟨_, run_terminated cfg its (by rw [hf.1, ht]), hf.2.1, hf.2.2.1, by rw [shutdownLine, shutdownLine, hf.2.2.2], ?_⟩
  intro fd c hc
  have hd := C60_descriptors h
  have hne : fd ≠ s.listener := by
    rintro rfl
    exact absurd hc (by rw [h.inv.notListener]; simp)
  have ho := (hd.1 fd c.file hne).mpr ⟨c, hc, rfl⟩
  have hend : s.ended.os.files.get fd = some c.file := by
    simp only [ended, Os.close, hd.2.2.2.2.1]
    rw [Assoc.get_del_ne _ hne, ho]
  have hne' : fd ≠ listener := by
    rintro rfl
    rw [hl] at hend
    cases hend
  have hs := set_other { created } (s.ended.os.install listener) listener fd .read ctlFails
  constructor
  · show (EPoll.set _ _ _ _ _).2.files.get fd = _
    rw [hs.1]
    simp only [Os.install]
    rw [Assoc.get_put_ne _ _ hne', hend]
  · show (EPoll.set _ _ _ _ _).2.interest.get fd = _
    rw [hs.2 hne']
    rfl

/-- C147: the last log line of `start` tells why `stop` was called: the line determines the reason, and the reason is
that of the last call. -/
theorem C147_reason (cfg : Cfg W) (its : List Iter) : ∀ {s s' : Server W} {unused : List Iter}, Inv s →
    s.terminated = false → run cfg its s = .returned s' unused →
    ∃ used r, its = used ++ unused ∧ (used.flatMap fun it => it.stops).getLast? = some r ∧
      s'.shutdownLine = b!"server shutting down (reason: " ++ r.text ++ b!")" ∧
      ∀ r' : StopReason, b!"server shutting down (reason: " ++ r'.text ++ b!")" = s'.shutdownLine → r' = r := by
  induction its with
  | nil =>
    intro s s' unused hi ht h
    rw [run] at h
    simp [ht] at h
  | cons it its ih =>
    intro s s' unused hi ht h
    rw [run] at h
    simp only [ht, Bool.false_eq_true, if_false] at h
    rcases hx : s.iteration cfg it with s1 | e | u <;> simp only [hx] at h
    · have hi1 := (iteration_reach (P := anyEv) (fun _ _ _ _ => trivial) hx).inv hi
      obtain ⟨s2, evs, h1, rfl⟩ := iteration_ok hx
      have h2 : s2.terminated = false := by rw [events_terminated evs (hi.reap it.now) h1, (reap_same hi it.now).1, ht]
      by_cases he : it.stops = []
      · rw [he] at h hi1
        obtain ⟨used, r, e1, e2, e3⟩ := ih hi1 h2 h
        exact ⟨it :: used, r, by rw [e1]; rfl, by rw [List.flatMap_cons, he]; exact e2, e3⟩
      · have ht' : (it.stops.foldl stop s2).terminated = true := by
          rw [foldl_stop]
          cases hs : it.stops with
          | nil => exact absurd hs he
          | cons _ _ => simp
        rw [run_terminated cfg its ht'] at h
        cases h
        obtain ⟨l, r, hl⟩ : ∃ l r, it.stops = l ++ [r] := by
          rcases List.eq_nil_or_concat it.stops with h | ⟨l, x, h⟩
          · exact absurd h he
          · exact ⟨l, x, by rw [h, List.concat_eq_append]⟩
        have hr : (it.stops.foldl stop s2).reason = r := by
          rw [hl, List.foldl_append]
          rfl
        refine ⟨[it], r, rfl, by simp [hl], by rw [shutdownLine, hr], ?_⟩
        intro r' hr'
        rw [shutdownLine, hr] at hr'
        have := List.append_cancel_left (List.append_cancel_right hr')
        revert this
        cases r <;> cases r' <;> first | exact fun _ => rfl | exact fun h => absurd h (by decide)
    · cases h
    · cases h

/-- A server that was stopped twice, for different reasons, with a client connected; and started again. -/
example : ∃ s', run Sim.exCfg [{ poll := some [{ fd := 3, events := .read, accept := .client 5 true true 0 }] },
      { stops := [.signal, .stdOutPipeBroken] }, {}] (begin 0 3 true false) = .returned s' [{}] ∧
    s'.shutdownLine = b!"server shutting down (reason: stdout pipe broken)" ∧ s'.conns.length = 1 ∧
    s'.ended.os.files.get 3 = none :=
  ⟨_, rfl, by decide +kernel, rfl, rfl⟩

end Server
end Ion
