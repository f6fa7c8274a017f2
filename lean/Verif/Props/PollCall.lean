import Verif.Model.PollCall
import Verif.Props.Server

/-!
# How long the pollers wait, and how much they report (C174)

`poll` is given a number of milliseconds with 64 bits; the kernel takes one with 32. `epoll_wait` is also told how many events
the buffer holds, which grows when it was full. C174 asks whether the kernel is told what was meant.
-/

namespace Ion

namespace Spec

/-- How long one waits for a number of milliseconds; `none` is for ever (epoll_wait(2), poll(2)). -/
def waiting (ms : Int) : Option Nat := if ms < 0 then none else some ms.toNat

end Spec

namespace Server

open Spec
variable {W : Type}

/-! ## Timeouts -/

/-- C174 is false of timeouts in general: of 2^31 ms the kernel is told to wait for ever, of 2^32 + 5 ms to wait 5 ms. -/
theorem C174_refuted (e : EPoll) (p : PPoll) :
    waiting 2147483648 = some 2147483648 ∧ waiting (e.waitArgs 2147483648).2 = none ∧
    waiting (p.waitArgs 2147483648).2 = none ∧
    waiting 4294967301 = some 4294967301 ∧ waiting (e.waitArgs 4294967301).2 = some 5 ∧
    waiting (p.waitArgs 4294967301).2 = some 5 := by
  refine ⟨?_, ?_, ?_, ?_, ?_, ?_⟩ <;> rfl

theorem castInt_eq {n : Int} (h1 : -2147483648 ≤ n) (h2 : n < 2147483648) : castInt n = n := by
  simp only [castInt]
  split <;> omega

theorem castInt_lt (n : Int) : castInt n < 2147483648 := by
  simp only [castInt]
  split <;> omega

/-- C174, partial: a timeout that is not negative is waited for exactly if it is below 2^31 ms; one that is negative and not
below -2^31 ms means for ever to the kernel, too. (Missing: other timeouts, for which it is false.) -/
theorem C174_timeout_partial (e : EPoll) (p : PPoll) (ms : Int) :
    (0 ≤ ms → ((waiting (e.waitArgs ms).2 = waiting ms ↔ ms < 2147483648) ∧
      (waiting (p.waitArgs ms).2 = waiting ms ↔ ms < 2147483648))) ∧
    (-2147483648 ≤ ms → ms < 0 → waiting (e.waitArgs ms).2 = none ∧ waiting (p.waitArgs ms).2 = none) := by
  simp only [EPoll.waitArgs, PPoll.waitArgs, and_self]
  refine ⟨fun h => ⟨fun hw => ?_, fun hl => ?_⟩, fun h1 h2 => ?_⟩
  · have := castInt_lt ms
    simp only [waiting] at hw
    rw [if_neg (show ¬ ms < 0 by omega)] at hw
    split at hw
    · cases hw
    · simp only [Option.some.injEq] at hw
      omega
  · rw [castInt_eq (by omega) hl]
  · rw [castInt_eq h1 (by omega), waiting, if_pos h2]

/-- C174: the server's own timeout reaches the kernel as 25 ms. -/
theorem C174_server (e : EPoll) (p : PPoll) :
    waiting (e.waitArgs pollTimeoutMs).2 = some 25 ∧ waiting (p.waitArgs pollTimeoutMs).2 = some 25 := ⟨rfl, rfl⟩

/-- C174: the function that is there for it and is not called would be right as far as can be: for ever for negative timeouts,
and otherwise as long as was meant or, if that is more than an `int` holds, as long as it does hold. -/
theorem C174_unused (ms : Int) :
    waiting (toPollTimeoutMs ms) = (waiting ms).map fun n => min n 2147483647 := by
  simp only [toPollTimeoutMs, waiting]
  split
  · rw [if_pos (by omega)]
    rfl
  · split
    · rw [if_neg (by omega), Option.map_some, Nat.min_eq_right (by omega)]
      rfl
    · rw [castInt_eq (by omega) (by omega), if_neg (by omega), Option.map_some, Nat.min_eq_left (by omega)]

/-! ## The buffer -/

/-- What `epoll_wait` may report: descriptors on the interest list, each once, and no more than it is told to. -/
structure Reports (s : Server W) (max : Int) (evs : List PollEv) : Prop where
  once : (evs.map PollEv.fd).Nodup
  watched : ∀ ev ∈ evs, s.os.interest.get ev.fd ≠ none
  most : (evs.length : Int) ≤ max

/-- A server with its poller after some iterations, in `full` of which as many events were reported as the buffer holds. -/
inductive Polls (cfg : Cfg W) (w : W) (listener : Nat) (created fails : Bool) : Server W → EPoll → Nat → Prop where
  | start : Polls cfg w listener created fails (begin w listener created fails) {} 0
  | turn (s s' : Server W) (p : EPoll) (full : Nat) (it : Iter) :
    Polls cfg w listener created fails s p full → s.iteration cfg it = .ok s' →
    (∀ evs, it.poll = some evs → Reports (s.reapIdle it.now) (p.waitArgs pollTimeoutMs).1 evs) →
    Polls cfg w listener created fails s' (p.afterPoll it.poll)
      (if it.poll.map List.length = some p.buffer then full + 1 else full)

/-- At most 129 descriptors are watched. -/
theorem Inv.reported {s : Server W} (hi : Inv s) {max : Int} {evs : List PollEv} (h : Reports s max evs) :
    evs.length ≤ 129 := by
  have h1 : ((evs.map PollEv.fd).erase s.listener).length ≤ s.conns.length := by
    refine distinct_le _ s.conns hi.sorted (h.once.erase _) fun fd hfd => ?_
    obtain ⟨hn, hm⟩ := (h.once.mem_erase_iff).mp hfd
    obtain ⟨ev, he, rfl⟩ := List.mem_map.mp hm
    have hw := h.watched ev he
    rw [hi.table] at hw
    rcases hi.reg ev.fd (fun h0 => hw (by rw [h0]; rfl)) with hr | hr
    · exact absurd hr hn
    · exact hr
  have h2 := List.length_erase (a := s.listener) (l := evs.map PollEv.fd)
  have h3 := hi.len
  rw [List.length_map] at h2
  split at h2 <;> omega

/-- C174: however long the server runs, the buffer of the epoll poller has room for 64, 128 or 256 events, one doubling for
each time it was full, so that this happens at most twice; `epoll_wait` is told the true number, and it is never zero; and
what is reported is never read beyond the buffer. -/
theorem C174_buffer {cfg : Cfg W} {w : W} {listener : Nat} {created fails : Bool} {s : Server W} {p : EPoll} {full : Nat}
    (h : Polls cfg w listener created fails s p full) :
    p.buffer = 64 * 2 ^ full ∧ full ≤ 2 ∧ (p.waitArgs pollTimeoutMs).1 = p.buffer ∧
    ∀ (it : Iter) evs, Reports (s.reapIdle it.now) (p.waitArgs pollTimeoutMs).1 evs →
      ∃ out p', p.poll (.ready (evs.map fun ev => (ev.fd, toEpoll ev.events))) = .ok (out, p') := by
  have hs : Serves cfg s ∧ p.buffer = 64 * 2 ^ full ∧ full ≤ 2 := by
    induction h with
    | start => exact ⟨⟨w, listener, created, fails, .start⟩, rfl, by omega⟩
    | turn s s' p full it _ hit hr ih =>
      obtain ⟨⟨w', l', c', f', hreach⟩, hb, hf⟩ := ih
      have hs' : Serves cfg s' := ⟨w', l', c', f', hreach.trans (iteration_reach (P := anyEv) (fun _ _ _ _ => trivial) hit)⟩
      have hi : Inv s := Serves.inv ⟨w', l', c', f', hreach⟩
      refine ⟨hs', ?_⟩
      have hb256 : p.buffer ≤ 256 := by
        rw [hb]
        have : (2 : Nat) ^ full ≤ 2 ^ 2 := Nat.pow_le_pow_right (by omega) hf
        omega
      cases he : it.poll with
      | none => simp only [EPoll.afterPoll, Option.map_none, reduceCtorEq, if_false]; exact ⟨hb, hf⟩
      | some evs =>
        have hrep := hr evs he
        have hle := (hi.reap it.now).reported hrep
        have hm := hrep.most
        simp only [EPoll.waitArgs] at hm
        rw [castInt_eq (by omega) (by omega)] at hm
        simp only [EPoll.afterPoll, EPoll.poll, List.length_map, Option.map_some, Option.some.injEq]
        by_cases h0 : evs.length = 0
        · rw [if_pos h0]
          have : 0 < 2 ^ full := Nat.pow_pos (by omega)
          rw [if_neg (by omega)]
          exact ⟨hb, hf⟩
        · rw [if_neg h0, if_neg (show ¬ evs.length > p.buffer by omega)]
          by_cases hfull : evs.length = p.buffer
          · simp only [hfull, if_true]
            have hlt : full < 2 := by
              rcases Nat.lt_or_ge full 2 with h | h
              · exact h
              · have : full = 2 := by omega
                subst this
                omega
            refine ⟨?_, by omega⟩
            rw [hb, Nat.pow_succ]
            omega
          · simp only [if_neg hfull]
            exact ⟨hb, hf⟩
  obtain ⟨_, hb, hf⟩ := hs
  have hb256 : p.buffer ≤ 256 := by
    rw [hb]
    have : (2 : Nat) ^ full ≤ 2 ^ 2 := Nat.pow_le_pow_right (by omega) hf
    omega
  have hc : (p.waitArgs pollTimeoutMs).1 = p.buffer := by
    simp only [EPoll.waitArgs]
    exact castInt_eq (by omega) (by omega)
  refine ⟨hb, hf, hc, fun it evs hr => ?_⟩
  have hm := hr.most
  rw [hc] at hm
  simp only [EPoll.poll, List.length_map]
  split
  · exact ⟨_, _, rfl⟩
  · rw [if_neg (by omega)]
    exact ⟨_, _, rfl⟩

/-! ## A server with a full buffer -/

/-- One iteration, if the kernel may report what it does. -/
def pollsTurn (cfg : Cfg W) (x : Server W × EPoll × Nat) (it : Iter) : Option (Server W × EPoll × Nat) :=
  let max := (x.2.1.waitArgs pollTimeoutMs).1
  if (it.poll.getD []).Pairwise (fun a b => a.fd ≠ b.fd) ∧
      (∀ ev ∈ it.poll.getD [], (x.1.reapIdle it.now).os.interest.get ev.fd ≠ none) ∧
      ((it.poll.getD []).length : Int) ≤ max then
    match x.1.iteration cfg it with
    | .ok s' => some (s', x.2.1.afterPoll it.poll,
        if it.poll.map List.length = some x.2.1.buffer then x.2.2 + 1 else x.2.2)
    | _ => none
  else none

theorem pollsTurn_sound {cfg : Cfg W} {w : W} {listener : Nat} {created fails : Bool} (its : List Iter) :
    ∀ (x y : Server W × EPoll × Nat), Polls cfg w listener created fails x.1 x.2.1 x.2.2 →
    its.foldlM (pollsTurn cfg) x = some y → Polls cfg w listener created fails y.1 y.2.1 y.2.2 := by
  induction its with
  | nil => intro x y h hy; cases hy; exact h
  | cons it its ih =>
    intro x y h hy
    rw [List.foldlM_cons] at hy
    cases hz : pollsTurn cfg x it with
    | none => rw [hz] at hy; cases hy
    | some z =>
      rw [hz] at hy
      refine ih z y ?_ hy
      simp only [pollsTurn] at hz
      split at hz
      · rename_i hc
        split at hz
        · rename_i s' hit
          cases hz
          refine .turn _ _ _ _ _ h hit fun evs he => ?_
          rw [he] at hc
          exact ⟨List.pairwise_map.mpr hc.1, hc.2.1, hc.2.2⟩
        · cases hz
      · cases hz

/-- 63 clients come one after the other; then all of them and one more are there at once. -/
def exThrong : List Iter :=
  ((List.range 63).map fun i => { poll := some [{ fd := 3, events := .read, accept := .client (i + 4) true true 0 }] }) ++
    [{ poll := some ((List.range 64).map fun i =>
        { fd := i + 3, events := .read, accept := if i = 0 then .client 67 true true 0 else .again }) }]

set_option maxRecDepth 100000 in
/-- The buffer was full once. -/
example : ∃ s p, Polls Sim.exCfg 0 3 true false s p 1 ∧ p.buffer = 128 ∧ s.conns.length = 64 := by
  have h : ((exThrong.foldlM (pollsTurn Sim.exCfg) (begin 0 3 true false, {}, 0)).map fun x =>
      (x.2.2, x.2.1.buffer, x.1.conns.length)) = some (1, 128, 64) := by decide +kernel
  cases hx : exThrong.foldlM (pollsTurn Sim.exCfg) (begin 0 3 true false, {}, 0) with
  | none => rw [hx] at h; cases h
  | some x =>
    rw [hx] at h
    simp only [Option.map_some, Option.some.injEq, Prod.mk.injEq] at h
    have := pollsTurn_sound (cfg := Sim.exCfg) (w := 0) (listener := 3) (created := true) (fails := false) exThrong _ x .start hx
    rw [h.1] at this
    exact ⟨_, _, this, h.2.1, h.2.2⟩

end Server
end Ion
