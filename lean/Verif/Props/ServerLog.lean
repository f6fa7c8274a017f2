import Verif.Spec.ServerLog
import Verif.Props.ServerLoop
import Verif.Props.FrameLog

/-! # What the server logs about connections (C162, C163) -/

namespace Ion
open Spec

variable {W : Type}

/-! ### Lines -/

/-- The level of a line and how it begins. -/
def lineKey (l : Line) : Level × Bytes := (l.1, l.2.take 11)

theorem not_opening {l : Line} (h : lineKey l ≠ (.info, b!"HTTP connec")) : ¬ Opening l := by
  rintro ⟨d, rfl⟩
  exact h rfl

theorem not_ending {l : Line} (h1 : lineKey l ≠ (.info, b!"closing con")) (h2 : lineKey l ≠ (.debug, b!"poll indica"))
    (h3 : lineKey l ≠ (.warn, b!"closing con")) : ¬ Ending l := by
  rintro (rfl | rfl | ⟨d, rfl⟩)
  · exact h1 rfl
  · exact h2 rfl
  · exact h3 rfl

theorem not_complaint {l : Line} (h : lineKey l ≠ (.warn, b!"epoll_ctl: ")) : ¬ Complaint l := by
  rintro ⟨d, rfl⟩
  exact h rfl

/-- A line that is about no connection in particular. -/
def Plain (l : Line) : Prop := ¬ Opening l ∧ ¬ Ending l

theorem plain_of_key {l : Line} {k : Level × Bytes} (h : lineKey l = k)
    (hk : (decide (k = (.info, b!"HTTP connec")) || decide (k = (.info, b!"closing con")) ||
      decide (k = (.debug, b!"poll indica")) || decide (k = (.warn, b!"closing con"))) = false) : Plain l := by
  simp only [Bool.or_eq_false_iff, decide_eq_false_iff_not] at hk
  rw [← h] at hk
  exact ⟨not_opening hk.1.1.1, not_ending hk.1.1.2 hk.1.2 hk.2⟩

theorem _root_.Ion.Spec.Counted.append {n m k : Nat} {a b : List Line} (ha : Counted n a m) (hb : Counted m b k) :
    Counted n (a ++ b) k := by
  induction ha with
  | nil n => exact hb
  | other l h1 h2 _ ih => exact .other l h1 h2 (ih hb)
  | opened d hd _ ih => exact .opened d hd (ih hb)
  | ended l h _ ih => exact .ended l h (ih hb)

theorem _root_.Ion.Spec.Counted.plain {n : Nat} : ∀ {ls : List Line}, (∀ l ∈ ls, Plain l) → Counted n ls n
  | [], _ => .nil n
  | l :: ls, h => .other l (h l (by simp)).1 (h l (by simp)).2 (Spec.Counted.plain fun x hx => h x (List.mem_cons_of_mem _ hx))

/-- What is written at level debug and above is enough. -/
theorem _root_.Ion.Spec.Counted.debug {n m : Nat} {ls : List Line} (h : Counted n ls m) : Counted n (written 1 ls) m := by
  induction h with
  | nil n => exact .nil n
  | other l h1 h2 _ ih =>
    obtain ⟨v, text⟩ := l
    by_cases hv : 1 ≤ v.rank
    · rw [written_loud hv]; exact .other _ h1 h2 ih
    · rw [written_quiet (by omega)]; exact ih
  | opened d hd _ ih => rw [written_loud (by decide)]; exact .opened d hd ih
  | ended l h _ ih =>
    obtain ⟨v, text⟩ := l
    have hv : 1 ≤ v.rank := by
      rcases h with h | h | ⟨d, h⟩ <;> cases h <;> decide
    rw [written_loud hv]
    exact .ended _ h ih

theorem setLines_plain (sys : SysLog) (p : EPoll) (os : Os) (fd : Nat) (events : PollEvents) (fails : Bool) :
    ∀ l ∈ p.setLines sys os fd events fails, Plain l := by
  intro l hl
  simp only [EPoll.setLines] at hl
  split at hl
  · cases hl
  · rw [List.mem_singleton] at hl
    subst hl
    exact plain_of_key (k := (.warn, b!"epoll_ctl: ")) rfl (by decide)

theorem removeLines_plain (sys : SysLog) (p : EPoll) (os : Os) (fd : Nat) :
    ∀ l ∈ p.removeLines sys os fd, Plain l := by
  intro l hl
  simp only [EPoll.removeLines] at hl
  split at hl
  · cases hl
  · rw [List.mem_singleton] at hl
    subst hl
    exact plain_of_key (k := (.warn, b!"epoll_ctl: ")) rfl (by decide)

theorem closeLines_plain (fd : Nat) : ∀ l ∈ closeLines fd, Plain l := by
  intro l hl
  rw [closeLines, List.mem_singleton] at hl
  subst hl
  exact plain_of_key (k := (.trace, b!"closing soc")) rfl (by decide)

theorem peerLines_plain (sys : SysLog) (fd : Nat) : ∀ l ∈ sys.peerLines fd, Plain l := by
  intro l hl
  simp only [SysLog.peerLines] at hl
  split at hl
  · rw [List.mem_singleton] at hl
    subst hl
    exact plain_of_key (k := (.err, b!"getpeername")) rfl (by decide)
  · rw [List.mem_singleton] at hl
    subst hl
    exact plain_of_key (k := (.err, b!"unknown ss_")) rfl (by decide)
  · cases hl

namespace Server

theorem tryAcceptLines_plain (sys : SysLog) (s : Server W) (a : AcceptRes) : ∀ l ∈ s.tryAcceptLines sys a, Plain l := by
  intro l hl
  cases a with
  | again => cases hl
  | fail => cases hl
  | client fd nb tr now =>
    simp only [tryAcceptLines] at hl
    split at hl
    · cases hl
    · split at hl
      · exact closeLines_plain _ l hl
      · split at hl
        · rw [List.mem_singleton] at hl
          subst hl
          exact plain_of_key (k := (.warn, b!"failed to s")) rfl (by decide)
        · cases hl

theorem Inv.put_length {s : Server W} (hi : Inv s) {fd : Nat} (hf : s.os.files.get fd = none) (c : Conn W) :
    (s.conns.put fd c).length = s.conns.length + 1 := by
  have hn : s.conns.get fd = none := by
    cases hg : s.conns.get fd with
    | none => rfl
    | some c' => rw [hi.isOpen hg] at hf; cases hf
  have h1 := Assoc.length_del_of_get (hi.sorted.put fd c) (k := fd) (v := c) (Assoc.get_put_self ..)
  have h2 : (s.conns.put fd c).del fd = s.conns := by
    refine Assoc.ext ((hi.sorted.put fd c).del fd) hi.sorted fun k => ?_
    rw [Assoc.get_del]
    split
    · rename_i h; rw [h, hn]
    · rename_i h; rw [Assoc.get_put_ne _ _ h]
  rw [h2] at h1
  omega

/-- What one event does to the number of connections is in the log. -/
theorem counted_event {cfg : Cfg W} (sys : SysLog) {s s' : Server W} {ev : PollEv} (hi : Inv s)
    (h : s.handleEvent cfg ev = .ok s') : Counted s.conns.length (s.eventLines cfg sys ev) s'.conns.length := by
  cases hi.step h with
  | again hl ha =>
    rw [eventLines, if_pos hl, incomingLines]
    split
    · rw [establishLines, ha]; exact .nil _
    · rw [ha]; exact .nil _
  | accepted fd now hl ha hf hlen =>
    have hh : s.os.files.has fd = false := (Assoc.has_false_iff _ _).2 hf
    rw [eventLines, if_pos hl, incomingLines, if_pos (show s.conns.length < maxConnections from hlen), establishLines, ha, (pollSet_conns _ _ _ _).1]
    refine Counted.append (.plain (tryAcceptLines_plain _ _ _)) ?_
    simp only [tryAccept, hh, Bool.false_eq_true, if_false, Bool.not_true]
    refine Counted.append (.plain (peerLines_plain _ _)) ?_
    refine .other _ (plain_of_key (k := (.info, b!"client conn")) rfl (by decide)).1
      (plain_of_key (k := (.info, b!"client conn")) rfl (by decide)).2 ?_
    simp only [Os.install, Nat.add_sub_cancel]
    have hp := hi.put_length hf ⟨s.os.next, Sim.init s.world now⟩
    refine .opened _ ?_ (hp ▸ .plain (setLines_plain _ _ _ _ _ _))
    rw [← hp]
    exact Sim.decimal_spec _
  | overflow fd now transport hl ha hf hlen =>
    have hh : s.os.files.has fd = false := (Assoc.has_false_iff _ _).2 hf
    rw [eventLines, if_pos hl, incomingLines, if_neg (show ¬ s.conns.length < maxConnections from hlen), ha]
    refine Counted.append (.plain (tryAcceptLines_plain _ _ _)) ?_
    simp only [tryAccept, hh, Bool.false_eq_true, if_false, Bool.not_true]
    refine Counted.append (.plain (peerLines_plain _ _)) ?_
    exact .other _ (plain_of_key (k := (.warn, b!"server at c")) rfl (by decide)).1
      (plain_of_key (k := (.warn, b!"server at c")) rfl (by decide)).2 (.plain (closeLines_plain _))
  | unknown hl hc =>
    rw [eventLines, if_neg hl, connectionLines, hc]
    exact .nil _
  | gone c hl hc he =>
    rw [eventLines, if_neg hl, connectionLines, hc]
    simp only
    rw [if_pos (by simpa using he)]
    have := Assoc.length_del_of_get hi.sorted hc
    have e : s.conns.length = (s.dropped ev.fd c.file).conns.length + 1 := by simp only [dropped]; omega
    rw [e]
    refine .ended _ (.inr (.inl rfl)) (.plain fun l hl => ?_)
    rcases List.mem_append.mp hl with hl | hl
    · exact closeLines_plain _ l hl
    · exact removeLines_plain _ _ _ _ l hl
  | quiet c hl hc he hr =>
    rw [eventLines, if_neg hl, connectionLines, hc]
    simp only
    rw [if_neg (by simp [he]), if_pos (by simp [hr])]
    exact .nil _
  | processed c r sim hl hc he hr hp =>
    rw [eventLines, if_neg hl, connectionLines, hc]
    simp only
    rw [if_neg (by simp [he]), if_neg (by rcases hr with hr | hr <;> simp [hr])]
    have hset : ∀ l ∈ (if hasEvent ev.events .write = true then s.setLines sys ev.fd .read ev.ctlFails1 else []), Plain l := by
      intro l hl
      split at hl
      · exact setLines_plain _ _ _ _ _ _ l hl
      · cases hl
    refine Counted.append (.plain hset) ?_
    have hw : (if hasEvent ev.events .write = true then s.pollSet ev.fd .read ev.ctlFails1 else s).world = s.world := by
      split
      · exact (pollSet_conns _ _ _ _).2.1
      · rfl
    rw [hw, hp]
    have hlen : ((s.before ev).updated ev.fd c sim).conns.length = s.conns.length := by
      simp only [updated]
      rw [(before_same s ev).1]
      exact Assoc.length_put_of_get hi.sorted hc
    cases r with
    | wantWrite =>
      simp only [after]
      rw [(pollSet_conns _ _ _ _).1, hlen]
      refine .other _ (plain_of_key (k := (.trace, b!"will poll w")) rfl (by decide)).1
        (plain_of_key (k := (.trace, b!"will poll w")) rfl (by decide)).2 (.plain (setLines_plain _ _ _ _ _ _))
    | wantRead =>
      simp only [after]
      rw [hlen]
      exact .nil _
    | discard =>
      simp only [after]
      have hu : Inv ((s.before ev).updated ev.fd c sim) :=
        (hi.before hc).putSim (by rw [(before_same s ev).1]; exact hc) _ _
      have := Assoc.length_del_of_get hu.sorted (k := ev.fd) (v := { c with sim }) (by simp [updated])
      have e : s.conns.length = (((s.before ev).updated ev.fd c sim).dropped ev.fd c.file).conns.length + 1 := by
        simp only [dropped]; omega
      rw [e]
      refine .ended _ (.inl rfl) (.plain fun l hl => ?_)
      rcases List.mem_append.mp hl with hl | hl
      · exact removeLines_plain _ _ _ _ l hl
      · exact closeLines_plain _ l hl

theorem counted_fold (sys : SysLog) (now : Nat → Nat) : ∀ (l : Assoc (Conn W)) (s : Server W), Assoc.Sorted l → Inv s →
    (∀ fd c, (fd, c) ∈ l → s.conns.get fd = some c) →
    Counted s.conns.length (reapFoldLines sys now l s) (l.foldl (reapOne now) s).conns.length
  | [], s, _, _, _ => .nil _
  | (fd, c) :: l, s, hl, hi, hm => by
    have hc := hm fd c (by simp)
    rw [Assoc.Sorted, List.pairwise_cons] at hl
    rw [List.foldl_cons, reapFoldLines]
    by_cases ht : c.sim.hasTimedOut (now fd) = true
    · have e : reapOne now s (fd, c) = s.dropped fd c.file := by
        simp only [reapOne, ht, if_true]
        exact remove_erase (hi.isOpen hc)
      rw [e, reapOneLines, if_pos (show c.sim.hasTimedOut (now fd) = true from ht)]
      have hd := Assoc.length_del_of_get hi.sorted hc
      have e : s.conns.length = (s.dropped fd c.file).conns.length + 1 := by simp only [dropped]; omega
      rw [e]
      refine Counted.append (.ended _ (.inr (.inr ⟨_, rfl⟩)) (.plain fun x hx => ?_))
        (counted_fold sys now l _ hl.2 (hi.dropped hc) ?_)
      · rcases List.mem_append.mp hx with hx | hx
        · exact removeLines_plain _ _ _ _ x hx
        · exact closeLines_plain _ x hx
      · intro fd' c' hx
        have hlt := hl.1 _ hx
        simp only at hlt
        simp only [dropped]
        rw [Assoc.get_del_ne _ (by omega)]
        exact hm _ _ (List.mem_cons_of_mem _ hx)
    · have e : reapOne now s (fd, c) = s := by simp [reapOne, ht]
      rw [e, reapOneLines, if_neg (show ¬ c.sim.hasTimedOut (now fd) = true from ht)]
      exact counted_fold sys now l s hl.2 hi fun fd' c' hx => hm _ _ (List.mem_cons_of_mem _ hx)

theorem counted_events {cfg : Cfg W} (sys : SysLog) : ∀ (evs : List PollEv) {s s' : Server W}, Inv s →
    handleEvents cfg evs s = .ok s' → Counted s.conns.length (eventsLines cfg sys evs s) s'.conns.length
  | [], s, s', _, h => by cases h; exact .nil _
  | ev :: evs, s, s', hi, h => by
    rw [handleEvents] at h
    obtain ⟨s1, h1, h2⟩ := Outcome.bind_eq_ok.1 h
    rw [eventsLines, h1]
    exact Counted.append (counted_event sys hi h1) (counted_events sys evs ((hi.step h1).inv hi) h2)

theorem stops_conns (rs : List StopReason) : ∀ s : Server W, (rs.foldl stop s).conns = s.conns := by
  induction rs with
  | nil => intro s; rfl
  | cons r rs ih => intro s; exact ih (s.stop r)

theorem counted_iteration {cfg : Cfg W} (sys : SysLog) {s s' : Server W} {it : Iter} (hi : Inv s)
    (h : s.iteration cfg it = .ok s') : Counted s.conns.length (s.iterationLines cfg sys it) s'.conns.length := by
  have h0 : Counted s.conns.length (s.reapLines sys it.now) (s.reapIdle it.now).conns.length :=
    counted_fold sys it.now s.conns s hi.sorted hi fun _ _ hx => Assoc.mem_get hi.sorted hx
  rw [iterationLines]
  refine h0.append ?_
  rw [iteration] at h
  simp only at h ⊢
  cases hp : (if (s.reapIdle it.now).poller.created = true then it.poll else none) with
  | none =>
    rw [hp] at h
    cases h
    rw [stops_conns]
    exact .nil _
  | some evs =>
    rw [hp] at h
    obtain ⟨s1, h1, h2⟩ := Outcome.bind_eq_ok.1 h
    cases h2
    rw [stops_conns]
    exact counted_events sys evs (hi.reap it.now) h1

theorem counted_run {cfg : Cfg W} (sys : SysLog) : ∀ (its : List Iter) {s s' : Server W}, Inv s →
    (run cfg its s = .running s' ∨ ∃ unused, run cfg its s = .returned s' unused) →
    Counted s.conns.length (runLines cfg sys its s) s'.conns.length := by
  have last : ∀ s : Server W, Counted s.conns.length [(.info, s.shutdownLine)] s.conns.length := fun s =>
    .plain fun l hl => by
      rw [List.mem_singleton] at hl
      subst hl
      exact plain_of_key (k := (.info, b!"server shut")) rfl (by decide)
  intro its
  induction its with
  | nil =>
    intro s s' hi h
    rw [run] at h
    rw [runLines]
    split at h
    · rename_i ht
      rw [if_pos ht]
      rcases h with h | ⟨_, h⟩ <;> cases h
      exact last s
    · rename_i ht
      rw [if_neg ht]
      rcases h with h | ⟨_, h⟩ <;> cases h
      exact .nil _
  | cons it its ih =>
    intro s s' hi h
    rw [run] at h
    rw [runLines]
    split at h
    · rename_i ht
      rw [if_pos ht]
      rcases h with h | ⟨_, h⟩ <;> cases h
      exact last s
    · rename_i ht
      rw [if_neg ht]
      rcases hx : s.iteration cfg it with s1 | e | u <;> simp only [hx] at h ⊢
      · exact (counted_iteration sys hi hx).append
          (ih ((iteration_reach (P := anyEv) (fun _ _ _ _ => trivial) hx).inv hi) h)
      · rcases h with h | ⟨_, h⟩ <;> cases h
      · rcases h with h | ⟨_, h⟩ <;> cases h

/-! ### Complaints about the poller (C162) -/

/-- C162, refuted: whenever a connection ends with a hang-up or an error, the server complains that the descriptor
cannot be removed from the poller, because it has closed the socket before. -/
theorem C162_refuted {cfg : Cfg W} {s : Server W} (h : Serves cfg s) (sys : SysLog) {ev : PollEv} {c : Conn W}
    (hl : ev.fd ≠ s.listener) (hc : s.conns.get ev.fd = some c)
    (he : hasEvent ev.events .error = true ∨ hasEvent ev.events .hangup = true) :
    ∃ d, IsDecimal ev.fd d ∧ written 2 (s.eventLines cfg sys ev) =
      [(.warn, b!"epoll_ctl: DEL failed (fd: " ++ d ++ b!"): " ++ sys.strerror .badf)] := by
  refine ⟨_, Sim.decimal_spec ev.fd, ?_⟩
  rw [eventLines, if_neg hl, connectionLines, hc]
  simp only
  rw [if_pos (by simpa using he), written_quiet (by decide), closeLines, List.cons_append, written_quiet (by decide)]
  have hn : (s.erase ev.fd).os.files.has ev.fd = false := by
    simp [erase, Os.close, h.inv.isOpen hc, Assoc.has]
  have : ((if (s.erase ev.fd).poller.created = true then (s.erase ev.fd).os.ctl .del ev.fd 0 false
      else (false, (s.erase ev.fd).os)).1) = false := by
    split
    · simp [Os.ctl, hn]
    · rfl
  simp only [List.nil_append, removeLines, EPoll.removeLines]
  split
  · rename_i hx; rw [hx] at this; cases this
  · simp only [ctlError, hn, Bool.not_false, Bool.or_true, if_true]
    rw [written_loud (by decide)]
    rfl

theorem Inv.setLines_quiet {s : Server W} (hi : Inv s) (sys : SysLog) (hcr : s.poller.created = true) {fd : Nat}
    (ho : s.os.files.get fd ≠ none) (events : PollEvents) : s.setLines sys fd events false = [] := by
  have ho : s.os.files.has fd = true := by
    rcases hx : s.os.files.get fd with _ | v
    · exact absurd hx ho
    · exact (Assoc.has_iff _ _).2 ⟨_, hx⟩
  have ht : s.poller.table.has fd = s.os.interest.has fd := by
    rw [Assoc.has, Assoc.has, hi.table fd]
    cases s.poller.table.get fd <;> rfl
  simp only [setLines, EPoll.setLines]
  cases h : s.os.interest.has fd <;> simp [Os.ctl, hcr, ho, ht, h]

theorem removeLines_quiet {s : Server W} (sys : SysLog) (hcr : s.poller.created = true) {fd : Nat}
    (ho : s.os.files.get fd ≠ none) (hr : s.os.interest.get fd ≠ none) : s.removeLines sys fd = [] := by
  have ho : s.os.files.has fd = true := by
    rcases hx : s.os.files.get fd with _ | v
    · exact absurd hx ho
    · exact (Assoc.has_iff _ _).2 ⟨_, hx⟩
  have hr : s.os.interest.has fd = true := by
    rcases hx : s.os.interest.get fd with _ | v
    · exact absurd hx hr
    · exact (Assoc.has_iff _ _).2 ⟨_, hx⟩
  simp [removeLines, EPoll.removeLines, Os.ctl, hcr, ho, hr]

theorem closeLines_ok (fd : Nat) : ∀ l ∈ closeLines fd, ¬ Complaint l := by
  intro l hl
  rw [closeLines, List.mem_singleton] at hl
  subst hl
  exact not_complaint (fun h => by cases h)

theorem peerLines_ok (sys : SysLog) (fd : Nat) : ∀ l ∈ sys.peerLines fd, ¬ Complaint l := by
  intro l hl
  simp only [SysLog.peerLines] at hl
  split at hl
  · rw [List.mem_singleton] at hl
    subst hl
    exact not_complaint (fun h => by cases h)
  · rw [List.mem_singleton] at hl
    subst hl
    exact not_complaint (fun h => by cases h)
  · cases hl

theorem tryAcceptLines_ok (sys : SysLog) (s : Server W) (a : AcceptRes) :
    ∀ l ∈ s.tryAcceptLines sys a, ¬ Complaint l := by
  intro l hl
  cases a with
  | again => cases hl
  | fail => cases hl
  | client fd nb tr now =>
    simp only [tryAcceptLines] at hl
    split at hl
    · cases hl
    · split at hl
      · exact closeLines_ok _ l hl
      · split at hl
        · rw [List.mem_singleton] at hl
          subst hl
          exact not_complaint (fun h => by cases h)
        · cases hl

theorem ok_append {a b : List Line} (ha : ∀ l ∈ a, ¬ Complaint l) (hb : ∀ l ∈ b, ¬ Complaint l) :
    ∀ l ∈ a ++ b, ¬ Complaint l := by
  intro l hl
  rcases List.mem_append.mp hl with hl | hl
  · exact ha l hl
  · exact hb l hl

theorem ok_cons {x : Line} {b : List Line} (ha : lineKey x ≠ (.warn, b!"epoll_ctl: ")) (hb : ∀ l ∈ b, ¬ Complaint l) :
    ∀ l ∈ x :: b, ¬ Complaint l := by
  intro l hl
  rcases List.mem_cons.mp hl with rfl | hl
  · exact not_complaint ha
  · exact hb l hl

theorem establishLines_ok {s : Server W} (hi : Inv s) (sys : SysLog) (hcr : s.poller.created = true) {ev : PollEv}
    (hlen : s.conns.length < 128) (hf : ev.ctlFails1 = false) : ∀ l ∈ s.establishLines sys ev, ¬ Complaint l := by
  rw [establishLines]
  refine ok_append (tryAcceptLines_ok _ _ _) ?_
  split
  · rename_i fd s1 ha
    refine ok_append (peerLines_ok _ _) (ok_cons (fun h => by cases h) ?_)
    split
    · rename_i fd' nb tr now hacc
      rw [hacc, tryAccept] at ha
      split at ha
      · cases ha
      · rename_i hfree
        split at ha
        · cases ha
        · cases ha
          split
          · exact closeLines_ok _
          · refine ok_cons (fun h => by cases h) ?_
            have hfree : s.os.files.get fd = none := (Assoc.has_false_iff _ _).1 (by simpa using hfree)
            have hi' := hi.accept hfree hlen (Sim.init s.world now)
            rw [hf]
            simp only [Os.install] at hi'
            simp only [Os.install, Nat.add_sub_cancel]
            rw [hi'.setLines_quiet sys hcr (by simp)]
            exact nofun
    · exact nofun
  · exact nofun

/-- C162, what holds: if the kernel refuses nothing, no other event is complained about. -/
theorem C162_event_partial {cfg : Cfg W} {s : Server W} (h : ServesWell cfg s) (sys : SysLog) {ev : PollEv}
    (hev : registers ev) :
    (∃ l ∈ s.eventLines cfg sys ev, Complaint l) ↔
      ev.fd ≠ s.listener ∧ s.conns.get ev.fd ≠ none ∧
        (hasEvent ev.events .error = true ∨ hasEvent ev.events .hangup = true) := by
  have hi := h.serves.inv
  have hcr := h.watched.created
  constructor
  · rintro ⟨l, hl, hx⟩
    rw [eventLines] at hl
    split at hl
    · exfalso
      rw [incomingLines] at hl
      split at hl
      · rename_i hlen
        exact establishLines_ok hi sys hcr hlen hev.1 l hl hx
      · refine ok_append (tryAcceptLines_ok _ _ _) ?_ l hl hx
        split
        · exact ok_append (peerLines_ok _ _) (ok_cons (fun h => by cases h) (closeLines_ok _))
        · exact nofun
    · rename_i hfd
      rw [connectionLines] at hl
      split at hl
      · cases hl
      · rename_i c hc
        refine ⟨hfd, by rw [hc]; nofun, ?_⟩
        split at hl
        · rename_i he; simpa using he
        · exfalso
          split at hl
          · cases hl
          · have ho : s.os.files.get ev.fd ≠ none := by rw [hi.isOpen hc]; nofun
            have hb : (if hasEvent ev.events .write = true then s.pollSet ev.fd .read ev.ctlFails1 else s) = s.before ev := rfl
            have hib := hi.before hc
            have hcb : (s.before ev).poller.created = true := by rw [(before_same s ev).2.2.2.2.2, hcr]
            have hob : (s.before ev).os.files.get ev.fd ≠ none := by
              rw [hib.isOpen (by rw [(before_same s ev).1]; exact hc)]; nofun
            rw [hb, hev.1, hev.2] at hl
            refine ok_append ?_ ?_ l hl hx
            · split
              · rw [hi.setLines_quiet sys hcr ho]; exact nofun
              · exact nofun
            · simp only
              split
              · exact ok_cons (fun h => by cases h) (by rw [hib.setLines_quiet sys hcb hob]; exact nofun)
              · refine ok_cons (fun h => by cases h) (ok_append ?_ (closeLines_ok _))
                have hr : s.os.interest.get ev.fd ≠ none := (C60_registered_partial h _).2 (.inr ⟨c, hc⟩)
                rw [removeLines_quiet sys hcb hob]
                · exact nofun
                · rw [Server.before]
                  split
                  · rw [hi.pollSet_eq ho]
                    split
                    · simp
                    · exact hr
                  · exact hr
              · exact nofun
  · rintro ⟨hl, hc, he⟩
    obtain ⟨c, hc⟩ := Option.ne_none_iff_exists'.mp hc
    obtain ⟨d, -, hd⟩ := C162_refuted h.serves sys hl hc he
    have hm : (Level.warn, b!"epoll_ctl: DEL failed (fd: " ++ d ++ b!"): " ++ sys.strerror .badf) ∈
        written 2 (s.eventLines cfg sys ev) := by rw [hd]; exact List.mem_cons_self ..
    exact ⟨_, (List.mem_filter.mp hm).1, b!"DEL failed (fd: " ++ d ++ b!"): " ++ sys.strerror .badf, rfl⟩

theorem reapFold_ok (sys : SysLog) (now : Nat → Nat) : ∀ (l : Assoc (Conn W)) (s : Server W), Assoc.Sorted l → Inv s →
    Watched s → (∀ fd c, (fd, c) ∈ l → s.conns.get fd = some c) →
    ∀ x ∈ reapFoldLines sys now l s, ¬ Complaint x
  | [], s, _, _, _, _ => nofun
  | (fd, c) :: l, s, hl, hi, hw, hm => by
    have hc := hm fd c (by simp)
    rw [Assoc.Sorted, List.pairwise_cons] at hl
    rw [reapFoldLines]
    by_cases ht : c.sim.hasTimedOut (now fd) = true
    · have e : reapOne now s (fd, c) = s.dropped fd c.file := by
        simp only [reapOne, ht, if_true]
        exact remove_erase (hi.isOpen hc)
      rw [e, reapOneLines, if_pos (show c.sim.hasTimedOut (now fd) = true from ht)]
      refine ok_append (ok_cons (fun h => by cases h) (ok_append ?_ (closeLines_ok _)))
        (reapFold_ok sys now l _ hl.2 (hi.dropped hc) (hw.dropped hi hc) ?_)
      · rw [removeLines_quiet sys hw.created (by rw [hi.isOpen hc]; nofun)]
        · exact nofun
        · rw [hi.table]
          rcases hw.conns fd c hc with h1 | ⟨h1, _⟩ <;> simp [h1]
      · intro fd' c' hx
        have hlt := hl.1 _ hx
        simp only at hlt
        simp only [dropped]
        rw [Assoc.get_del_ne _ (by omega)]
        exact hm _ _ (List.mem_cons_of_mem _ hx)
    · have e : reapOne now s (fd, c) = s := by simp [reapOne, ht]
      rw [e, reapOneLines, if_neg (show ¬ c.sim.hasTimedOut (now fd) = true from ht)]
      exact reapFold_ok sys now l s hl.2 hi hw fun fd' c' hx => hm _ _ (List.mem_cons_of_mem _ hx)

/-- C162: nor is the closing of idle connections. -/
theorem C162_reap_partial {cfg : Cfg W} {s : Server W} (h : ServesWell cfg s) (sys : SysLog) (now : Nat → Nat) :
    ∀ l ∈ s.reapLines sys now, ¬ Complaint l :=
  reapFold_ok sys now s.conns s h.serves.inv.sorted h.serves.inv h.watched fun _ _ hx =>
    Assoc.mem_get h.serves.inv.sorted hx

/-- A system for the examples. -/
def exSys : SysLog :=
  ⟨fun e => if e = .badf then b!"Bad file descriptor" else b!"other", fun _ => .inet 127 0 0 1, fun _ => [], fun _ => 0,
    fun _ => none⟩

/-- Two clients, of which the second hangs up; what it leaves at level info and above. -/
example : ∃ s, ServesWell Sim.exCfg s ∧ (s.conns.get 6).isSome = true ∧
    written 2 (s.eventLines Sim.exCfg exSys { fd := 6, events := .hangup }) =
      [(.warn, b!"epoll_ctl: DEL failed (fd: 6): Bad file descriptor")] := by
  obtain ⟨s, h1, h2⟩ := Shows.well (cfg := Sim.exCfg) (w := 0) (listener := 3) (evs := [exAccept 5, exAccept 6])
    (p := fun s => (s.conns.get 6).isSome &&
      (written 2 (s.eventLines Sim.exCfg exSys { fd := 6, events := .hangup }) ==
        [(.warn, b!"epoll_ctl: DEL failed (fd: 6): Bad file descriptor")]))
    (by decide +kernel) (by simp [exAccept, registers])
  simp only [Bool.and_eq_true, beq_iff_eq] at h2
  exact ⟨s, h1, h2⟩

/-! ### Counting connections (C163) -/

theorem counted_opened {n m : Nat} {ls : List Line} {d : Bytes}
    (h : Counted n ((.info, b!"HTTP connection established. total = " ++ d) :: ls) m) :
    IsDecimal (n + 1) d ∧ Counted (n + 1) ls m := by
  generalize hx : (Level.info, b!"HTTP connection established. total = " ++ d) = x at h
  generalize hy : x :: ls = y at h
  cases h with
  | nil => cases hy
  | other l h1 h2 h3 => cases hy; exact absurd ⟨d, hx.symm⟩ h1
  | opened d' hd h3 =>
    obtain ⟨e1, rfl⟩ := List.cons.inj hy
    rw [← hx] at e1
    have : d = d' := List.append_cancel_left (Prod.mk.inj e1).2
    subst this
    exact ⟨hd, h3⟩
  | ended l h1 h3 =>
    obtain ⟨rfl, rfl⟩ := List.cons.inj hy
    subst hx
    exact absurd h1 (not_ending (fun h => by cases h) (fun h => by cases h) (fun h => by cases h))

theorem counted_other {n m : Nat} {ls : List Line} {l : Line} (h : Counted n (l :: ls) m) (hp : Plain l) :
    Counted n ls m := by
  cases h with
  | other l h1 h2 h3 => exact h3
  | opened d hd h3 => exact absurd ⟨d, rfl⟩ hp.1
  | ended l h1 h3 => exact absurd h1 hp.2

/-- A client connects, it hangs up, and another connects. -/
def exHangup : List Iter :=
  [{ poll := some [exAccept 5] }, { poll := some [{ fd := 5, events := .hangup }] }, { poll := some [exAccept 5] }]

/-- C163, refuted: at level info, which is the default, the connections cannot be counted: one that ends with a hang-up
leaves no line that says so. -/
theorem C163_refuted : ∃ s', run Sim.exCfg exHangup (begin 0 3 true false) = .running s' ∧
    ¬ ∃ m, Counted 0 (written 2 (runLines Sim.exCfg exSys exHangup (begin 0 3 true false))) m := by
  have h1 : (match run Sim.exCfg exHangup (begin 0 3 true false) with
    | .running _ => true
    | _ => false) = true := by decide +kernel
  have h2 : written 2 (runLines Sim.exCfg exSys exHangup (begin 0 3 true false)) =
      [(.info, b!"client connected (ip: 127.0.0.1)"), (.info, b!"HTTP connection established. total = " ++ b!"1"),
        (.warn, b!"epoll_ctl: DEL failed (fd: 5): Bad file descriptor"), (.info, b!"client connected (ip: 127.0.0.1)"),
        (.info, b!"HTTP connection established. total = " ++ b!"1")] := by decide +kernel
  split at h1
  · rename_i s' hs
    refine ⟨s', hs, ?_⟩
    rintro ⟨m, h⟩
    rw [h2] at h
    have h := counted_other h (plain_of_key (k := (.info, b!"client conn")) rfl (by decide))
    have h := (counted_opened h).2
    have h := counted_other h (plain_of_key (k := (.warn, b!"epoll_ctl: ")) rfl (by decide))
    have h := counted_other h (plain_of_key (k := (.info, b!"client conn")) rfl (by decide))
    have := Sim.decimal_unique _ (counted_opened h).1 (Sim.decimal_spec 2)
    revert this
    decide +kernel
  · cases h1

/-- C163, what holds: at level debug they can, whatever happens, from any state of the server on. -/
theorem C163_debug_partial {cfg : Cfg W} {s s' : Server W} (h : Serves cfg s) (sys : SysLog) (its : List Iter)
    (hr : run cfg its s = .running s' ∨ ∃ unused, run cfg its s = .returned s' unused) :
    Counted s.conns.length (written 1 (runLines cfg sys its s)) s'.conns.length :=
  (counted_run sys its h.inv hr).debug

/-- What this run leaves at level debug. -/
example : written 1 (runLines Sim.exCfg exSys exHangup (begin 0 3 true false)) =
    [(.info, b!"client connected (ip: 127.0.0.1)"), (.info, b!"HTTP connection established. total = 1"),
      (.debug, b!"poll indicated connection closed"),
      (.warn, b!"epoll_ctl: DEL failed (fd: 5): Bad file descriptor"), (.info, b!"client connected (ip: 127.0.0.1)"),
      (.info, b!"HTTP connection established. total = 1")] := by decide +kernel

end Server
end Ion
