import Verif.Props.FrameLog
import Verif.Props.ConnEnd
import Verif.Props.ConnDiscard
import Verif.Spec.ConnLog

/-! # The log says why a connection was given up (C164) -/

namespace Ion
open Spec

/-! ### What the transports log -/

theorem _root_.Ion.Spec.OneError.yes {P : Prop} {ls : List Line} {text : Bytes} (h1 : P) (h2 : written 3 ls = [(.err, text)]) :
    OneError P ls := ⟨fun _ => ⟨_, h2⟩, fun h => absurd h1 h⟩

theorem _root_.Ion.Spec.OneError.no {P : Prop} {ls : List Line} (h1 : ¬ P) (h2 : written 3 ls = []) : OneError P ls :=
  ⟨fun h => absurd h h1, fun _ => h2⟩

/-- C164: a TCP transport logs an error for every operation that fails for good, and no other warnings or errors. -/
theorem C164_tcp (why : Bytes) (size t : Nat) :
    (∀ r, OneError (∃ e, tcpRead r t = .fail e ∧ Grave e) (tcpReadLines why r)) ∧
    (∀ r, OneError (∃ e, tcpWrite size r t = .fail e ∧ Grave e) (tcpWriteLines why size r)) := by
  refine ⟨fun r => ?_, fun r => ?_⟩
  · cases r with
    | again => exact .no (by simp [tcpRead, Grave]) rfl
    | error => exact .yes ⟨_, rfl, by simp [Grave]⟩ rfl
    | got bs =>
      by_cases h : bs.length = 0
      · refine .no (by simp [tcpRead, h, Grave]) ?_
        rw [tcpReadLines, written_quiet (by decide)]
        simp only [h, if_true]
        rfl
      · refine .no (by simp [tcpRead, h]) ?_
        rw [tcpReadLines, written_quiet (by decide)]
        simp only [h, if_false]
        rfl
  · cases r with
    | again => exact .no (by simp [tcpWrite, Grave]) rfl
    | error => exact .yes ⟨_, rfl, by simp [Grave]⟩ rfl
    | sent n =>
      by_cases h : n = size
      · refine .no (by simp [tcpWrite, h]) ?_
        simp only [tcpWriteLines, h, ne_eq, not_true, if_false]
        rfl
      · refine .yes (text := b!"TCP partial write: wrote " ++ decimal n ++ b!" of " ++ decimal size ++ b!" bytes")
          ⟨.writeError, by simp [tcpWrite, h], by simp [Grave]⟩ ?_
        simp only [tcpWriteLines, ne_eq, h, not_false_eq_true, if_true]
        rfl

/-- C164: so does a TLS transport, for the handshake as well. -/
theorem C164_tls (code size t : Nat) (why : Bytes) :
    (∀ r, OneError (∃ e, tlsHandshake r t = .fail e ∧ Grave e) (tlsHandshakeLines code why r)) ∧
    (∀ r, OneError (∃ e, tlsRead r t = .fail e ∧ Grave e) (tlsReadLines code r)) ∧
    (∀ r, OneError (∃ e, tlsWrite size r t = .fail e ∧ Grave e) (tlsWriteLines code size r)) := by
  refine ⟨fun r => ?_, fun r => ?_, fun r => ?_⟩
  · rcases r with _ | (_ | _ | _ | (_ | _) | _)
    · exact .no (by simp [tlsHandshake]) rfl
    · exact .no (by simp [tlsHandshake, Grave]) rfl
    · exact .no (by simp [tlsHandshake, Grave]) rfl
    · exact .no (by simp [tlsHandshake, Grave]) rfl
    · exact .yes ⟨_, rfl, by simp [Grave]⟩ rfl
    · exact .no (by simp [tlsHandshake, Grave]) rfl
    · exact .yes ⟨_, rfl, by simp [Grave]⟩ rfl
  · rcases r with bs | (_ | _ | _ | _ | _)
    · exact .no (by simp [tlsRead]) rfl
    · exact .no (by simp [tlsRead, Grave]) rfl
    · exact .no (by simp [tlsRead, Grave]) rfl
    · exact .no (by simp [tlsRead, Grave]) rfl
    · exact .yes ⟨_, rfl, by simp [Grave]⟩ rfl
    · exact .yes ⟨_, rfl, by simp [Grave]⟩ rfl
  · rcases r with n | (_ | _ | _ | _ | _)
    · by_cases h : n = size
      · refine .no (by simp [tlsWrite, h]) ?_
        simp only [tlsWriteLines, h, ne_eq, not_true, if_false]
        rfl
      · refine .yes (text := b!"SSL partial write: wrote " ++ decimal n ++ b!" of " ++ decimal size ++ b!" bytes")
          ⟨.writeError, by simp [tlsWrite, h], by simp [Grave]⟩ ?_
        simp only [tlsWriteLines, ne_eq, h, not_false_eq_true, if_true]
        rfl
    · exact .no (by simp [tlsWrite, Grave]) rfl
    · exact .no (by simp [tlsWrite, Grave]) rfl
    · exact .no (by simp [tlsWrite, Grave]) rfl
    · exact .yes ⟨_, rfl, by simp [Grave]⟩ rfl
    · exact .yes ⟨_, rfl, by simp [Grave]⟩ rfl

namespace Sim
variable {W : Type}

theorem errorNumber_spec (e : TErr) : IsDecimal (errorNumber e) (decimal e.code) := by
  rw [show errorNumber e = e.code by cases e <;> rfl]
  exact decimal_spec _

/-! ### What has been said stays true -/

theorem _root_.Ion.Spec.Cause.append {cfg : Cfg W} {w : W} {tr : List Ev} {text : Bytes} (h : Cause cfg w tr text)
    (es : List Ev) : Cause cfg w (tr ++ es) text := by
  cases h with
  | preface h1 h2 =>
    refine .preface (by rw [received_append, List.length_append]; omega) ?_
    rw [received_append]
    intro hc
    exact h2 (List.prefix_of_prefix_length_le hc (List.prefix_append _ _)
      (by have : Spec.preface.length = 24 := by decide
          omega))
  | read h => exact .read (List.mem_append_left _ h)
  | write a e d h1 h2 h3 => exact .write a e d (List.mem_append_left _ h1) h2 h3
  | frame ins post f calls answers T w' _ h1 h2 h3 =>
    exact .frame ins (post ++ frames es) f calls answers T w' _ (by rw [frames_append, h1]; simp) h2 h3
  | big ins post v rest _ h1 h2 h3 h4 =>
    refine .big ins (post ++ frames es) v (rest ++ received es) _ (by rw [frames_append, h1]; simp) h2
      (by rw [received_append, h3]; simp) ?_
    obtain ⟨len, more, d, rfl, k⟩ := h4
    exact ⟨len, more ++ received es, d, by simp, k⟩

theorem _root_.Ion.Spec.Alarm.append {cfg : Cfg W} {app : AppLog W} {w : W} {tr : List Ev} {l : Line}
    (h : Alarm cfg app w tr l) (es : List Ev) : Alarm cfg app w (tr ++ es) l := by
  cases h with
  | cause v text h => exact .cause v text (h.append es)
  | closing text h => exact .closing text (h.append es)
  | readWrite h => exact .readWrite (List.mem_append_left _ h)
  | readOther h => exact .readOther (List.mem_append_left _ h)
  | netRead e text h1 h2 => exact .netRead e text (List.mem_append_left _ h1) h2
  | netWrite a e text h1 h2 => exact .netWrite a e text (List.mem_append_left _ h1) h2
  | missing hs status size h1 h2 =>
    exact .missing hs status size (by rw [logs_append]; exact List.mem_append_left _ h1) h2
  | threw req w' h => exact .threw req w' (by rw [handled_append]; exact List.mem_append_left _ h)
  | handler req out w' _ h1 h2 => exact .handler req out w' _ (by rw [handled_append]; exact List.mem_append_left _ h1) h2

/-- The log of a connection: it says why the connection has failed, if it has, and all its alarms are in place. -/
structure Told (cfg : Cfg W) (app : AppLog W) (w : W) (lines : List Line) (s : Sim W) : Prop where
  why : s.st = .protocolError → ∃ l ∈ written 3 lines, Cause cfg w s.trace l.2
  only : ∀ l ∈ written 3 lines, Alarm cfg app w s.trace l

theorem Told.add {cfg : Cfg W} {app : AppLog W} {w : W} {lines ls : List Line} {s s' : Sim W}
    (h : Told cfg app w lines s) {es : List Ev} (ht : s'.trace = s.trace ++ es)
    (hw : s'.st = .protocolError → s.st = .protocolError ∨ ∃ l ∈ written 3 ls, Cause cfg w s'.trace l.2)
    (ho : ∀ l ∈ written 3 ls, Alarm cfg app w s'.trace l) : Told cfg app w (lines ++ ls) s' := by
  refine ⟨fun hp => ?_, fun l hl => ?_⟩
  · rw [written_append]
    rcases hw hp with hp | ⟨l, h1, h2⟩
    · obtain ⟨l, h1, h2⟩ := h.why hp
      exact ⟨l, List.mem_append_left _ h1, by rw [ht]; exact h2.append es⟩
    · exact ⟨l, List.mem_append_right _ h1, h2⟩
  · rw [written_append] at hl
    rcases List.mem_append.mp hl with hl | hl
    · rw [ht]; exact (h.only l hl).append es
    · exact ho l hl

theorem Told.quiet {cfg : Cfg W} {app : AppLog W} {w : W} {lines ls : List Line} {s s' : Sim W}
    (h : Told cfg app w lines s) {es : List Ev} (ht : s'.trace = s.trace ++ es)
    (hst : s'.st = .protocolError → s.st = .protocolError) (hq : written 3 ls = []) :
    Told cfg app w (lines ++ ls) s' :=
  h.add ht (fun hp => .inl (hst hp)) (by rw [hq]; nofun)

theorem stateLines_quiet3 (s : Sim W) (st : CState) : written 3 (s.stateLines st) = [] := by
  rw [← written_written (n := 2) (by decide), stateLines_quiet]; rfl

/-! ### The transport -/

theorem flushLines_failed (net : NetLog) {s : Sim W} {e : TErr} (hw : ¬ s.wbuf = [])
    (hr : s.writes.headD (.fail .wantReadOrWrite) = .fail e) (he : ¬ e = .wantReadOrWrite) :
    s.flushLines net = net.write s.wbuf s.writes ++
      (.err, b!"failed to flush write buffer: error: " ++ decimal e.code) :: s.stateLines .protocolError := by
  rw [flushLines, if_neg hw, hr]
  cases e with
  | wantReadOrWrite => exact absurd rfl he
  | _ => rfl

theorem flush_told {cfg : Cfg W} {app : AppLog W} {w : W} {lines : List Line} {net : NetLog} (hn : Sincere net)
    {s s' : Sim W} (i : Told cfg app w lines s) (h : s.flush = .ok s') :
    Told cfg app w (lines ++ s.flushLines net) s' := by
  unfold flush at h
  split at h
  · rename_i hw
    cases h
    rw [flushLines, if_pos hw]
    exact i.quiet (es := []) (by simp) (fun hp => hp) rfl
  · rename_i hw
    have hn := hn.write s.wbuf s.writes
    simp only [emit, updateState] at h
    cases hws : s.writes.headD (.fail .wantReadOrWrite) with
    | wrote n t =>
      rw [hws] at h
      simp only at h
      by_cases hb : n > s.wbuf.length
      · simp only [hb, if_true] at h; cases h
      · simp only [hb, if_false] at h
        cases h
        refine i.quiet rfl (fun hp => hp) ?_
        rw [flushLines, if_neg hw, hws, written_append, hn.2, written_quiet (by decide)]
        · rfl
        · rintro ⟨e, h1, -⟩
          cases hwr : s.writes with
          | nil => rw [hwr] at h1; cases h1
          | cons x xs => rw [hwr] at h1 hws; cases h1; cases hws
    | fail e =>
      by_cases he : e = .wantReadOrWrite
      · subst he
        rw [hws] at h
        cases h
        refine i.quiet rfl (fun hp => hp) ?_
        rw [flushLines, if_neg hw, hws, written_append, hn.2, written_quiet (by decide)]
        · rfl
        · rintro ⟨e, h1, h2⟩
          cases hwr : s.writes with
          | nil => rw [hwr] at h1; cases h1
          | cons x xs => rw [hwr] at h1 hws; cases h1; cases hws; exact h2.1 rfl
      · have hs' : s' = { s with st := .protocolError, writes := s.writes.tail, trace := s.trace ++ [.write s.wbuf (.fail e)] } := by
          rw [hws] at h
          cases e with
          | wantReadOrWrite => exact absurd rfl he
          | _ => cases h; rfl
        subst hs'
        rw [flushLines_failed net hw hws he]
        have hmem : ∀ es, Ev.write s.wbuf (.fail e) ∈ s.trace ++ (Ev.write s.wbuf (.fail e) :: es) := by simp
        have hc : Cause cfg w (s.trace ++ [Ev.write s.wbuf (.fail e)])
            (b!"failed to flush write buffer: error: " ++ decimal e.code) :=
          .write s.wbuf e _ (hmem []) he (errorNumber_spec e)
        have h3 : written 3 ((Level.err, b!"failed to flush write buffer: error: " ++ decimal e.code) ::
            s.stateLines .protocolError) = [(.err, b!"failed to flush write buffer: error: " ++ decimal e.code)] := by
          rw [written_loud (by decide), stateLines_quiet3]
        refine i.add rfl (fun _ => .inr ⟨(.err, _), ?_, hc⟩) ?_
        · rw [written_append, h3]
          exact List.mem_append_right _ (List.mem_singleton.mpr rfl)
        · intro l hl
          rw [written_append, h3] at hl
          rcases List.mem_append.mp hl with hl | hl
          · by_cases hg : Grave e
            · have : ∃ e', s.writes.head? = some (.fail e') ∧ Grave e' := by
                refine ⟨e, ?_, hg⟩
                cases hwr : s.writes with
                | nil => rw [hwr] at hws; cases hws; exact absurd rfl he
                | cons x xs => rw [hwr] at hws; cases hws; rfl
              obtain ⟨text, ht⟩ := hn.1 this
              rw [ht, List.mem_singleton] at hl
              subst hl
              exact .netWrite s.wbuf e text (hmem []) hg
            · rw [hn.2] at hl
              · cases hl
              · rintro ⟨e', h1, h2⟩
                cases hwr : s.writes with
                | nil => rw [hwr] at h1; cases h1
                | cons x xs => rw [hwr] at h1 hws; cases h1; cases hws; exact hg h2
          · rw [List.mem_singleton] at hl
            subst hl
            exact .cause _ _ hc

theorem readFailed_told {cfg : Cfg W} {app : AppLog W} {w : W} {lines nl : List Line} {s : Sim W} {e : TErr}
    (hn : OneError (Grave e) nl) (i : Told cfg app w lines s) (rs : List ReadRes) :
    Told cfg app w (lines ++ (nl ++ s.readFailedLines e)) { s.readFailed e with reads := rs } := by
  have hm : Ev.readFail e ∈ s.trace ++ [Ev.readFail e] := by simp
  have hnl : ∀ l ∈ written 3 nl, Alarm cfg app w (s.trace ++ [Ev.readFail e]) l := by
    intro l hl
    by_cases hg : Grave e
    · obtain ⟨text, ht⟩ := hn.1 hg
      rw [ht, List.mem_singleton] at hl
      subst hl
      exact .netRead e text hm hg
    · rw [hn.2 hg] at hl; cases hl
  have out : ∀ {st : CState} {ls : List Line},
      (st = .protocolError → s.st = .protocolError ∨
        ∃ l ∈ written 3 ls, Cause cfg w (s.trace ++ [Ev.readFail e]) l.2) →
      (∀ l ∈ written 3 ls, Alarm cfg app w (s.trace ++ [Ev.readFail e]) l) →
      Told cfg app w (lines ++ (nl ++ ls)) { s with st := st, trace := s.trace ++ [.readFail e], reads := rs } := by
    intro st ls h1 h2
    refine i.add rfl (fun hp => ?_) ?_
    · rcases h1 hp with h1 | ⟨l, h1, h3⟩
      · exact .inl h1
      · exact .inr ⟨l, by rw [written_append]; exact List.mem_append_right _ h1, h3⟩
    · intro l hl
      rw [written_append] at hl
      rcases List.mem_append.mp hl with hl | hl
      · exact hnl l hl
      · exact h2 l hl
  cases e with
  | wantReadOrWrite => exact out .inl (by nofun)
  | connectionClosed =>
    refine out nofun ?_
    rw [readFailedLines, written_quiet (by decide), stateLines_quiet3]
    nofun
  | protocolError =>
    have h3 : written 3 (s.readFailedLines .protocolError) = [(.err, b!"transport protocol error")] := by
      rw [readFailedLines, written_loud (by decide), stateLines_quiet3]
    refine out (fun _ => .inr ⟨(.err, b!"transport protocol error"), ?_, .read hm⟩) ?_
    · rw [h3]; exact List.mem_singleton.mpr rfl
    · intro l hl
      rw [h3, List.mem_singleton] at hl
      subst hl
      exact .cause _ _ (.read hm)
  | writeError =>
    refine out .inl ?_
    intro l hl
    rcases List.mem_singleton.mp hl with rfl
    exact .readWrite hm
  | otherError =>
    refine out .inl ?_
    intro l hl
    rcases List.mem_singleton.mp hl with rfl
    exact .readOther hm

theorem fillLoop_told {cfg : Cfg W} {app : AppLog W} {w : W} {net : NetLog} (hn : Sincere net) (rs : List ReadRes) :
    ∀ {lines : List Line} {s : Sim W}, Told cfg app w lines s →
      Told cfg app w (lines ++ fillLoopLines net rs s) (fillLoop rs s) := by
  induction rs with
  | nil =>
    intro lines s i
    simp only [fillLoopLines, fillLoop]
    by_cases hf : s.rbuf.length + tempReadBufferSize ≥ maxReadBufferSize
    · rw [if_pos hf, if_pos hf]
      exact i.quiet (es := []) (by simp) (fun hp => hp) rfl
    · rw [if_neg hf, if_neg hf]
      have k := hn.read []
      have no : ¬ ∃ e, ([] : List ReadRes).head? = some (.fail e) ∧ Grave e := by rintro ⟨e, h, -⟩; cases h
      exact readFailed_told ⟨fun h => absurd rfl h.1, fun _ => k.2 no⟩ i _
  | cons r rs ih =>
    intro lines s i
    simp only [fillLoopLines, fillLoop]
    by_cases hf : s.rbuf.length + tempReadBufferSize ≥ maxReadBufferSize
    · rw [if_pos hf, if_pos hf]
      exact i.quiet (es := []) (by simp) (fun hp => hp) rfl
    · rw [if_neg hf, if_neg hf]
      have k := hn.read (r :: rs)
      cases r with
      | fail e =>
        refine readFailed_told ⟨fun h => k.1 ⟨e, rfl, h⟩, fun h => k.2 ?_⟩ i _
        rintro ⟨e', h1, h2⟩
        cases h1
        exact h h2
      | data bs t =>
        have no : ¬ ∃ e, (ReadRes.data bs t :: rs).head? = some (.fail e) ∧ Grave e := by rintro ⟨e, h, -⟩; cases h
        have j : Told cfg app w (lines ++ (net.read (.data bs t :: rs) ++
            [((.trace : Level), b!"read " ++ decimal bs.length ++ b!" bytes, buffer size now " ++
              decimal (s.rbuf ++ bs).length)]))
            ({ s with last := t, rbuf := s.rbuf ++ bs }.emit (.read bs t)) :=
          i.quiet rfl (fun hp => hp) (by rw [written_append, k.2 no, written_quiet (by decide)]; rfl)
        have := ih j
        simpa [List.append_assoc] using this

/-! ### Frames -/

theorem tryRead_told {cfg : Cfg W} {app : AppLog W} {w : W} {now : Nat} {lines : List Line} {s s' : Sim W} {b : Bool}
    (hs : Steps cfg false (init w now) s) (hst : s.st = .awaitingFrame) (i : Told cfg app w lines s)
    (h : s.tryReadFrame cfg = .ok (b, s')) (hw : Ready s) :
    Told cfg app w (lines ++ s.tryReadLines cfg app) s' := by
  obtain ⟨good, bad, T, w', h1, h2, h3, h4⟩ : ServedTo cfg w s :=
    Steps.inv (P := ServedTo cfg w) (fun b _ _ hb st => by
      cases b with
      | true => cases hb rfl
      | false => exact ServedTo.step st) hs (ServedTo.init ..)
  have hgood : bad = [] ∧ s.dec.WF ∧ s.dec.abs = T := by
    rcases h4 with h4 | ⟨h4, -⟩
    · exact h4
    · simp [Ended, hst] at h4
  obtain ⟨rfl, hwf, rfl⟩ := hgood
  rw [List.append_nil] at h1
  obtain ⟨passed, evs, post, inv⟩ := Inv.steps hs (Inv.init cfg w false now)
  have hp : passed = true := by
    have := inv.state
    cases passed with
    | true => rfl
    | false => simp [hst] at this
  subst hp
  have hr := inv.recv
  simp only [if_true] at hr
  obtain ⟨v, r1, r2⟩ := hr
  obtain ⟨es, he⟩ := (tryReadFrame_steps cfg false hst hw h).1.trace_mono
  rcases tryReadLines_loud app hst hwf h with ⟨k1, level, text, k2, k3, k4⟩ | ⟨k1, new, k2, k3⟩
  · have h3 : written 3 (s.tryReadLines cfg app) = [(level, text)] := by
      rw [← written_written (n := 2) (by decide), k2, written_loud k3]; rfl
    have hc : Cause cfg w s'.trace text := by
      rcases k4 with k4 | ⟨f, k4, k5⟩
      · rw [he]
        exact (Cause.big (frames s.trace) [] v s.rbuf text (by simp) r1 r2 k4).append es
      · rw [k4]
        exact .frame good [] f _ _ _ _ text (by simp [h1, frames]) h2 k5
    refine i.add he (fun _ => .inr ⟨(level, text), by rw [h3]; exact List.mem_singleton.mpr rfl, hc⟩) ?_
    intro l hl
    rw [h3, List.mem_singleton] at hl
    subst hl
    exact .cause _ _ hc
  · refine i.add k2 (fun hp => absurd hp k1) ?_
    intro l hl
    rw [← written_written (n := 2) (by decide)] at hl
    have mh : ∀ x, x ∈ handled new → x ∈ handled s'.trace := by
      intro x hx; rw [k2, handled_append]; exact List.mem_append_right _ hx
    have ml : ∀ x, x ∈ logs new → x ∈ logs s'.trace := by
      intro x hx; rw [k2, logs_append]; exact List.mem_append_right _ hx
    generalize handled new = hd, logs new = lg, written 2 (s.tryReadLines cfg app) = lines at k3 hl mh ml
    cases k3 with
    | none => cases hl
    | missing hs status size sent hm hsent =>
      rw [written_loud (by decide), written_sent hsent, List.mem_singleton] at hl
      subst hl
      exact .missing hs status size (ml _ (List.mem_singleton.mpr rfl)) hm
    | answered req r status size sent hsent =>
      rw [written_append, written_sent hsent, List.append_nil, written_written (by decide)] at hl
      exact .handler req _ _ l (mh _ (List.mem_singleton.mpr rfl)) (List.mem_filter.mp hl).1
    | threw req status size sent hsent =>
      rw [written_append, written_loud (by decide), written_sent hsent, written_written (by decide)] at hl
      rcases List.mem_append.mp hl with hl | hl
      · exact .handler req _ _ l (mh _ (List.mem_singleton.mpr rfl)) (List.mem_filter.mp hl).1
      · rw [List.mem_singleton] at hl
        subst hl
        exact .threw req _ (mh _ (List.mem_singleton.mpr rfl))

/-! ### Calls -/

/-- Along the steps of a connection, the client has ended a connection that counts as closed by it. -/
theorem Steps.clientEnded {cfg : Cfg W} {w : W} {now : Nat} {s : Sim W} (h : Steps cfg false (init w now) s)
    (hs : s.st = .clientClosed) : ClientEnded s.trace := by
  refine (Steps.inv (P := fun s => s.st ≠ .closing ∧ (s.st = .clientClosed → ClientEnded s.trace)) ?_ h
    ⟨by simp [init], by simp [init]⟩).2 hs
  have mono : ∀ {tr es : List Ev}, ClientEnded tr → ClientEnded (tr ++ es) := by
    rintro tr es (h | ⟨f, h1, h2⟩)
    · exact .inl (List.mem_append_left _ h)
    · exact .inr ⟨f, by rw [frames_append]; exact List.mem_append_left _ h1, h2⟩
  intro b s t hb st ⟨h1, h2⟩
  cases st with
  | frame _ s' hst hd hh hl hr hw ha =>
    generalize hf : FrameReader.mk hd ((s.rbuf.drop 9).take hd.length.toNat) = f at ha
    have hne : s.st ≠ .clientClosed := by rw [hst]; simp
    refine ⟨?_, ?_⟩
    · rcases ha.state with k | k | k
      · show s'.st ≠ _; rw [k]; exact h1
      · show s'.st ≠ _; rw [k]; simp
      · show s'.st ≠ _; rw [k]; simp
    · intro hc
      cases ha with
      | goaway ht => exact .inr ⟨f, by simp [frames], ht⟩
      | badSettings => cases hc
      | badHeaders => cases hc
      | _ => exact absurd hc hne
  | shutdown _ h hw => exact absurd h h1
  | close _ h => exact absurd (hb rfl) (by simp)
  | readFailed _ e hw hst hr =>
    cases e with
    | connectionClosed => exact ⟨by simp [Sim.readFailed, emit, updateState], fun _ => .inl (by simp [Sim.readFailed, emit, updateState])⟩
    | protocolError => exact ⟨by simp [Sim.readFailed, emit, updateState], by simp [Sim.readFailed, emit, updateState]⟩
    | _ => exact ⟨h1, fun hc => mono (h2 hc)⟩
  | preface _ rest h hw hr => exact ⟨by simp, by simp⟩
  | handshake => exact ⟨by simp, by simp⟩
  | writeFailed => exact ⟨by simp, by simp⟩
  | oversized => exact ⟨by simp, by simp⟩
  | env => exact ⟨h1, h2⟩
  | readsLeft => exact ⟨h1, h2⟩
  | _ => exact ⟨h1, fun hc => mono (h2 hc)⟩

theorem Steps.not_waiting {cfg : Cfg W} {s t : Sim W} (h : Steps cfg false s t) (hs : s.st ≠ .awaitingHandshake) :
    t.st ≠ .awaitingHandshake := by
  refine Steps.inv (P := fun s => s.st ≠ .awaitingHandshake) ?_ h hs
  intro b s t hb st h1
  cases st with
  | frame _ s' hst hd hh hl hr hw ha =>
    rcases ha.state with k | k | k
    · show s'.st ≠ _; rw [k]; exact h1
    · show s'.st ≠ _; rw [k]; simp
    · show s'.st ≠ _; rw [k]; simp
  | readFailed _ e hw hst hr => cases e <;> simp [Sim.readFailed, emit, updateState, h1]
  | close => simp
  | preface => simp
  | handshake => simp
  | writeFailed => simp
  | oversized => simp
  | shutdown => simp
  | _ => exact h1

/-- What a call that gives the connection up has logged (`ls`; `lines` before it). -/
def Excused (cfg : Cfg W) (w : W) (tr : List Ev) (lines ls : List Line) : Prop :=
  ClientEnded tr ∨ ((∃ text, (.err, text) ∈ ls) ∧ ∃ l ∈ written 3 (lines ++ ls), Cause cfg w tr l.2)

theorem frameCase_told {cfg : Cfg W} {app : AppLog W} {w : W} {now : Nat} {lines : List Line} {s s' : Sim W}
    {r : Option ProcRes} (hs : Steps cfg false (init w now) s) (hst : s.st = .awaitingFrame)
    (i : Told cfg app w lines s) (h : s.frameCase cfg = .ok (r, s')) (hw : Ready s) :
    Told cfg app w (lines ++ s.frameCaseLines cfg app) s' := by
  unfold frameCase at h
  obtain ⟨⟨b, s1⟩, h1, h⟩ := Outcome.bind_eq_ok.mp h
  have k := tryRead_told hs hst i h1 hw
  rw [frameCaseLines, h1, ← List.append_assoc]
  cases b with
  | true => simp at h; obtain ⟨rfl, rfl⟩ := h; exact k.quiet (es := []) (by simp) (fun hp => hp) rfl
  | false => simp at h; obtain ⟨rfl, rfl⟩ := h; exact k.quiet (es := []) (by simp) (fun hp => hp) rfl

theorem dispatch_told {cfg : Cfg W} {app : AppLog W} {w : W} {now : Nat} {lines : List Line} (net : NetLog)
    {s s' : Sim W} {r : Option ProcRes} (hs : Steps cfg false (init w now) s) (hst : s.st ≠ .awaitingHandshake)
    (hw : s.wbuf = []) (i : Told cfg app w lines s) (h : s.dispatch cfg = .ok (r, s')) :
    Told cfg app w (lines ++ s.dispatchLines cfg app net) s' ∧
      (r = some .discard → Excused cfg w s'.trace lines (s.dispatchLines cfg app net)) := by
  unfold dispatch at h
  unfold dispatchLines
  cases hst' : s.st with
  | awaitingHandshake => exact absurd hst' hst
  | awaitingFrame =>
    rw [hst'] at h
    refine ⟨frameCase_told hs hst' i h (.inl hw), ?_⟩
    rintro rfl
    rcases (frameCase_steps cfg false hst' (.inl hw) h).2 with k | ⟨k, -⟩ <;> cases k
  | closing => exact absurd hst' hs.not_shut.1
  | clientClosed =>
    rw [hst'] at h
    cases h
    exact ⟨i.quiet (es := []) (by simp) (fun hp => hp) rfl, fun _ => .inl (hs.clientEnded hst')⟩
  | protocolError =>
    rw [hst'] at h
    cases h
    obtain ⟨l, h1, h2⟩ := i.why hst'
    have hne : s.st ≠ .closing := by rw [hst']; simp
    have ht : s.close.trace = s.trace ++ (goawayChunks s.st).map Ev.enqueue := by rw [close_eq s hne]; rfl
    have hc : s.close.st ≠ .protocolError := by rw [close_eq s hne]; simp
    have h3 : written 3 ((Level.err, b!"protocol error. closing connection") :: s.closeCallLines) =
        [(.err, b!"protocol error. closing connection")] := by
      rw [written_loud (by decide), closeCallLines, if_neg hne, written_quiet (by decide), stateLines_quiet3]
    refine ⟨i.add ht (fun hp => absurd hp hc) ?_, fun _ => .inr ⟨⟨_, List.mem_cons_self ..⟩, l, ?_, ?_⟩⟩
    · intro m hm
      rw [h3, List.mem_singleton] at hm
      subst hm
      exact .closing l.2 (by rw [ht]; exact h2.append _)
    · rw [written_append]; exact List.mem_append_left _ h1
    · rw [ht]; exact h2.append _
  | awaitingPreface =>
    rw [hst'] at h
    have hp := hs
    simp only at h ⊢
    unfold readPreface at h ⊢
    unfold prefaceLines
    by_cases h1 : s.rbuf.length < clientPreface.length
    · simp only [h1, if_true] at h ⊢
      cases h
      exact ⟨i.quiet (es := []) (by simp) (fun hp => hp) (by rw [List.append_nil, written_quiet (by decide)]; rfl), nofun⟩
    · by_cases h2 : s.rbuf.take clientPreface.length ≠ clientPreface
      · rw [if_neg h1, if_pos h2] at h
        rw [if_neg h1, if_pos h2, if_neg h1, if_pos h2]
        cases h
        obtain ⟨passed, evs, post, inv⟩ := Inv.steps hs (Inv.init cfg w false now)
        have hpa : passed = false := by
          have := inv.state
          cases passed with
          | false => rfl
          | true => simp [hst'] at this
        subst hpa
        have hr := inv.recv
        simp at hr
        have hc : Cause cfg w s.trace b!"invalid HTTP/2 preface received" := by
          refine .preface (by rw [hr.2]; simpa [clientPreface] using h1) ?_
          rw [hr.2]
          rintro ⟨z, hz⟩
          apply h2
          rw [← hz]
          exact List.take_left' (by decide)
        have h3 : written 3 ([(Level.err, b!"invalid HTTP/2 preface received")] ++ ([] : List Line)) =
            [(.err, b!"invalid HTTP/2 preface received")] := rfl
        refine ⟨i.add (es := []) (by simp) .inl ?_, fun _ => .inr ⟨⟨_, List.mem_cons_self ..⟩, (.err, _), ?_, hc⟩⟩
        · intro m hm
          rw [h3, List.mem_singleton] at hm
          subst hm
          exact .cause _ _ hc
        · rw [written_append, h3]; exact List.mem_append_right _ (List.mem_singleton.mpr rfl)
      · rw [if_neg h1, if_neg h2] at h
        rw [if_neg h1, if_neg h2, if_neg h1, if_neg h2]
        have h2 : s.rbuf.take clientPreface.length = clientPreface := by simpa using h2
        have hr : s.rbuf = clientPreface ++ s.rbuf.drop clientPreface.length := by
          conv => lhs; rw [← List.take_append_drop clientPreface.length s.rbuf, h2]
        have e : (((s.emit .prefaceOk).writeServerSettings.updateState .awaitingFrame).discardProcessed
            clientPreface.length) = { (s.emit .prefaceOk).enq settingsChunks with
              st := .awaitingFrame, rbuf := s.rbuf.drop clientPreface.length } := by
          rw [writeServerSettings_eq]; rfl
        simp only [e] at h ⊢
        have hready : Ready { (s.emit .prefaceOk).enq settingsChunks with
              st := .awaitingFrame, rbuf := s.rbuf.drop clientPreface.length } :=
          .inr ⟨by simp [enq, emit, hw], s.trace, by simp [enq, emit]⟩
        have hs' := hs.trans (Steps.one (Step.preface (cfg := cfg) s _ hst' hw hr))
        have j : Told cfg app w (lines ++ ((Level.info, b!"valid HTTP/2 preface received") ::
            (.debug, b!"SETTINGS frame sent") :: s.stateLines .awaitingFrame))
            { (s.emit .prefaceOk).enq settingsChunks with
              st := .awaitingFrame, rbuf := s.rbuf.drop clientPreface.length } := by
          refine i.quiet (es := .prefaceOk :: settingsChunks.map Ev.enqueue) (by simp [enq, emit]) nofun ?_
          rw [written_quiet (by decide), written_quiet (by decide), stateLines_quiet3]
        rw [← List.append_assoc]
        refine ⟨frameCase_told hs' rfl j h hready, ?_⟩
        rintro rfl
        rcases (frameCase_steps cfg false rfl hready h).2 with k | ⟨k, -⟩ <;> cases k

theorem _root_.Ion.Sim.Excused.after {cfg : Cfg W} {w : W} {tr : List Ev} {lines a b : List Line}
    (h : Excused cfg w tr (lines ++ a) b) : Excused cfg w tr lines (a ++ b) := by
  rcases h with h | ⟨⟨text, h1⟩, l, h2, h3⟩
  · exact .inl h
  · exact .inr ⟨⟨text, List.mem_append_right _ h1⟩, l, by rwa [List.append_assoc] at h2, h3⟩

theorem turn_told {cfg : Cfg W} {app : AppLog W} {w : W} {now : Nat} {lines : List Line} {net : NetLog}
    (hn : Sincere net) {s s' : Sim W} {r : Option ProcRes} (hs : Steps cfg false (init w now) s)
    (hst : s.st ≠ .awaitingHandshake) (i : Told cfg app w lines s) (h : s.turn cfg = .ok (r, s')) :
    Told cfg app w (lines ++ s.turnLines cfg app net) s' ∧
      (r = some .discard → Excused cfg w s'.trace lines (s.turnLines cfg app net)) := by
  unfold turn at h
  obtain ⟨s1, h1, h⟩ := Outcome.bind_eq_ok.mp h
  obtain ⟨k1, k2⟩ := flush_steps cfg false hst h1
  have j := flush_told hn i h1
  rw [turnLines, h1]
  simp only
  by_cases hw : s1.wbuf ≠ []
  · rw [if_pos hw] at h ⊢
    cases h
    rw [List.append_nil]
    exact ⟨j, nofun⟩
  · rw [if_neg hw] at h ⊢
    have hw : s1.wbuf = [] := by simpa using hw
    obtain ⟨f1, f2, f3, f4⟩ := fill_steps cfg false s1 hw k2
    have j2 : Told cfg app w ((lines ++ s.flushLines net) ++ s1.fillLines net) s1.fill := fillLoop_told hn s1.reads j
    obtain ⟨d1, d2⟩ := dispatch_told net ((hs.trans k1).trans f1) f3 f2 j2 h
    refine ⟨by simpa [List.append_assoc] using d1, fun hr => ?_⟩
    exact (d2 hr).after.after

theorem iter_told {cfg : Cfg W} {app : AppLog W} {w : W} {now : Nat} {lines : List Line} {net : NetLog}
    (hn : Sincere net) {s s' : Sim W} {r : Option ProcRes} (hs : Steps cfg false (init w now) s)
    (hst : s.st = .awaitingHandshake → ∃ t, s.hs = .done t) (i : Told cfg app w lines s)
    (h : s.iter cfg = .ok (r, s')) :
    Told cfg app w (lines ++ s.iterLines cfg app net) s' ∧
      (r = some .discard → Excused cfg w s'.trace lines (s.iterLines cfg app net)) ∧
      (r = none → Steps cfg false (init w now) s' ∧ s'.st ≠ .awaitingHandshake) := by
  have h0 : ∀ {st : CState}, written 3 [((Level.trace, b!"processing state: " ++ st.text) : Line)] = [] := fun {st} => by
    rw [written_quiet (by decide)]; rfl
  unfold iter at h
  unfold iterLines
  by_cases hst' : s.st = .awaitingHandshake
  · obtain ⟨t, ht⟩ := hst hst'
    rw [if_pos hst'] at h
    rw [if_pos hst']
    have e : s.handleHandshake = (none, ({ s with last := t }.emit (.handshake t)).updateState .awaitingPreface) := by
      rw [handleHandshake, ht]
    rw [e] at h ⊢
    simp only at h ⊢
    have hs' := hs.trans (Steps.one (Step.handshake (cfg := cfg) s t hst'))
    have q : written 3 ((Level.trace, b!"processing state: " ++ s.st.text) :: s.handshakeLines net) = [] := by
      have no : ¬ ∃ e, s.hs = .fail e ∧ Grave e := by rw [ht]; rintro ⟨e, h, -⟩; cases h
      rw [written_quiet (by decide), handshakeLines, written_append, (hn.handshake s.hs).2 no, ht]
      simp only
      rw [written_quiet (by decide), stateLines_quiet3]
      rfl
    have j : Told cfg app w (lines ++ ((Level.trace, b!"processing state: " ++ s.st.text) :: s.handshakeLines net))
        (({ s with last := t }.emit (.handshake t)).updateState .awaitingPreface) :=
      i.quiet (es := [.handshake t]) rfl nofun q
    have hne : (({ s with last := t }.emit (.handshake t)).updateState .awaitingPreface).st ≠ .awaitingHandshake := by
      simp [updateState]
    obtain ⟨k1, k2⟩ := turn_told hn hs' hne j h
    refine ⟨by rw [List.append_assoc] at k1; exact k1, fun hr => ?_, ?_⟩
    · exact (k2 hr).after (a := _ :: _)
    · rintro rfl
      rcases turn_steps cfg hne h with ⟨-, k⟩ | ⟨x, s1, k, -⟩
      · exact ⟨hs'.trans k, k.not_waiting hne⟩
      · cases k
  · rw [if_neg hst'] at h
    rw [if_neg hst']
    have j : Told cfg app w (lines ++ [(Level.trace, b!"processing state: " ++ s.st.text)]) s :=
      i.quiet (es := []) (by simp) (fun hp => hp) h0
    obtain ⟨k1, k2⟩ := turn_told hn hs hst' j h
    refine ⟨by simpa [List.append_assoc] using k1, fun hr => ?_, ?_⟩
    · exact (k2 hr).after (a := [_])
    · rintro rfl
      rcases turn_steps cfg hst' h with ⟨-, k⟩ | ⟨x, s1, k, -⟩
      · exact ⟨hs.trans k, k.not_waiting hst'⟩
      · cases k

theorem loop_told {cfg : Cfg W} {app : AppLog W} {w : W} {now : Nat} {net : NetLog} (hn : Sincere net) (n : Nat) :
    ∀ {lines : List Line} {s s' : Sim W} {r : ProcRes}, Steps cfg false (init w now) s →
      (s.st = .awaitingHandshake → ∃ t, s.hs = .done t) → Told cfg app w lines s → s.loop cfg n = .ok (r, s') →
      Told cfg app w (lines ++ processLoopLines cfg app net n s) s' ∧
        (r = .discard → Excused cfg w s'.trace lines (processLoopLines cfg app net n s)) := by
  induction n with
  | zero => intro lines s s' r hs hst i h; cases h
  | succ n ih =>
    intro lines s s' r hs hst i h
    rw [loop] at h
    obtain ⟨⟨x, s1⟩, h1, h⟩ := Outcome.bind_eq_ok.mp h
    obtain ⟨k1, k2, k3⟩ := iter_told hn hs hst i h1
    rw [processLoopLines, h1]
    cases x with
    | some x =>
      simp at h
      obtain ⟨rfl, rfl⟩ := h
      simp only [List.append_nil]
      exact ⟨k1, fun hr => k2 (by rw [hr])⟩
    | none =>
      simp only at h ⊢
      obtain ⟨k4, k5⟩ := k3 rfl
      obtain ⟨m1, m2⟩ := ih k4 (fun hc => absurd hc k5) k1 h
      exact ⟨by simpa [List.append_assoc] using m1, fun hr => (m2 hr).after⟩

theorem _root_.Ion.Spec.Recorded.inUse {cfg : Cfg W} {app : AppLog W} {w : W} {now : Nat} {s : Sim W}
    {lines : List Line} (h : Recorded cfg app w now s lines) : InUse cfg w now s := by
  induction h with
  | new => exact .new
  | step s s' lines env net r _ _ hp hr ih => exact .step s s' env r ih hp hr

/-- A call whose handshake fails: what it logs, and that nothing happens. -/
theorem failed_lines {cfg : Cfg W} (app : AppLog W) (net : NetLog) {env : Env} {s s' : Sim W} {r : ProcRes} {e : TErr}
    (hs : s.st = .awaitingHandshake) (he : env.hs = .fail e) (h : s.process cfg env = .ok (r, s')) :
    s'.st = .awaitingHandshake ∧ s'.trace = s.trace ++ [.returned r] ∧ (r = .discard ↔ e ≠ .wantReadOrWrite) ∧
      written 3 (s.processLines cfg app net env) = written 3 (net.handshake env.hs) := by
  have hb : ∃ n, ({ s with hs := env.hs, reads := env.reads, writes := env.writes } : Sim W).budget = n + 1 := ⟨_, rfl⟩
  obtain ⟨n, hb⟩ := hb
  have hi : ({ s with hs := env.hs, reads := env.reads, writes := env.writes } : Sim W).iter cfg =
      .ok (some (if e = .wantReadOrWrite then .wantRead else .discard),
        { s with hs := env.hs, reads := env.reads, writes := env.writes }) := by
    simp only [iter, hs, if_true, handleHandshake, he]
    cases e <;> simp
  have hh : written 3 (({ s with hs := env.hs, reads := env.reads, writes := env.writes } : Sim W).handshakeLines net) =
      written 3 (net.handshake env.hs) := by
    simp only [handshakeLines, he]
    rw [written_append]
    cases e <;> simp only <;> rw [written_quiet (by decide)] <;> exact List.append_nil _
  have hl : written 3 (s.processLines cfg app net env) = written 3 (net.handshake env.hs) := by
    have key : ∀ u : Sim W, u.st = .awaitingHandshake → u.hs = .fail e → (∃ x, u.iter cfg = .ok (some x, u)) →
        written 3 (processLoopLines cfg app net (n + 1) u) = written 3 (u.handshakeLines net) := by
      rintro u h1 h2 ⟨x, h3⟩
      have h4 : ∃ y, u.handleHandshake = (some y, u) := by
        rw [handleHandshake, h2]
        cases e <;> exact ⟨_, rfl⟩
      obtain ⟨y, h4⟩ := h4
      rw [processLoopLines, h3, List.append_nil, iterLines, written_quiet (by decide), if_pos h1, h4, List.append_nil]
    rw [← hh, processLines, hb]
    exact key _ hs he ⟨_, hi⟩
  unfold process at h
  simp only [hb, loop, hi, Outcome.bind_ok] at h
  cases h
  refine ⟨hs, rfl, ?_, hl⟩
  split <;> rename_i k <;> simp [k]

theorem process_told {cfg : Cfg W} {app : AppLog W} {w : W} {now : Nat} {lines : List Line} {net : NetLog}
    (hn : Sincere net) {env : Env} {s s' : Sim W} {r : ProcRes} (hs : Steps cfg false (init w now) s)
    (hst : s.st = .awaitingHandshake → ∃ t, env.hs = .done t) (i : Told cfg app w lines s)
    (h : s.process cfg env = .ok (r, s')) :
    Told cfg app w (lines ++ s.processLines cfg app net env) s' ∧
      (r = .discard → Excused cfg w s'.trace lines (s.processLines cfg app net env)) := by
  unfold process at h
  obtain ⟨⟨x, s2⟩, h1, h⟩ := Outcome.bind_eq_ok.mp h
  cases h
  have j : Told cfg app w lines ({ s with hs := env.hs, reads := env.reads, writes := env.writes } : Sim W) := ⟨i.why, i.only⟩
  obtain ⟨k1, k2⟩ := loop_told hn _ (hs.trans (.one (.env s env))) hst j h1
  refine ⟨?_, fun hr => ?_⟩
  · have := k1.quiet (s' := s2.emit (.returned r)) (ls := []) (es := [.returned r]) rfl (fun hp => hp) rfl
    rwa [List.append_nil] at this
  · rcases k2 hr with (k | ⟨f, k3, k4⟩) | ⟨k3, l, k4, k5⟩
    · exact .inl (.inl (List.mem_append_left _ k))
    · exact .inl (.inr ⟨f, by show f ∈ frames (s2.trace ++ _); rw [frames_append]; exact List.mem_append_left _ k3, k4⟩)
    · exact .inr ⟨k3, l, k4, k5.append _⟩

theorem _root_.Ion.Spec.Recorded.told {cfg : Cfg W} {app : AppLog W} {w : W} {now : Nat} {s : Sim W}
    {lines : List Line} (h : Recorded cfg app w now s lines) : Told cfg app w lines s := by
  induction h with
  | new => exact ⟨nofun, nofun⟩
  | step s s' lines env net r h0 hn hp hr ih =>
    by_cases hst : s.st = .awaitingHandshake
    · cases he : env.hs with
      | done t => exact (process_told hn h0.inUse.steps (fun _ => ⟨t, he⟩) ih hp).1
      | fail e =>
        obtain ⟨k1, k2, k3, k4⟩ := failed_lines app net hst he hp
        have hw : e = .wantReadOrWrite := Decidable.byContradiction fun hc => hr (k3.mpr hc)
        subst hw
        refine ih.quiet k2 (fun hc => by rw [k1] at hc; cases hc) ?_
        rw [k4, he]
        exact (hn.handshake _).2 (by rintro ⟨e, h1, h2⟩; cases h1; exact h2.1 rfl)
    · exact (process_told hn h0.inUse.steps (fun hc => absurd hc hst) ih hp).1

/-- C164: when a connection is given up, either the client has ended it; or this call has logged an error, and what went
wrong is in the log, as a warning or an error; or the handshake has failed for good, and the error is the transport's,
unless the client has ended it. -/
theorem C164_why {cfg : Cfg W} {app : AppLog W} {w : W} {now : Nat} {s s' : Sim W} {lines : List Line} {net : NetLog}
    {env : Env} (h : Recorded cfg app w now s lines) (hn : Sincere net) (hp : s.process cfg env = .ok (.discard, s')) :
    (handshakes s'.trace ≠ [] ∧ (ClientEnded s'.trace ∨
      ((∃ text, (.err, text) ∈ s.processLines cfg app net env) ∧
        ∃ l ∈ written 3 (lines ++ s.processLines cfg app net env), Cause cfg w s'.trace l.2))) ∨
    (handshakes s'.trace = [] ∧ ∃ e, env.hs = .fail e ∧ e ≠ .wantReadOrWrite ∧
      (e = .connectionClosed ∨ ∃ text, written 3 (s.processLines cfg app net env) = [(.err, text)] ∧
        (.err, text) ∈ net.handshake env.hs)) := by
  rcases C85_reason cfg w now s s' env h.inUse hp with ⟨k, e, hf, he⟩ | ⟨k, -⟩
  · refine .inr ⟨k, e, he, hf, ?_⟩
    by_cases hc : e = .connectionClosed
    · exact .inl hc
    · right
      have hst : s.st = .awaitingHandshake := by
        refine (Steps.waits h.inUse.steps (Waits.init w now)).mpr ?_
        obtain ⟨es, ht⟩ := (process_steps' cfg hp).trace_mono
        rw [ht] at k
        simp only [handshakes, List.filterMap_append, List.append_eq_nil_iff] at k
        exact k.1
      obtain ⟨-, -, -, k4⟩ := failed_lines app net hst he hp
      obtain ⟨text, ht⟩ := (hn.handshake env.hs).1 ⟨e, he, hf, hc⟩
      have hm : ((.err, text) : Line) ∈ written 3 (net.handshake env.hs) := by rw [ht]; exact List.mem_singleton.mpr rfl
      exact ⟨text, k4.trans ht, (List.mem_filter.mp hm).1⟩
  · refine .inl ⟨k, (process_told hn h.inUse.steps ?_ h.told hp).2 rfl⟩
    intro hst
    cases he : env.hs with
    | done t => exact ⟨t, rfl⟩
    | fail e =>
      obtain ⟨-, k2, -⟩ := failed_lines app net hst he hp
      exfalso
      apply k
      have := (Steps.waits h.inUse.steps (Waits.init w now)).mp hst
      rw [k2]
      simp only [handshakes, List.filterMap_append, List.append_eq_nil_iff] at this ⊢
      exact ⟨this, rfl⟩

/-- C164: warnings and errors in the log of a connection are in place: each is about something that happened on it, or
is the transport's about a handshake that failed for good. -/
theorem C164_only {cfg : Cfg W} {app : AppLog W} {w : W} {now : Nat} {s s' : Sim W} {lines : List Line} {net : NetLog}
    {env : Env} {r : ProcRes} (h : Recorded cfg app w now s lines) (hn : Sincere net)
    (hp : s.process cfg env = .ok (r, s')) (l : Line)
    (hl : l ∈ written 3 (lines ++ s.processLines cfg app net env)) :
    Alarm cfg app w s'.trace l ∨ (handshakes s'.trace = [] ∧ r = .discard ∧
      (∃ e, env.hs = .fail e ∧ Grave e) ∧ l ∈ net.handshake env.hs) := by
  by_cases hst : s.st = .awaitingHandshake ∧ ∀ t, env.hs ≠ .done t
  · obtain ⟨hst, hd⟩ := hst
    cases he : env.hs with
    | done t => exact absurd he (hd t)
    | fail e =>
      obtain ⟨-, k2, k3, k4⟩ := failed_lines app net hst he hp
      rw [written_append] at hl
      rcases List.mem_append.mp hl with hl | hl
      · left
        rw [k2]
        exact (h.told.only l hl).append _
      · right
        rw [k4] at hl
        by_cases hg : Grave e
        · refine ⟨?_, k3.mpr hg.1, ⟨e, rfl, hg⟩, by rw [← he]; exact (List.mem_filter.mp hl).1⟩
          have := (Steps.waits h.inUse.steps (Waits.init w now)).mp hst
          rw [k2]
          simp only [handshakes, List.filterMap_append, List.append_eq_nil_iff] at this ⊢
          exact ⟨this, rfl⟩
        · rw [(hn.handshake _).2 (by rintro ⟨e', h1, h2⟩; rw [he] at h1; cases h1; exact hg h2)] at hl
          cases hl
  · refine .inl ((process_told hn h.inUse.steps (fun hc => ?_) h.told hp).1.only l hl)
    cases he : env.hs with
    | done t => exact ⟨t, rfl⟩
    | fail e => exact absurd ⟨hc, fun t ht => by rw [he] at ht; cases ht⟩ hst

/-- A transport that logs a line for each operation that fails for good. -/
def exNet : NetLog where
  handshake r := match r with
    | .fail e => if e = .wantReadOrWrite ∨ e = .connectionClosed then [] else [(.err, b!"handshake failed")]
    | .done _ => []
  read rs := (.trace, b!"reading") :: match rs with
    | .fail e :: _ => if e = .wantReadOrWrite ∨ e = .connectionClosed then [] else [(.err, b!"read failed")]
    | _ => []
  write _ ws := match ws with
    | .fail e :: _ => if e = .wantReadOrWrite ∨ e = .connectionClosed then [] else [(.err, b!"write failed")]
    | _ => []
  shutdown := []

theorem exNet_sincere : Sincere exNet := by
  refine ⟨fun r => ?_, fun rs => ?_, fun a ws => ?_⟩
  · cases r with
    | done t => exact .no (by simp) rfl
    | fail e => cases e <;> first | exact .no (by simp [Grave]) rfl | exact .yes ⟨_, rfl, by simp [Grave]⟩ rfl
  · cases rs with
    | nil => exact .no (by simp) rfl
    | cons r rs =>
      cases r with
      | data bs t => exact .no (by simp) rfl
      | fail e => cases e <;> first | exact .no (by simp [Grave]) rfl | exact .yes ⟨_, rfl, by simp [Grave]⟩ rfl
  · cases ws with
    | nil => exact .no (by simp) rfl
    | cons r rs =>
      cases r with
      | wrote n t => exact .no (by simp) rfl
      | fail e => cases e <;> first | exact .no (by simp [Grave]) rfl | exact .yes ⟨_, rfl, by simp [Grave]⟩ rfl

/-- The result of a new connection's first call, and the warnings and errors it logs. -/
def exLog (env : Env) : Option ProcRes × List Line :=
  (match process exCfg env (init 0 0) with
    | .ok (r, _) => some r
    | _ => none, written 3 (processLines exCfg silent exNet env (init 0 0)))

set_option maxRecDepth 100000 in
/-- New connections that are given up because a frame is too long, a frame is wrong, the client does not speak HTTP/2,
the transport fails on reading, the handshake fails; one that the client closes after a request; and one that cannot
write and is given up later. -/
example :
    exLog (exEnv (clientPreface ++ exBig) [27]) = (some .discard,
      [(.warn, b!"frame too big (sz: 16385, max: 16384)"), (.err, b!"protocol error. closing connection")]) ∧
    exLog (exEnv (clientPreface ++ [0, 0, 1, 4, 0, 0, 0, 0, 0, 0]) [27]) = (some .discard,
      [(.err, b!"invalid SETTINGS frame: data size not a multiple of 6"), (.err, b!"protocol error. closing connection")]) ∧
    exLog (exEnv b!"GET / HTTP/1.1\r\nHost: x\r\n\r\n" []) = (some .discard, [(.err, b!"invalid HTTP/2 preface received")]) ∧
    exLog { hs := .done 1, reads := [.fail .protocolError] } = (some .discard,
      [(.err, b!"read failed"), (.err, b!"transport protocol error"), (.err, b!"protocol error. closing connection")]) ∧
    exLog { hs := .fail .protocolError } = (some .discard, [(.err, b!"handshake failed")]) ∧
    exLog { hs := .fail .connectionClosed } = (some .discard, []) ∧
    exLog { hs := .done 1, reads := [.data (clientPreface ++ exGet) 2, .fail .wantReadOrWrite, .fail .connectionClosed],
            writes := [.wrote 71 3] } = (some .discard, []) ∧
    exLog { hs := .done 1, reads := [.data (clientPreface ++ exGet) 2], writes := [.fail .writeError] } =
      (some .wantWrite, [(.err, b!"write failed"), (.err, b!"failed to flush write buffer: error: 1")]) := by
  refine ⟨?_, ?_, ?_, ?_, ?_, ?_, ?_, ?_⟩ <;> decide +kernel

/-- The result of a new connection's second call, and the warnings and errors of both. -/
def exLog2 (env env' : Env) : Option ProcRes × List Line × List Line :=
  match process exCfg env (init 0 0) with
  | .ok (_, s) => (match process exCfg env' s with
      | .ok (r, _) => some r
      | _ => none, written 3 (processLines exCfg silent exNet env (init 0 0)),
        written 3 (processLines exCfg silent exNet env' s))
  | _ => (none, [], [])

set_option maxRecDepth 100000 in
/-- The reason may be in the log of an earlier call: what could not be written is written on the second attempt. -/
example :
    exLog2 { hs := .done 1, reads := [.data (clientPreface ++ exGet) 2], writes := [.fail .writeError] }
      { hs := .done 1, reads := [], writes := [.wrote 71 3] } =
      (some .discard, [(.err, b!"write failed"), (.err, b!"failed to flush write buffer: error: 1")],
        [(.err, b!"protocol error. closing connection")]) := by
  decide +kernel

end Sim
end Ion
