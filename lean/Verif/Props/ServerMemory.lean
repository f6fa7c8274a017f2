import Verif.Props.ServerLoop
import Verif.Props.ConnTotal
import Verif.Props.ConnSend

/-! # What a server keeps (C113) -/

namespace Ion
open Spec

namespace Sim
variable {W : Type}

theorem encodeHeader_max {ε : Type} {sgn : Bool} {t t' : DynTable} {h : Header} {w : Bytes}
    (hwf : t.WF) (he : (encodeHeader sgn t h : Outcome ε _) = .ok (w, t')) :
    t'.maxTableSize = t.maxTableSize := by
  obtain ⟨t1, h1, h2, h3⟩ := DynTable.insert_spec (ε := ε) t h hwf
  have h3 : t1.maxTableSize = t.maxTableSize := congrArg Table.max h3
  have tail : ∀ g : Bytes → Bytes, ((do
      let v ← writeLengthAndString sgn h.value
      let t ← t.insert h
      .ok (g v, t)) : Outcome ε (Bytes × DynTable)) = .ok (w, t') → t'.maxTableSize = t.maxTableSize := by
    intro g hg
    obtain ⟨v, -, hg⟩ := Outcome.bind_eq_ok.mp hg
    rw [h1] at hg
    cases hg
    exact h3
  unfold encodeHeader at he
  split at he
  · cases he; rfl
  · split at he
    · cases he; rfl
    · split at he
      · exact tail _ he
      · split at he
        · exact tail _ he
        · obtain ⟨n, -, he⟩ := Outcome.bind_eq_ok.mp he
          exact tail (fun v => 0x40 :: (n ++ v)) he

theorem encodeBlock_max {ε : Type} {sgn : Bool} : ∀ {hs : List Header} {t t' : DynTable} {w : Bytes},
    t.WF → (encodeBlock sgn t hs : Outcome ε _) = .ok (w, t') → t'.maxTableSize = t.maxTableSize
  | [], t, t', w, hwf, he => by cases he; rfl
  | h :: hs, t, t', w, hwf, he => by
    rw [encodeBlock] at he
    obtain ⟨⟨b, t1⟩, h1, he⟩ := Outcome.bind_eq_ok.mp he
    obtain ⟨⟨bs, t2⟩, h2, he⟩ := Outcome.bind_eq_ok.mp he
    cases he
    rw [encodeBlock_max (encodeHeader_wf hwf h1) h2, encodeHeader_max hwf h1]

theorem Steps.reach {cfg : Cfg W} {c : Bool} {w : W} {now : Nat} {s : Sim W}
    (h : Steps cfg c (init w now) s) : DecoderReach s.dec ∧ s.enc.WF ∧ s.enc.maxTableSize = 65536 := by
  refine Steps.inv (P := fun s => DecoderReach s.dec ∧ s.enc.WF ∧ s.enc.maxTableSize = 65536) ?_ h
    ⟨.init, ⟨rfl, Nat.zero_le _⟩, rfl⟩
  intro b s t _ st ⟨hd, he, hm⟩
  cases st with
  | frame _ s1 hst hdr hh hl hr hw ha =>
    cases ha with
    | badHeaders block e dec' ht hb hdd => exact ⟨.err hd hdd, he, hm⟩
    | request data hs dec' resp evs w' block enc' ht hb hdd hr he' =>
      exact ⟨.ok hd hdd, encodeBlock_wf he he', by rw [encodeBlock_max he he']; exact hm⟩
    | _ => exact ⟨hd, he, hm⟩
  | readFailed _ e => cases e <;> exact ⟨hd, he, hm⟩
  | _ => exact ⟨hd, he, hm⟩

/-- What a connection keeps: input not yet used, entries of the two header tables; and output not yet sent. -/
theorem InUse.kept {cfg : Cfg W} {w : W} {now : Nat} {s : Sim W} (h : InUse cfg w now s)
    (hl : ∀ bs t, Ev.read bs t ∈ s.trace → bs.length ≤ 16384) :
    s.rbuf.length < 65536 ∧ sizes s.dec.table ≤ 65536 ∧ sizes s.enc.table ≤ 65536 ∧
    (frames s.trace = [] → s.wbuf.length ≤ 27) ∧
    (∀ pre g post, s.trace = pre ++ .frame g :: post → s.wbuf.length ≤ 27 + (produced post).length) := by
  obtain ⟨calls, hr⟩ := h.run
  have h1 := C27_bounded cfg w now calls s hr hl s.trace [] (by simp)
  have h2 := h.steps.buffered
  obtain ⟨h3, h4, h5⟩ := Steps.reach h.steps
  obtain ⟨passed, evs, po, hi⟩ := h.inv
  have hacc := congrArg List.length hi.acc
  rw [List.length_append] at hacc
  refine ⟨by omega, (C16_resource_bound _ h3).1, ?_, ?_, ?_⟩
  · have := h4.1; have := h4.2; omega
  · intro hf
    have hsv := hi.served
    rw [hf] at hsv
    have he : evs = [] := (Served.det hsv .nil).2.2.2
    have hp := hi.prod
    rw [hi.post_plain rfl, he] at hp
    have : (produced s.trace).length ≤ 27 := by rw [hp]; split <;> decide
    omega
  · intro pre g post ht
    have : Along (fun pre e => ∀ g, e = .frame g → (produced pre).length ≤ (accepted pre).length + 27) s.trace := by
      refine Steps.plain_inv (P := fun s => Along (fun pre e => ∀ g, e = .frame g →
        (produced pre).length ≤ (accepted pre).length + 27) s.trace) (Along.nil _) ?_ h.steps
      intro s t hs st i
      obtain ⟨es, he, ha⟩ := st.adds
      rw [he]
      cases ha with
      | none => rw [List.append_nil]; exact i
      | frame f evs h hr hev =>
        rw [show Ev.frame f :: evs = [Ev.frame f] ++ evs from rfl, ← List.append_assoc]
        refine (i.snoc ?_).append_triv ?_
        · intro g _
          obtain ⟨p, evs, post, k⟩ := hs.inv_false
          have hk := congrArg List.length k.acc
          rw [List.length_append] at hk
          rcases hs.ready hr with h0 | ⟨h0, -⟩
          · rw [h0] at hk
            simp only [List.length_nil] at hk
            omega
          · rw [h0] at hk
            have : settingsChunks.flatten.length = 27 := by decide
            omega
        · intro e hm pre g h
          subst h
          exact (hev _ hm).elim
      | preface h1 h2 =>
        refine i.append_triv ?_
        intro e hm pre g h; subst h; simp at hm
      | goaway cs h => cases h
      | _ => exact i.snoc fun _ h => by cases h
    have h6 := this pre _ post ht g rfl
    have h7 := hacc
    rw [ht, produced_append, accepted_append, List.length_append, List.length_append,
      show produced (.frame g :: post) = produced post from rfl] at h7
    omega

end Sim

namespace Server
variable {W : Type}

/-- C113: between events, a server has at most 128 connections, and each of them keeps fewer than 65536 octets of
input and at most 65536 octets, in the count of RFC 7541, in each of its two header tables: less than 24 MiB in
all. What a connection has not sent yet is no more than its SETTINGS frame and the answer to the last frame it
acted on. -/
theorem C113_bounded {cfg : Cfg W} {s : Server W} (h : Serves cfg s)
    (hl : ∀ fd c, s.conns.get fd = some c → ∀ bs t, Ev.read bs t ∈ c.sim.trace → bs.length ≤ 16384) :
    s.conns.length ≤ 128 ∧
    (s.conns.map fun e => e.2.sim.rbuf.length + sizes e.2.sim.dec.table + sizes e.2.sim.enc.table).sum ≤ 25165824 ∧
    ∀ fd c, s.conns.get fd = some c →
      c.sim.rbuf.length < 65536 ∧ sizes c.sim.dec.table ≤ 65536 ∧ sizes c.sim.enc.table ≤ 65536 ∧
      (Sim.frames c.sim.trace = [] → c.sim.wbuf.length ≤ 27) ∧
      (∀ pre g post, c.sim.trace = pre ++ .frame g :: post →
        c.sim.wbuf.length ≤ 27 + (Sim.produced post).length) := by
  have key : ∀ fd c, s.conns.get fd = some c →
      c.sim.rbuf.length < 65536 ∧ sizes c.sim.dec.table ≤ 65536 ∧ sizes c.sim.enc.table ≤ 65536 ∧
      (Sim.frames c.sim.trace = [] → c.sim.wbuf.length ≤ 27) ∧
      (∀ pre g post, c.sim.trace = pre ++ .frame g :: post →
        c.sim.wbuf.length ≤ 27 + (Sim.produced post).length) := by
    intro fd c hc
    obtain ⟨t, ws, ha⟩ := h.alone hc
    have := Sim.InUse.kept (ha ([], s.world)) (hl fd c hc)
    exact this
  refine ⟨h.inv.len, ?_, key⟩
  have hlen := h.inv.len
  have hm : ∀ e ∈ s.conns, e.2.sim.rbuf.length + sizes e.2.sim.dec.table + sizes e.2.sim.enc.table ≤ 196608 := by
    intro e he
    obtain ⟨h1, h2, h3, -⟩ := key e.1 e.2 (Assoc.mem_get h.inv.sorted he)
    omega
  have hsum : ∀ l : List (Nat × Conn W), (∀ e ∈ l, e.2.sim.rbuf.length + sizes e.2.sim.dec.table +
      sizes e.2.sim.enc.table ≤ 196608) → (l.map fun e => e.2.sim.rbuf.length + sizes e.2.sim.dec.table +
      sizes e.2.sim.enc.table).sum ≤ 196608 * l.length := by
    intro l
    induction l with
    | nil => simp
    | cons e l ih =>
      intro hl
      have h1 := hl e (by simp)
      have h2 := ih fun e he => hl e (by simp [he])
      simp only [List.map_cons, List.sum_cons, List.length_cons]
      omega
  have := hsum _ hm
  omega

/-- Two connections; the first has an entry in a header table and part of an answer to send. -/
example : ∃ s, Serves Sim.exCfg s ∧ (s.conns.length == 2 && (match s.conns.get 5 with
    | some c => c.sim.wbuf.length == 40 && sizes c.sim.dec.table == 0 && sizes c.sim.enc.table == 135 &&
        c.sim.trace.all (fun e => match e with | .read bs _ => decide (bs.length ≤ 16384) | _ => true)
    | none => false)) = true :=
  Shows.serves (w := 0) (listener := 3)
    (evs := [exAccept 5, exAccept 6,
      exRead 5 (Sim.exEnv (Spec.preface ++ Sim.exSettings ++ Sim.exGet) [36, 4])])
    (by decide +kernel)

end Server
end Ion
