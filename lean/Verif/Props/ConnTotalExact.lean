import Verif.Props.ConnLive
import Verif.Props.ConnReset
import Verif.Props.HeaderEncoderExact

/-!
# When exactly `process()` does not return: C47
-/

namespace Ion
open Spec

/-- The dynamic table after the fields have been written as the server writes them: a field found in one of the
tables leaves it as it is, any other is added, by the RFC's rules. -/
inductive Spec.Remembers : Table → List Header → Table → Prop
  | nil (T : Table) : Remembers T [] T
  | known (T T' : Table) (h : Header) (hs : List Header) (hk : InStatic h ∨ h ∈ T.entries)
      (ht : Remembers T hs T') : Remembers T (h :: hs) T'
  | added (T T' : Table) (h : Header) (hs : List Header) (hn : ¬ InStatic h) (hm : h ∉ T.entries)
      (ht : Remembers (T.add h) hs T') : Remembers T (h :: hs) T'

theorem Spec.Remembers.det {T T1 T2 : Table} {hs : List Header} (h1 : Remembers T hs T1)
    (h2 : Remembers T hs T2) : T1 = T2 := by
  induction h1 with
  | nil => cases h2; rfl
  | known T T' h hs hk _ ih =>
    cases h2 with
    | known _ _ _ _ _ ht => exact ih ht
    | added _ _ _ _ hn hm _ => rcases hk with hk | hk <;> contradiction
  | added T T' h hs hn hm _ ih =>
    cases h2 with
    | known _ _ _ _ hk _ => rcases hk with hk | hk <;> contradiction
    | added _ _ _ _ _ _ ht => exact ih ht

theorem Spec.Remembers.append {T T1 T2 : Table} {xs ys : List Header} (h1 : Remembers T xs T1)
    (h2 : Remembers T1 ys T2) : Remembers T (xs ++ ys) T2 := by
  induction h1 with
  | nil => exact h2
  | known T T' h hs hk _ ih => exact .known _ _ _ _ hk (ih h2)
  | added T T' h hs hn hm _ ih => exact .added _ _ _ _ hn hm (ih h2)

theorem encodeBlock_remembers {ε : Type} {sgn : Bool} {hs : List Header} {t t' : DynTable} {w : Bytes}
    (hwf : t.WF) (h : (encodeBlock sgn t hs : Outcome ε _) = .ok (w, t')) : Remembers t.abs hs t'.abs := by
  induction hs generalizing t w with
  | nil => cases h; exact .nil _
  | cons x xs ih =>
    rw [encodeBlock] at h
    obtain ⟨⟨b, t1⟩, h1, h⟩ := Outcome.bind_eq_ok.mp h
    obtain ⟨⟨bs, t2⟩, h2, h⟩ := Outcome.bind_eq_ok.mp h
    cases h
    obtain ⟨k1, k2⟩ := encodeHeader_exact (ε := ε) sgn t hwf x
    by_cases hin : InStatic x ∨ x ∈ t.table
    · obtain ⟨w', hw⟩ := k1 hin
      rw [hw] at h1
      cases h1
      exact .known _ _ _ _ hin (ih hwf h2)
    · have hns : ¬ InStatic x := fun k => hin (.inl k)
      have hnm : x ∉ t.table := fun k => hin (.inr k)
      obtain ⟨k3, k4⟩ := k2 hns hnm
      refine .added _ _ _ _ hns hnm ?_
      by_cases hb : (sgn = true ∧ (HighString x.value ∨
          (HighString x.name ∧ ¬ NameInStatic x.name ∧ ∀ y ∈ t.table, y.name ≠ x.name)))
      · rw [k3 hb] at h1; cases h1
      · obtain ⟨w', t3, hw, hwf3, habs⟩ := k4 hb
        rw [hw] at h1
        cases h1
        rw [← habs]
        exact ih hwf3 h2

namespace Sim
variable {W : Type}

/-- `Kills cfg T E w f e`: acting on the frame `f` ends with `e` instead of a result. `T` and `E` are the header
tables for what the client and what the server sends, `w` the state of the application. -/
inductive Kills (cfg : Cfg W) (T E : Table) (w : W) (f : Frame) : Stop ⊕ UB → Prop
  /-- A WINDOW_UPDATE frame of fewer than four octets is read out of bounds. -/
  | window (ht : f.type = 8) (hl : f.payload.length < 4) : Kills cfg T E w f (.inr .subspan)
  /-- So is a HEADERS frame with the PRIORITY flag of fewer than five. -/
  | priority (ht : f.type = 1) (hf : f.flags &&& 0x20 ≠ 0) (hl : f.payload.length < 5) :
      Kills cfg T E w f (.inr .subspan)
  /-- An error is dereferenced if an indexed field or literal with an unreadable leading integer follows the
  readable beginning of the block. -/
  | integer (ht : f.type = 1) (block : Bytes) (hb : FieldBlock f block) (reps : List Rep) (x r : Bytes)
      (out : List Header) (T' : Table) (hx : block = x ++ r) (hr : BlockWire Dialect.lenient reps x)
      (he : execReps 65536 T reps = some (out, T')) (hi : BadIndexField r) : Kills cfg T E w f (.inr .derefError)
  /-- The handler throws something else than a `std::exception`. -/
  | thrown (ht : f.type = 1) (block : Bytes) (hb : FieldBlock f block) (fields : List Header) (T' : Table)
      (hr : ReadsAs T block fields T') (path method : Bytes) (hp : FirstField fields b!":path" path)
      (hm : FirstField fields b!":method" method)
      (hh : (cfg.getHandler path method ⟨method, path, fields⟩ w).1 = .otherExn) :
      Kills cfg T E w f (.inl .escaped)
  /-- Plain `char` is signed, and the response has a string with an octet of 0x80 or more that has to be written
  in Huffman code: the code table is read out of bounds. -/
  | high (ht : f.type = 1) (block : Bytes) (hb : FieldBlock f block) (fields : List Header) (T' : Table)
      (hr : ReadsAs T block fields T') (path method : Bytes) (hp : FirstField fields b!":path" path)
      (hm : FirstField fields b!":method" method) (r : HttpResponse) (out : List Header)
      (hh : (cfg.getHandler path method ⟨method, path, fields⟩ w).1 = .resp r) (hf : ResponseFields r out)
      (hc : cfg.charSigned = true) (hw : WritesHigh E out) : Kills cfg T E w f (.inr .index)

/-- After the frames `fs` the header tables are `T` and `E` and the state of the application is `w'`. -/
def After (cfg : Cfg W) (w : W) (fs : List Frame) (T E : Table) (w' : W) : Prop :=
  ∃ calls answers, Serves cfg w fs calls answers T w' ∧
    Remembers ⟨[], 65536⟩ (answers.flatMap fun a => a.2.1) E

theorem After.det {cfg : Cfg W} {w w1 w2 : W} {fs : List Frame} {T1 E1 T2 E2 : Table}
    (h1 : After cfg w fs T1 E1 w1) (h2 : After cfg w fs T2 E2 w2) : T1 = T2 ∧ E1 = E2 ∧ w1 = w2 := by
  obtain ⟨c1, a1, s1, r1⟩ := h1
  obtain ⟨c2, a2, s2, r2⟩ := h2
  obtain ⟨-, rfl, rfl, rfl⟩ := C83_determined cfg w fs _ _ _ _ _ _ _ _ s1 s2
  exact ⟨rfl, r1.det r2, rfl⟩

/-- The client's octets hold a frame that ends `process()` with `e`: after the preface and frames that are
served, none of them GOAWAY, longer than the server's maximum or such a frame itself. -/
def Lethal (cfg : Cfg W) (w : W) (input : Bytes) (e : Stop ⊕ UB) : Prop :=
  ∃ fs f v rest T E w', input = preface ++ (v ++ rest) ∧ FramesWire (fs ++ [f]) v ∧
    (∀ g ∈ fs ++ [f], g.payload.length ≤ 16384) ∧ (∀ g ∈ fs, g.type ≠ 7) ∧
    After cfg w fs T E w' ∧ Kills cfg T E w' f e ∧
    ∀ a g b T1 E1 w1 e1, fs = a ++ g :: b → After cfg w a T1 E1 w1 → ¬ Kills cfg T1 E1 w1 g e1

/-! ### One frame -/

theorem Outcome_ub_bind {ε α β : Type} (u : UB) (k : α → Outcome ε β) :
    ((.ub u : Outcome ε α) >>= k) = .ub u := rfl

theorem Outcome_err_bind {ε α β : Type} (e : ε) (k : α → Outcome ε β) :
    ((.err e : Outcome ε α) >>= k) = .err e := rfl

theorem status_plain (sgn : Bool) (E : DynTable) (hE : E.WF) (n : UInt16) :
    ∃ x, (encodeBlock sgn E (finishResponse { status := n }).headers : Outcome Stop (Bytes × DynTable)) = .ok x :=
  encodeBlock_defined (finishResponse_plain (by simp)) hE

/-- Acting on one frame: the ways not to return are those of `Kills`. -/
theorem processFrame_ending {cfg : Cfg W} {s : Sim W} (hd : s.dec.WF) (he : s.enc.WF) (f : FrameReader)
    (e : Stop ⊕ UB) :
    ending (processFrame cfg s f) = some e ↔ Kills cfg s.dec.abs s.enc.abs s.world (asFrame f) e := by
  have hblk : ∀ block, FieldBlock (asFrame f) block → (f.headersBlock : Outcome Stop Bytes) = .ok block := by
    intro block hb
    unfold FieldBlock at hb
    unfold FrameReader.headersBlock FrameReader.priority FrameReader.hasFlag
    by_cases hp : f.header.flags &&& 0x20 = 0
    · rw [if_pos (show (asFrame f).flags &&& 0x20 = 0 from hp)] at hb
      have hb : f.payload = block := hb
      simp [hp, hb]
    · rw [if_neg (show ¬ (asFrame f).flags &&& 0x20 = 0 from hp)] at hb
      change ∃ p, p.length = 5 ∧ f.payload = p ++ block at hb
      obtain ⟨p, h1, h2⟩ := hb
      simp [hp, h2, h1]
  constructor
  · intro h
    unfold processFrame at h
    split at h
    · split at h
      · cases h
      · split at h
        · cases h
        · rename_i u hu; exact absurd hu ((C24_in_bounds_partial f).1 u)
        · cases h
    · split at h
      · rename_i ht
        cases hb : (f.headersBlock : Outcome Stop Bytes) with
        | err x =>
          unfold FrameReader.headersBlock at hb
          split at hb
          · split at hb <;> cases hb
          · cases hb
        | ub u =>
          rw [hb, Outcome_ub_bind] at h
          unfold FrameReader.headersBlock FrameReader.priority FrameReader.hasFlag at hb
          split at hb
          · rename_i hf
            split at hb
            · rename_i hl
              cases hb
              cases h
              exact .priority ht (by simpa [asFrame] using hf) hl
            · cases hb
          · cases hb
        | ok block =>
          have hfb := FieldBlock.of_headersBlock hb
          rw [hb, Outcome.bind_ok] at h
          split at h
          · rename_i u hu
            obtain ⟨rfl, reps, x, r, out, T, hr, hw, hx, hbad⟩ := (C17_ub_exact _ hd _ u).mp hu
            cases h
            exact .integer ht block hfb reps x r out T hr hw hx hbad
          · cases h
          · rename_i hs dec' hdc
            obtain ⟨reps, b1, b2, -⟩ := C13_decode_sound _ _ hd _ _ hdc
            have hra : ReadsAs s.dec.abs block hs dec'.abs := ⟨reps, b1, b2⟩
            cases hp : getHeader hs b!":path" with
            | none =>
              obtain ⟨s', hs'⟩ : ∃ s', answerRequest cfg { s with dec := dec' } f.header.streamId hs = .ok s' := by
                obtain ⟨x, hx⟩ := encodeBlock_defined (ε := Stop) (sgn := cfg.charSigned) (hs := []) (by simp) he
                exact ⟨_, by simp only [answerRequest, processRequest, hp, Outcome.bind_ok, hx]; rfl⟩
              rw [hs'] at h
              cases h
            | some path =>
              cases hm : getHeader hs b!":method" with
              | none =>
                obtain ⟨s', hs'⟩ : ∃ s', answerRequest cfg { s with dec := dec' } f.header.streamId hs = .ok s' := by
                  obtain ⟨x, hx⟩ := encodeBlock_defined (ε := Stop) (sgn := cfg.charSigned) (hs := []) (by simp) he
                  exact ⟨_, by simp only [answerRequest, processRequest, hp, hm, Outcome.bind_ok, hx]; rfl⟩
                rw [hs'] at h
                cases h
              | some method =>
                have hp' := getHeader_some_iff.mp hp
                have hm' := getHeader_some_iff.mp hm
                rcases hh : cfg.getHandler path method ⟨method, path, hs⟩ s.world with ⟨o, w'⟩
                cases o with
                | otherExn =>
                  simp only [answerRequest, processRequest, hp, hm, hh, Outcome_err_bind] at h
                  cases h
                  exact .thrown ht block hfb hs _ hra path method hp' hm' (by rw [hh])
                | stdExn =>
                  obtain ⟨x, hx⟩ := status_plain cfg.charSigned s.enc he 500
                  simp only [answerRequest, processRequest, hp, hm, hh, Outcome.bind_ok, emit, hx] at h
                  cases h
                | resp r =>
                  obtain ⟨g1, g2⟩ := C21_exact (ε := Stop) cfg.charSigned (finishResponse r).headers s.enc he
                  by_cases hc : cfg.charSigned = true ∧ WritesHigh s.enc.abs (finishResponse r).headers
                  · simp only [answerRequest, processRequest, hp, hm, hh, Outcome.bind_ok, emit, g1 hc,
                      Outcome_ub_bind] at h
                    cases h
                    exact .high ht block hfb hs _ hra path method hp' hm' r _ (by rw [hh]) (finishResponse_fields r)
                      hc.1 hc.2
                  · obtain ⟨x, t', hx⟩ := g2 hc
                    simp only [answerRequest, processRequest, hp, hm, hh, Outcome.bind_ok, emit, hx] at h
                    cases h
      · split at h
        · rename_i ht
          by_cases hl : f.payload.length < 4
          · have : e = .inr .subspan := by
              unfold FrameReader.readWindowUpdate WindowUpdate.parse at h
              match hp : f.payload, hl with
              | [], _ => rw [hp] at h; cases h; rfl
              | [a], _ => rw [hp] at h; cases h; rfl
              | [a, b], _ => rw [hp] at h; cases h; rfl
              | [a, b, c], _ => rw [hp] at h; cases h; rfl
            subst this
            exact .window ht hl
          · exfalso
            unfold FrameReader.readWindowUpdate WindowUpdate.parse at h
            match hp : f.payload, hl with
            | a :: b :: c :: d :: rest, _ => rw [hp] at h; simp at h; cases h
            | [], hl => simp at hl
            | [a], hl => simp at hl
            | [a, b], hl => simp at hl
            | [a, b, c], hl => simp at hl
        · split at h <;> cases h
  · intro h
    cases h with
    | window ht hl =>
      have ht : f.header.type = 8 := ht
      have hl : f.payload.length < 4 := hl
      unfold processFrame
      rw [if_neg (by rw [ht]; decide), if_neg (by rw [ht]; decide), if_pos ht]
      unfold FrameReader.readWindowUpdate WindowUpdate.parse
      match hp : f.payload, hl with
      | [], _ => rfl
      | [a], _ => rfl
      | [a, b], _ => rfl
      | [a, b, c], _ => rfl
    | priority ht hf hl =>
      have ht : f.header.type = 1 := ht
      have hl : f.payload.length < 5 := hl
      have hf : f.header.flags &&& 0x20 ≠ 0 := hf
      unfold processFrame
      rw [if_neg (by rw [ht]; decide), if_pos ht]
      have : (f.headersBlock : Outcome Stop Bytes) = .ub .subspan := by
        simp [FrameReader.headersBlock, FrameReader.priority, FrameReader.hasFlag, hf, hl]
      rw [this]
      rfl
    | integer ht block hb reps x r out T' hx hr he' hi =>
      have ht : f.header.type = 1 := ht
      unfold processFrame
      rw [if_neg (by rw [ht]; decide), if_pos ht, hblk block hb, Outcome.bind_ok,
        (C17_ub_exact _ hd block .derefError).mpr ⟨rfl, reps, x, r, out, T', hx, hr, he', hi⟩]
      rfl
    | thrown ht block hb fields T' hr path method hp hm hh =>
      have ht : f.header.type = 1 := ht
      obtain ⟨t', h1, -, -⟩ := ReadsAs.decode hd hr
      unfold processFrame
      rw [if_neg (by rw [ht]; decide), if_pos ht, hblk block hb, Outcome.bind_ok, h1]
      rcases hx : cfg.getHandler path method ⟨method, path, fields⟩ s.world with ⟨o, w'⟩
      rw [hx] at hh
      have hh : o = .otherExn := hh
      subst hh
      simp only [answerRequest, processRequest, getHeader_some_iff.mpr hp, getHeader_some_iff.mpr hm, hx,
        Outcome_err_bind]
      rfl
    | high ht block hb fields T' hr path method hp hm r out hh hf hc hw =>
      have ht : f.header.type = 1 := ht
      obtain ⟨t', h1, -, -⟩ := ReadsAs.decode hd hr
      unfold processFrame
      rw [if_neg (by rw [ht]; decide), if_pos ht, hblk block hb, Outcome.bind_ok, h1]
      rcases hx : cfg.getHandler path method ⟨method, path, fields⟩ s.world with ⟨o, w'⟩
      rw [hx] at hh
      have hh : o = .resp r := hh
      subst hh
      rw [ResponseFields.unique hf (finishResponse_fields r)] at hw
      have := (C21_exact (ε := Stop) cfg.charSigned (finishResponse r).headers s.enc he).1 ⟨hc, hw⟩
      simp only [answerRequest, processRequest, getHeader_some_iff.mpr hp, getHeader_some_iff.mpr hm, hx,
        Outcome.bind_ok, emit, this, Outcome_ub_bind]
      rfl

/-! ### The tables along a connection -/

theorem responses_enqueued (cs : List Bytes) : responses (cs.map Ev.enqueue) = [] := by
  induction cs with
  | nil => rfl
  | cons c cs ih => simp [responses, ih]

/-- The encoder's table is that of the responses so far. -/
theorem Steps.encoder {cfg : Cfg W} {c : Bool} {w : W} {now : Nat} {s : Sim W}
    (h : Steps cfg c (init w now) s) : Ended s.st ∨ (s.dec.WF ∧ s.enc.WF ∧
      Remembers ⟨[], 65536⟩ (((responses s.trace).map asAnswer).flatMap fun a => a.2.1) s.enc.abs) := by
  refine Steps.inv (P := fun s => Ended s.st ∨ (s.dec.WF ∧ s.enc.WF ∧
      Remembers ⟨[], 65536⟩ (((responses s.trace).map asAnswer).flatMap fun a => a.2.1) s.enc.abs)) ?_ h
    (.inr ⟨⟨rfl, Nat.zero_le _⟩, ⟨rfl, Nat.zero_le _⟩, .nil _⟩)
  intro b s t _ st hs
  rcases hs with hs | ⟨hd, he, hm⟩
  · exact .inl (st.ended hs).1
  · have keep : ∀ es, t.trace = s.trace ++ es → responses es = [] → t.dec = s.dec → t.enc = s.enc →
        Ended t.st ∨ (t.dec.WF ∧ t.enc.WF ∧
          Remembers ⟨[], 65536⟩ (((responses t.trace).map asAnswer).flatMap fun a => a.2.1) t.enc.abs) := by
      intro es h1 h2 h3 h4
      refine .inr ⟨h3 ▸ hd, h4 ▸ he, ?_⟩
      rw [h1, responses_append, h2, List.append_nil, h4]
      exact hm
    cases st with
    | frame _ s1 hst hdr hh hl hr hw ha =>
      cases ha with
      | badHeaders block e dec' ht hb hdd => exact .inl (.inr (.inl rfl))
      | request data hs dec' resp evs w' block enc' ht hb hdd hr he' =>
        obtain ⟨-, -, -, hwf⟩ := C13_decode_sound _ _ hd _ _ hdd
        refine .inr ⟨hwf, encodeBlock_wf he he', ?_⟩
        have hev : responses evs = [] := by cases hr <;> rfl
        simp only [answerEvs, responses_append, hev, responses_enqueued, responses, List.append_nil,
          List.nil_append, List.map_append, List.flatMap_append, List.map_cons, List.map_nil,
          List.flatMap_cons, List.flatMap_nil]
        exact hm.append (encodeBlock_remembers he he')
      | settings => exact keep _ (by simp only [enq, List.append_assoc]; rfl) rfl rfl rfl
      | _ => exact keep _ rfl rfl rfl rfl
    | readFailed _ e =>
      cases e <;> exact keep [.readFail _] rfl rfl rfl rfl
    | preface _ rest => exact keep _ (by simp only [enq, emit, List.append_assoc]; rfl) rfl rfl rfl
    | close =>
      refine keep _ rfl ?_ rfl rfl
      exact responses_enqueued _
    | env => exact keep [] (by simp) rfl rfl rfl
    | readsLeft => exact keep [] (by simp) rfl rfl rfl
    | oversized => exact keep [] (by simp) rfl rfl rfl
    | _ => exact keep _ rfl rfl rfl rfl

theorem Steps.after {cfg : Cfg W} {c : Bool} {w : W} {now : Nat} {s : Sim W}
    (h : Steps cfg c (init w now) s) (hs : ¬ Ended s.st) :
    s.dec.WF ∧ s.enc.WF ∧ After cfg w ((frames s.trace).map asFrame) s.dec.abs s.enc.abs s.world := by
  obtain ⟨k1, k2, k3⟩ := h.encoder.resolve_left hs
  obtain ⟨good, bad, T, w', q1, q2, rfl, q4⟩ := h.servedTo
  rcases q4 with ⟨rfl, -, rfl⟩ | ⟨q4, -⟩
  · rw [List.append_nil] at q1
    exact ⟨k1, k2, _, _, by rw [q1]; exact q2, k3⟩
  · exact absurd q4 hs

/-- The event of one of the frames. -/
theorem frames_event {tr : List Ev} {a b : List FrameReader} {g : FrameReader} (h : frames tr = a ++ g :: b) :
    ∃ pre post, tr = pre ++ .frame g :: post ∧ frames pre = a := by
  induction tr generalizing a with
  | nil => simp [frames] at h
  | cons x xs ih =>
    have other : (∀ f, x ≠ .frame f) → ∃ pre post, x :: xs = pre ++ .frame g :: post ∧ frames pre = a := by
      intro hx
      have e : ∀ ys, frames (x :: ys) = frames ys := by
        intro ys
        cases x <;> first | rfl | exact absurd rfl (hx _)
      rw [e] at h
      obtain ⟨pre, post, rfl, h2⟩ := ih h
      exact ⟨x :: pre, post, rfl, by rw [e]; exact h2⟩
    cases x with
    | frame f =>
      simp only [frames] at h
      cases a with
      | nil =>
        simp only [List.nil_append, List.cons.injEq] at h
        exact ⟨[], xs, by rw [h.1]; rfl, rfl⟩
      | cons y a =>
        simp only [List.cons_append, List.cons.injEq] at h
        obtain ⟨pre, post, rfl, h2⟩ := ih h.2
        exact ⟨.frame f :: pre, post, rfl, by simp only [frames, h2, h.1]⟩
    | _ => exact other (by simp)

/-- A frame that was acted on is not one that ends the call. -/
theorem Steps.not_killed {cfg : Cfg W} {c : Bool} {w w' : W} {now : Nat} {s : Sim W}
    (h : Steps cfg c (init w now) s) {a b : List Frame} {g : Frame} {T E : Table} {e : Stop ⊕ UB}
    (hf : (frames s.trace).map asFrame = a ++ g :: b) (ha : After cfg w a T E w') : ¬ Kills cfg T E w' g e := by
  intro hk
  obtain ⟨l1, l2, h1, rfl, h2⟩ := List.map_eq_append_iff.mp hf
  obtain ⟨g0, l3, rfl, rfl, h3⟩ := List.map_eq_cons_iff.mp h2
  obtain ⟨pre, post, ht, hp⟩ := frames_event h1
  obtain ⟨s1, s2, b', evs, k1, k2, k3, k4, -⟩ := h.at_frame rfl ht
  subst k2
  cases k3 with
  | frame _ s1' hst hd hh hl hr hw ha' =>
    obtain ⟨d1, d2, d3⟩ := k1.after (by simp [Ended, hst])
    rw [hp] at d3
    obtain ⟨rfl, rfl, rfl⟩ := d3.det ha
    obtain ⟨evs', e1, -⟩ := ha'.events
    have hg : (⟨hd, (s1.rbuf.drop 9).take hd.length.toNat⟩ : FrameReader) = g0 := by
      rw [show ({ s1' with rbuf := s1'.rbuf.drop (9 + hd.length.toNat) } : Sim W).trace = s1'.trace from rfl, e1] at k4
      simp only [List.append_assoc, List.append_cancel_left_eq, List.cons_append, List.cons.injEq,
        Ev.frame.injEq] at k4
      exact k4.1
    rw [hg] at ha'
    have := (processFrame_ending (cfg := cfg) (s := { s1 with trace := s1.trace ++ [.frame g0] }) d1 d2 g0 e).mpr hk
    rw [ha'.processFrame] at this
    cases this
  | readFailed _ e => cases e <;> simp [Sim.readFailed, emit, updateState] at k4
  | preface _ rest => simp [enq, emit] at k4
  | close => simp [enq, goawayChunks] at k4
  | _ => simp at k4

/-! ### The call -/

/-- Of two readings of the same octets one continues the other. -/
theorem FramesWire.comparable {fs fs' : List Frame} {w w' r r' : Bytes} (h : FramesWire fs w)
    (h' : FramesWire fs' w') (e : w ++ r = w' ++ r') : fs <+: fs' ∨ fs' <+: fs := by
  induction h generalizing fs' w' with
  | nil => exact .inl List.nil_prefix
  | cons f fs v vs hf hs ih =>
    cases h' with
    | nil => exact .inr List.nil_prefix
    | cons f' fs' v' vs' hf' hs' =>
      simp only [List.append_assoc] at e
      obtain ⟨rfl, rfl, e2⟩ := hf.unique hf' e
      rcases ih hs' e2 with k | k
      · exact .inl (List.cons_prefix_cons.mpr ⟨rfl, k⟩)
      · exact .inr (List.cons_prefix_cons.mpr ⟨rfl, k⟩)

theorem Serves.prefix {cfg : Cfg W} {w0 w : W} {fs p : List Frame} {calls : List (HttpRequest × HOut)}
    {answers : List (Nat × List Header × Bytes)} {T : Table} (h : Serves cfg w0 fs calls answers T w)
    (hp : p <+: fs) : ∃ c a T' w', Serves cfg w0 p c a T' w' := by
  induction h with
  | nil =>
    rw [List.prefix_nil.mp hp]
    exact ⟨_, _, _, _, .nil⟩
  | request ins calls answers T T' w w' f block fields path method o r out h ht hb hr hp' hm hh ho hf ih =>
    rcases List.prefix_concat_iff.mp hp with rfl | hp
    · exact ⟨_, _, _, _, .request _ _ _ _ _ _ _ _ _ _ _ _ _ _ _ h ht hb hr hp' hm hh ho hf⟩
    · exact ih hp
  | incomplete ins calls answers T T' w f block fields h ht hb hr hn ih =>
    rcases List.prefix_concat_iff.mp hp with rfl | hp
    · exact ⟨_, _, _, _, .incomplete _ _ _ _ _ _ _ _ _ h ht hb hr hn⟩
    · exact ih hp
  | other ins calls answers T w f h ht hs ih =>
    rcases List.prefix_concat_iff.mp hp with rfl | hp
    · exact ⟨_, _, _, _, .other _ _ _ _ _ _ h ht hs⟩
    · exact ih hp

theorem loop_ends {cfg : Cfg W} (n : Nat) : ∀ (s : Sim W) (e : Stop ⊕ UB), ending (s.loop cfg n) = some e →
    s.loop cfg n = .err .fuel ∨ ∃ s1, Loops cfg s s1 ∧ ending (s1.iter cfg) = some e := by
  induction n with
  | zero => intro s e _; exact .inl rfl
  | succ n ih =>
    intro s e h
    rw [loop] at h ⊢
    cases hi : s.iter cfg with
    | ub u =>
      rw [hi] at h
      exact .inr ⟨s, .refl s, by rw [hi]; exact h⟩
    | err x =>
      rw [hi] at h
      exact .inr ⟨s, .refl s, by rw [hi]; exact h⟩
    | ok x =>
      obtain ⟨r, t⟩ := x
      rw [hi] at h
      cases r with
      | some r => cases h
      | none =>
        simp only [Outcome.bind_ok] at h ⊢
        rcases ih t e h with k | ⟨s1, k1, k2⟩
        · exact .inl k
        · exact .inr ⟨s1, .step hi k1, k2⟩

/-- The state in which a call ends without a result. -/
theorem process_ends {cfg : Cfg W} {w : W} {now : Nat} {s : Sim W} {env : Env} {e : Stop ⊕ UB}
    (hu : InUse cfg w now s) (hon : Honest cfg env s) (h : ending (s.process cfg env) = some e) :
    ∃ (s2 : Sim W) (g : FrameReader) (v rest : Bytes), Steps cfg false (init w now) s2 ∧ s2.st = .awaitingFrame ∧
      received s.trace ++ pending env.reads = preface ++ (v ++ rest) ∧
      FramesWire ((frames s2.trace).map asFrame ++ [asFrame g]) v ∧
      (∀ x ∈ (frames s2.trace).map asFrame ++ [asFrame g], x.payload.length ≤ 16384) ∧
      Kills cfg s2.dec.abs s2.enc.abs s2.world (asFrame g) e := by
  have hl : ending (loop cfg
      { s with hs := env.hs, reads := env.reads, writes := env.writes : Sim W }.budget
      { s with hs := env.hs, reads := env.reads, writes := env.writes }) = some e := by
    simp only [process] at h
    generalize loop cfg _ _ = x at h ⊢
    cases x with
    | ok x => cases h
    | err x => exact h
    | ub x => exact h
  rcases loop_ends _ _ _ hl with h | ⟨s1, h1, h2⟩
  · exact absurd h (loop_enough (cfg := cfg) _ _ 0 (Nat.le_refl _)).1
  · obtain ⟨hs1, ho1⟩ := h1.steps
    rcases iter_ends h2 with ⟨n, t, k1, k2, k3⟩ | ⟨s2, k1, k2, hst, hd, hh, hsz, hl, hf⟩
    · have := hon s1 h1 k1 n t k2
      omega
    · have hsteps : Steps cfg false (init w now) s2 :=
        (hu.steps.trans ((Steps.one (.env s env)).trans hs1)).trans k1
      obtain ⟨passed, evs, post, i⟩ := Inv.steps hsteps (Inv.init cfg w false now)
      have hps : passed = true := by
        cases passed with
        | true => rfl
        | false => exact absurd hst (by simpa using i.state)
      subst hps
      have hr := i.recv
      rw [if_pos rfl] at hr
      obtain ⟨v, hv, hr⟩ := hr
      obtain ⟨g1, g2⟩ := hh.wire hl
      have e' : received s.trace ++ pending env.reads =
          preface ++ ((v ++ s2.rbuf.take (9 + hd.length.toNat)) ++
            (s2.rbuf.drop (9 + hd.length.toNat) ++ pending s2.reads)) := by
        have : s2.offered = received s.trace ++ pending env.reads := k2.trans ho1
        rw [← this, offered, hr]
        rw [List.append_assoc, List.append_assoc, List.append_assoc, ← List.append_assoc (s2.rbuf.take _),
          List.take_append_drop]
      obtain ⟨d1, d2, -⟩ := hsteps.after (by simp [Ended, hst])
      refine ⟨s2, _, _, _, hsteps, hst, e', hv.snoc g1, ?_, ?_⟩
      · intro f hf
        simp only [List.mem_append, List.mem_map, List.mem_singleton] at hf
        rcases hf with ⟨f, hf, rfl⟩ | rfl
        · exact (i.sizes f hf).1
        · simp only [asFrame, g2]; exact hsz
      · exact (processFrame_ending (s := { s2 with trace := s2.trace ++
          [.frame ⟨hd, (s2.rbuf.drop 9).take hd.length.toNat⟩] }) d1 d2 _ e).mp hf

/-- C47, the causes: if `process()` does not return, because of undefined behaviour or because an exception
leaves it, the client has sent a frame that does this, of one of the five kinds of `Kills`; the frames before
it were served. -/
theorem C47_caused (cfg : Cfg W) (w : W) (now : Nat) (s : Sim W) (env : Env) (e : Stop ⊕ UB)
    (hu : InUse cfg w now s) (hon : Honest cfg env s) (h : ending (s.process cfg env) = some e) :
    Lethal cfg w (received s.trace ++ pending env.reads) e := by
  obtain ⟨s2, g, v, rest, k1, k2, k3, k4, k5, k6⟩ := process_ends hu hon h
  have hne : ¬ Ended s2.st := by simp [Ended, k2]
  refine ⟨_, asFrame g, v, rest, _, _, _, k3, k4, k5, ?_, (k1.after hne).2.2, k6, ?_⟩
  · intro x hx h7
    obtain ⟨f, hf, rfl⟩ := List.mem_map.mp hx
    obtain ⟨a, b, hab⟩ := List.append_of_mem hf
    obtain ⟨pre, post, ht, -⟩ := frames_event hab
    have key := Steps.inv (P := fun s : Sim W => ∀ e ∈ s.trace, Ender e → Ended s.st)
      (fun _ _ _ _ st => Step.ender st) k1 (by simp [init])
    exact hne (key (.frame f) (by rw [ht]; simp) (.inl h7))
  · intro a x b T1 E1 w1 e1 hab hA
    exact k1.not_killed hab hA

/-- C47, exactly: with a transport that works, delivers what it has and takes what it is given, `process()`
ends with `e` if and only if the octets received so far or in this call hold a frame that does this. -/
theorem C47_exact (cfg : Cfg W) (w : W) (now : Nat) (s0 : Sim W) (env : Env) (e : Stop ⊕ UB)
    (h0 : InUse cfg w now s0) (hu : Unbroken s0.trace) (hs : Sound env) (hp : Prompt cfg env s0) :
    ending (s0.process cfg env) = some e ↔ Lethal cfg w (received s0.trace ++ pending env.reads) e := by
  have hon : Honest cfg env s0 := by
    intro s1 h1 h2 n t h3
    obtain ⟨t', h4⟩ := hp.writes s1 h1 h2
    rw [h4] at h3
    cases h3
    exact Nat.le_refl _
  refine ⟨C47_caused cfg w now s0 env e h0 hon, ?_⟩
  rintro ⟨fs, f, v, rest, T, E, w', hin, hv, hsz, h7, hA, hk, hfirst⟩
  have hns : ∀ {s : Sim W}, Steps cfg true (init w now) s → ¬ fs ++ [f] <+: (frames s.trace).map asFrame := by
    rintro s hst ⟨more, hm⟩
    exact hst.not_killed (a := fs) (g := f) (b := more) (by rw [← hm]; simp) hA hk
  cases hpr : ending (s0.process cfg env) with
  | some e' =>
    obtain ⟨s2, g, v2, rest2, k1, k2, k3, k4, k5, k6⟩ := process_ends h0 hon hpr
    have hne : ¬ Ended s2.st := by simp [Ended, k2]
    have hA2 := (k1.after hne).2.2
    have hcmp : fs ++ [f] <+: (frames s2.trace).map asFrame ++ [asFrame g] ∨
        (frames s2.trace).map asFrame ++ [asFrame g] <+: fs ++ [f] :=
      FramesWire.comparable hv k4 (List.append_cancel_left (hin.symm.trans k3))
    have heq : fs ++ [f] = (frames s2.trace).map asFrame ++ [asFrame g] := by
      rcases hcmp with hc | hc
      · rcases List.prefix_concat_iff.mp hc with hc | ⟨more, hc⟩
        · exact hc
        · exact absurd hk (k1.not_killed (a := fs) (g := f) (b := more) (by rw [← hc]; simp) hA)
      · rcases List.prefix_concat_iff.mp hc with hc | ⟨more, hc⟩
        · exact hc.symm
        · exact absurd k6 (hfirst _ (asFrame g) more _ _ _ _ (by rw [← hc]; simp) hA2)
    obtain ⟨rfl, hg⟩ := List.append_inj' heq rfl
    cases hg
    obtain ⟨rfl, rfl, rfl⟩ := hA2.det hA
    obtain ⟨d1, d2, -⟩ := k1.after hne
    have g1 := (processFrame_ending (cfg := cfg) (s := s2) d1 d2 g e').mpr k6
    have g2 := (processFrame_ending (cfg := cfg) (s := s2) d1 d2 g e).mpr hk
    exact g1.symm.trans g2
  | none =>
    exfalso
    obtain ⟨⟨r, s⟩, hproc⟩ := ending_ok.mp hpr
    have hproc' := hproc
    unfold process at hproc'
    obtain ⟨⟨x, s2⟩, h1, h2⟩ := Outcome.bind_eq_ok.mp hproc'
    cases h2
    obtain ⟨s1, l1, l2⟩ := loop_ok _ h1
    obtain ⟨-, k2, k3⟩ := iter_uses l2
    have huse := l1.uses
    have hoff : s2.offered = received s0.trace ++ pending env.reads :=
      (iter_keeps l2).1.trans l1.steps.2
    have hcall : Called cfg w now r (s2.emit (.returned r)) := ⟨s0, env, h0, hproc⟩
    have hrec : received (s2.emit (.returned r)).trace = received s2.trace := by simp [emit, received]
    have huse2 : Uses { s0 with hs := env.hs, reads := env.reads, writes := env.writes } s2 :=
      l1.uses.trans (iter_uses l2).1
    have hub : Unbroken s2.trace := Unbroken.uses
      (s := { s0 with hs := env.hs, reads := env.reads, writes := env.writes }) hu hs.reads hs.writes huse2
    have hub' : Unbroken (s2.emit (.returned r)).trace := by
      refine ⟨fun e he => hub.1 e ?_, fun a e he => hub.2 a e ?_⟩ <;> simpa [emit] using he
    -- the frames acted on are among those before `f`
    have hsub : (frames (s2.emit (.returned r)).trace).map asFrame <+: fs := by
      obtain ⟨calls, hrun⟩ := hcall.run
      obtain ⟨passed, evs, post, i⟩ := Inv.steps (run_steps cfg calls hrun) (Inv.init cfg w true now)
      have hr := i.recv
      cases passed with
      | false => rw [hr.1]; exact List.nil_prefix
      | true =>
        rw [if_pos rfl] at hr
        obtain ⟨v1, g1, g2⟩ := hr
        have e1 : preface ++ (v1 ++ ((s2.emit (.returned r)).rbuf ++ pending s2.reads)) =
            preface ++ (v ++ rest) := by
          rw [← hin, ← hoff, offered, ← hrec, g2]
          simp
        rcases FramesWire.comparable hv g1 (List.append_cancel_left e1).symm with hc | hc
        · exact absurd hc (hns hcall.steps)
        · rcases List.prefix_concat_iff.mp hc with hc | hc
          · exact absurd (by rw [hc]; exact List.prefix_refl _) (hns hcall.steps)
          · exact hc
    cases r with
    | wantWrite => exact absurd rfl (k2 (hp.writes s1 l1))
    | wantRead =>
      have hreads : s2.reads = [] := by
        refine k3 rfl ?_ fun e he => hp.reads e (huse.2.1.subset he)
        intro hst
        have hw : Waits s1 := Steps.waits (h0.steps.trans ((Steps.one (.env s0 env)).trans l1.steps.1))
          (Waits.init w now)
        have hn := hw.mp hst
        obtain ⟨-, -, -, evs, he, -⟩ := id huse
        rw [he] at hn
        simp only [handshakes, List.filterMap_append, List.append_eq_nil_iff] at hn
        obtain ⟨t, ht⟩ := hp.hs hn.1
        exact ⟨t, huse.1.trans ht⟩
      have hrc : received (s2.emit (.returned .wantRead)).trace = preface ++ (v ++ rest) := by
        rw [← hin, ← hoff]
        simp [offered, hreads, pending, emit, received]
      rcases C26_frames_complete cfg w now _ hcall with ⟨-, hl⟩ | ⟨v', rest', g1, g2, g3⟩
      · rw [hrc, List.length_append, show preface.length = 24 by decide] at hl
        omega
      · rw [hrc] at g1
        exact hns hcall.steps (hv.prefix g2 (List.append_cancel_left g1) g3)
    | discard =>
      have hpre : received (s2.emit (.returned .discard)).trace <+: preface ++ (v ++ rest) :=
        ⟨pending s2.reads, by rw [hrec, ← hin, ← hoff]; rfl⟩
      have hnst := hns hcall.steps
      rcases C85_reason cfg w now s0 _ env h0 hproc with ⟨-, e, he, hf⟩ | ⟨-, hr⟩
      · exact he (hs.hs e hf)
      · generalize (s2.emit (.returned .discard)).trace = tr at hr hub' hpre hsub hnst
        have h24 : preface.length = 24 := by decide
        cases hr with
        | notHttp2 h hn =>
          apply hn
          exact List.prefix_of_prefix_length_le (List.prefix_append _ _) hpre (by omega)
        | readFailed e he h =>
          have := hub'.1 e h
          subst this
          rcases he with he | he <;> cases he
        | writeFailed a e he h => exact he (hub'.2 a e h)
        | goaway g h ht => exact h7 _ (hsub.subset (List.mem_map_of_mem h)) ht
        | refused ins g calls answers T w' h hs hf =>
          rw [h, List.map_append] at hsub
          obtain ⟨c, a, S, -⟩ := hA
          exact C83_refused cfg w _ _ _ _ _ _ hs hf (Serves.prefix S hsub)
        | oversized v' rest' hv' h ho =>
          obtain ⟨z, hz⟩ := hpre
          rw [h, List.append_assoc, List.append_assoc] at hz
          have hz := List.append_cancel_left hz
          exact hnst (hv.prefix_oversized hsz hv' (r' := rest' ++ z) (by simpa using hz.symm) (Oversized.append ho z))

/-- C47, exactly when it holds: with such a transport `process()` returns if and only if there is no such frame. -/
theorem C47_returns (cfg : Cfg W) (w : W) (now : Nat) (s0 : Sim W) (env : Env) (h0 : InUse cfg w now s0)
    (hu : Unbroken s0.trace) (hs : Sound env) (hp : Prompt cfg env s0) :
    (∃ r s, s0.process cfg env = .ok (r, s)) ↔ ∀ e, ¬ Lethal cfg w (received s0.trace ++ pending env.reads) e := by
  constructor
  · rintro ⟨r, s, h⟩ e hf
    have := (C47_exact cfg w now s0 env e h0 hu hs hp).mpr hf
    rw [h] at this
    cases this
  · intro h
    cases he : ending (s0.process cfg env) with
    | none =>
      obtain ⟨⟨r, s⟩, hx⟩ := ending_ok.mp he
      exact ⟨r, s, hx⟩
    | some e => exact absurd ((C47_exact cfg w now s0 env e h0 hu hs hp).mp he) (h e)

/-- A client that sends the preface and a WINDOW_UPDATE frame of one octet, whatever comes after it. -/
theorem exLethal (rest : Bytes) :
    Lethal exCfg 0 (preface ++ ([0, 0, 1, 8, 0, 0, 0, 0, 0, 1] ++ rest)) (.inr .subspan) := by
  refine ⟨[], ⟨8, 0, 0, [1]⟩, _, rest, _, _, _, rfl, .one ⟨[0, 0, 1], [0, 0, 0, 0], rfl, rfl, rfl, rfl, rfl⟩, by simp,
    by simp, ⟨_, _, .nil, .nil _⟩, .window rfl (by simp), by simp⟩

/-- This ends `process()`. -/
example : ending ((init 0 0).process exCfg (exEnv (preface ++ ([0, 0, 1, 8, 0, 0, 0, 0, 0, 1] ++ exGet)) [])) =
    some (.inr .subspan) := by
  refine (C47_exact exCfg 0 0 _ _ _ .new ⟨by simp [init], by simp [init]⟩ ⟨?_, ?_, ?_⟩
    ⟨fun _ => ⟨_, rfl⟩, ?_, ?_⟩).mpr ?_
  · simp [exEnv]
  · simp [exEnv]
  · simp [exEnv]
  · simp [exEnv]
  · exact fun s1 h => prompt_loops h 5 (by decide +kernel)
  · have := exLethal exGet
    simpa [exEnv, init, received, pending] using this

/-- A request that is answered, and a header block of the octet 0xff: a frame of that kind as well. -/
example : Lethal exCfg 0 (preface ++ exGet ++ [0, 0, 1, 1, 5, 0, 0, 0, 3, 0xff]) (.inr .derefError) := by
  have := C47_caused exCfg 0 0 (init 0 0) (exEnv (preface ++ exGet ++ [0, 0, 1, 1, 5, 0, 0, 0, 3, 0xff]) [71])
    (.inr .derefError) .new (fun s1 h => honest_loops h 5 (by decide +kernel)) (by decide +kernel)
  simpa [exEnv, init, received, pending] using this

/-- Handlers that answer with the field `x-a: été`, where `char` is signed. -/
def exHigh : Cfg Unit :=
  ⟨fun _ _ _ w => (.resp { status := 200, headers := [⟨b!"x-a", [0xc3, 0xa9, 0x74, 0xc3, 0xa9]⟩] }, w), true⟩

/-- A request for them is such a frame. -/
example : Lethal exHigh () (preface ++ exGet) (.inr .index) := by
  have := C47_caused exHigh () 0 (init () 0) (exEnv (preface ++ exGet) [71])
    (.inr .index) .new (fun s1 h => honest_loops h 5 (by decide +kernel)) (by decide +kernel)
  simpa [exEnv, init, received, pending] using this

end Sim
end Ion
