import Verif.Lemmas.ConnMore
import Verif.Lemmas.ConnExample
import Verif.Props.ConnOutput
import Verif.Spec.Response
import Verif.Props.ConnInput

/-!
# Connection: handlers and responses (C41–C43, C45)
-/

namespace Ion
open Spec
namespace Sim
variable {W : Type}

/-! ### C41 -/

/-- The same state with handler calls shown as those of the contained application. -/
def shown (s : Sim W) : Sim W := { s with trace := s.trace.map containedEv }

/-- Applies a function to a result. -/
def mapOk {α β : Type} (f : α → β) : Outcome Stop α → Outcome Stop β
  | .ok a => .ok (f a)
  | .err e => .err e
  | .ub u => .ub u

theorem bind_mapOk {α α' β β' : Type} {f : α → α'} {g : β → β'} {x : Outcome Stop α}
    {x' : Outcome Stop α'} {k : α → Outcome Stop β} {k' : α' → Outcome Stop β'}
    (hx : x' = mapOk f x) (hk : ∀ a, k' (f a) = mapOk g (k a)) : (x' >>= k') = mapOk g (x >>= k) := by
  subst hx
  cases x with
  | ok a => exact hk a
  | err e => rfl
  | ub u => rfl

theorem shown_enq (s : Sim W) (cs : List Bytes) : s.shown.enq cs = (s.enq cs).shown := by
  simp [enq, shown, containedEv]

theorem shown_processRequest (cfg : Cfg W) (s : Sim W) (hs : List Header) :
    processRequest (contained cfg) s.shown hs =
      mapOk (fun x => (x.1, x.2.shown)) (processRequest cfg s hs) := by
  cases hp : getHeader hs b!":path" with
  | none => simp [processRequest, hp, mapOk]
  | some path =>
    cases hm : getHeader hs b!":method" with
    | none => simp [processRequest, hm, mapOk]
    | some method =>
      have hc : (contained cfg).getHandler path method ⟨method, path, hs⟩ s.shown.world =
          match cfg.getHandler path method ⟨method, path, hs⟩ s.world with
          | (.stdExn, w') => (.resp { status := 500 }, w')
          | x => x := rfl
      rcases h : cfg.getHandler path method ⟨method, path, hs⟩ s.world with ⟨o, w'⟩
      rw [h] at hc
      cases o <;> simp only at hc <;> simp [processRequest, hp, hm, h, hc, mapOk, emit] <;>
        simp [shown, containedEv]

theorem shown_answerRequest (cfg : Cfg W) (s : Sim W) (sid : UInt32) (hs : List Header) :
    answerRequest (contained cfg) s.shown sid hs = mapOk shown (answerRequest cfg s sid hs) := by
  simp only [answerRequest]
  refine bind_mapOk (shown_processRequest cfg s hs) ?_
  · rintro ⟨resp, s1⟩
    refine bind_mapOk (f := id) (x := encodeBlock cfg.charSigned s1.enc resp.headers) ?_ ?_
    · show encodeBlock cfg.charSigned s1.enc resp.headers = _
      cases (encodeBlock cfg.charSigned s1.enc resp.headers : Outcome Stop _) <;> rfl
    · rintro ⟨block, enc⟩
      simp only [id, mapOk, Outcome.ok.injEq]
      by_cases hb : resp.body = []
      · simp only [hb, if_true, writeHeadersResponse_eq]
        simp [emit, shown, enq, containedEv]
      · simp only [hb, if_false, writeHeadersResponse_eq]
        rw [writeDataResponse_eq sid _ _ rfl, writeDataResponse_eq sid _ _ rfl]
        simp [emit, shown, enq, containedEv]

theorem shown_processFrame (cfg : Cfg W) (s : Sim W) (f : FrameReader) :
    processFrame (contained cfg) s.shown f = mapOk shown (processFrame cfg s f) := by
  simp only [processFrame]
  split
  · split
    · rfl
    · cases f.readSettings with
      | ok l =>
        simp only [writeSettingsAck_eq, shown_enq]
        rfl
      | err e => rfl
      | ub u => rfl
  · split
    · refine bind_mapOk (f := id) (x := f.headersBlock) ?_ ?_
      · cases (f.headersBlock : Outcome Stop _) <;> rfl
      · intro block
        simp only [id]
        show (match decodeBlock s.dec block with
          | .ub u => _
          | .err _ dec => _
          | .ok headers dec => _) = _
        cases hd : decodeBlock s.dec block with
        | ok hs dec => exact shown_answerRequest cfg { s with dec } _ hs
        | err e dec => rfl
        | ub u => rfl
    · split
      · refine bind_mapOk (f := id) (x := f.readWindowUpdate) ?_ (fun _ => rfl)
        cases (f.readWindowUpdate : Outcome Stop _) <;> rfl
      · split <;> rfl

theorem shown_frameCase (cfg : Cfg W) (s : Sim W) :
    frameCase (contained cfg) s.shown = mapOk (fun x => (x.1, x.2.shown)) (frameCase cfg s) := by
  simp only [frameCase]
  refine bind_mapOk (f := fun x => (x.1, x.2.shown)) ?_ ?_
  · simp only [tryReadFrame]
    show (if s.rbuf.length < 9 then _ else _) = _
    split
    · rfl
    · refine bind_mapOk (f := id) (x := FrameHeader.parse s.rbuf) ?_ ?_
      · show FrameHeader.parse s.rbuf = _
        cases (FrameHeader.parse s.rbuf : Outcome Stop _) <;> rfl
      · intro hd
        simp only [id]
        split
        · rfl
        · show (if s.rbuf.length < 9 + hd.length.toNat then _ else _) = _
          split
          · rfl
          · refine bind_mapOk (f := shown) ?_ (fun _ => rfl)
            rw [← shown_processFrame]
            simp [emit, shown, containedEv]
  · rintro ⟨again, s⟩
    cases again <;> rfl

theorem shown_fill (rs : List ReadRes) (s : Sim W) : fillLoop rs s.shown = (fillLoop rs s).shown := by
  induction rs generalizing s with
  | nil =>
    simp only [fillLoop]
    show (if s.rbuf.length + _ ≥ _ then _ else _) = _
    split
    · rfl
    · simp [Sim.readFailed, emit, shown, containedEv]
  | cons r rs ih =>
    simp only [fillLoop]
    show (if s.rbuf.length + _ ≥ _ then _ else _) = _
    split
    · rfl
    · cases r with
      | fail e => cases e <;> simp [Sim.readFailed, emit, shown, containedEv, updateState]
      | data bs t =>
        simp only
        rw [← ih]
        simp [emit, shown, containedEv]

theorem shown_readPreface (s : Sim W) :
    readPreface s.shown = ((readPreface s).1, (readPreface s).2.shown) := by
  simp only [readPreface, writeServerSettings_eq]
  by_cases h1 : s.rbuf.length < clientPreface.length
  · have h1' : s.shown.rbuf.length < clientPreface.length := h1
    rw [if_pos h1, if_pos h1']
  · have h1' : ¬ s.shown.rbuf.length < clientPreface.length := h1
    rw [if_neg h1, if_neg h1']
    by_cases h2 : s.rbuf.take clientPreface.length ≠ clientPreface
    · have h2' : s.shown.rbuf.take clientPreface.length ≠ clientPreface := h2
      rw [if_pos h2, if_pos h2']
    · have h2' : ¬ s.shown.rbuf.take clientPreface.length ≠ clientPreface := h2
      rw [if_neg h2, if_neg h2']
      simp [shown, emit, enq, updateState, discardProcessed, containedEv]

theorem shown_flush (s : Sim W) : flush s.shown = mapOk shown (flush s) := by
  by_cases h : s.wbuf = []
  · simp [flush, shown, h, mapOk]
  · simp only [flush, shown, h, if_false]
    generalize s.writes.headD (.fail .wantReadOrWrite) = r
    cases r with
    | fail e => cases e <;> simp [mapOk, emit, shown, updateState, containedEv]
    | wrote n t =>
      simp only [emit]
      by_cases hn : n > s.wbuf.length
      · simp [hn, mapOk]
      · simp [hn, mapOk, shown, containedEv]

theorem shown_handshake (s : Sim W) :
    handleHandshake s.shown = ((handleHandshake s).1, (handleHandshake s).2.shown) := by
  obtain ⟨st, rbuf, wbuf, dec, enc, last, world, hs, reads, writes, trace⟩ := s
  cases hs with
  | done t => simp [handleHandshake, shown, emit, updateState, containedEv]
  | fail e => cases e <;> rfl

theorem shown_dispatch (cfg : Cfg W) (s : Sim W) :
    dispatch (contained cfg) s.shown = mapOk (fun x => (x.1, x.2.shown)) (dispatch cfg s) := by
  simp only [dispatch]
  show (match s.st with
    | .awaitingPreface => _
    | .awaitingFrame => _
    | .closing => _
    | .protocolError => _
    | .clientClosed => _
    | .awaitingHandshake => _) = _
  cases hst : s.st with
  | awaitingPreface =>
    simp only [shown_readPreface]
    rcases readPreface s with ⟨r, t⟩
    cases r with
    | success => exact shown_frameCase cfg t
    | _ => rfl
  | awaitingFrame => exact shown_frameCase cfg s
  | closing => simp [mapOk, emit, shown, updateState, containedEv]
  | protocolError => 
    simp only [mapOk, Sim.close, shown, hst]
    simp [writeGoAway, writeFrameHeader, enqueue, emit, updateState, containedEv]
  | clientClosed => rfl
  | awaitingHandshake => rfl

theorem shown_turn (cfg : Cfg W) (s : Sim W) :
    turn (contained cfg) s.shown = mapOk (fun x => (x.1, x.2.shown)) (turn cfg s) := by
  simp only [turn]
  refine bind_mapOk (f := shown) ?_ ?_
  · exact shown_flush s
  · intro s
    show (if s.wbuf ≠ [] then _ else _) = _
    split
    · rfl
    · rw [← shown_dispatch]
      congr 1
      exact shown_fill s.reads s

theorem shown_iter (cfg : Cfg W) (s : Sim W) :
    iter (contained cfg) s.shown = mapOk (fun x => (x.1, x.2.shown)) (iter cfg s) := by
  simp only [iter]
  show (if s.st = .awaitingHandshake then _ else _) = _
  split
  · rw [shown_handshake]
    rcases handleHandshake s with ⟨r, t⟩
    cases r with
    | some r => rfl
    | none => exact shown_turn cfg t
  · exact shown_turn cfg s

theorem shown_loop (cfg : Cfg W) (n : Nat) (s : Sim W) :
    loop (contained cfg) n s.shown = mapOk (fun x => (x.1, x.2.shown)) (loop cfg n s) := by
  induction n generalizing s with
  | zero => rfl
  | succ n ih =>
    simp only [loop]
    refine bind_mapOk (shown_iter cfg s) ?_
    rintro ⟨r, s⟩
    cases r with
    | some r => rfl
    | none => exact ih s

theorem shown_call (cfg : Cfg W) (s : Sim W) (c : Call) :
    call (contained cfg) s.shown c = mapOk shown (call cfg s c) := by
  cases c with
  | process env =>
    simp only [call, process]
    refine bind_mapOk (f := fun x => (x.1, x.2.shown)) ?_ (fun _ => rfl)
    refine bind_mapOk (shown_loop cfg _ { s with hs := env.hs, reads := env.reads, writes := env.writes }) ?_
    rintro ⟨r, s⟩
    simp [mapOk, emit, shown, containedEv]
  | close =>
    simp only [call, mapOk, Sim.close]
    show (Outcome.ok (if s.st = .closing then _ else _) : Outcome Stop _) = _
    split
    · rfl
    · by_cases hp : s.st = .protocolError <;>
        simp [shown, writeGoAway, writeFrameHeader, enqueue, emit, updateState, containedEv, hp]

/-- C41: a `std::exception` from a handler amounts to an empty 500 response: whatever is done with a
connection, it behaves exactly as with the application whose handlers return such a response instead
of throwing; the two states agree in everything but the record of how handlers returned. -/
theorem C41_contained (cfg : Cfg W) (calls : List Call) (w : W) (now : Nat) :
    run (contained cfg) calls (init w now) =
      mapOk (fun s => { s with trace := s.trace.map containedEv }) (run cfg calls (init w now)) := by
  have key : ∀ (calls : List Call) (s : Sim W),
      run (contained cfg) calls s.shown = mapOk shown (run cfg calls s) := by
    intro calls
    induction calls with
    | nil => intro s; rfl
    | cons c cs ih =>
      intro s
      simp only [run]
      exact bind_mapOk (shown_call cfg s c) ih
  exact key calls (init w now)

/-- A response in a trace, with everything that belongs to it. -/
theorem Steps.answer_at {cfg : Cfg W} {c : Bool} {w0 : W} {now : Nat} {s : Sim W}
    (h : Steps cfg c (Sim.init w0 now) s) {pre post : List Ev} {sid : UInt32} {resp : HttpResponse}
    {block : Bytes} (ht : s.trace = pre ++ .respond sid resp block :: post) :
    ∃ pre' f evs dec enc w evs0 data hs dec' w' enc' rest,
      pre = pre' ++ .frame f :: evs ∧ f.header.type = 1 ∧ f.header.streamId = sid ∧
      Served cfg w0 (frames pre') dec enc w evs0 ∧
      (f.headersBlock : Outcome Stop _) = .ok data ∧ decodeBlock dec data = .ok hs dec' ∧
      Responds cfg w hs resp w' evs ∧
      (encodeBlock cfg.charSigned enc resp.headers : Outcome Stop _) = .ok (block, enc') ∧
      post = (responseChunks sid resp block).map Ev.enqueue ++
        .logged hs resp.status resp.body.length :: rest := by
  obtain ⟨pre', f, evs, dec, enc, w, evs0, data, hs, dec', w', enc', rfl, h1, rfl, h3, h4, h5, h6, h7⟩ :=
    h.origin pre _ post ht sid resp block rfl
  have ht' : s.trace = pre' ++ .frame f :: (evs ++ .respond f.header.streamId resp block :: post) := by
    rw [ht]; simp
  obtain ⟨dec2, enc2, w2, evs02, k0, k | k⟩ := h.answers pre' f _ ht' h1
  · obtain ⟨data2, hs2, dec2', resp2, evs2, w2', block2, enc2', rest, k1, k2, k3, k4, k5⟩ := k
    obtain ⟨rfl, rfl, rfl, rfl⟩ := h3.det k0
    rw [h4] at k1; cases k1
    rw [h5] at k2; cases k2
    obtain ⟨rfl, rfl, rfl⟩ := h6.det k3
    rw [h7] at k4; cases k4
    refine ⟨pre', f, evs, dec, enc, w, evs0, data, hs, dec', w', enc', rest, rfl, h1, rfl, h3, h4, h5,
      h6, h7, ?_⟩
    simp only [answerEvs, List.append_assoc] at k5
    have := List.append_cancel_left k5
    simp at this
    simpa using this
  · obtain ⟨-, -, -, -, -, -, -, -, k⟩ := k
    simp [responses] at k

/-- Handlers are called right after a HEADERS frame. -/
theorem Steps.handled_after {cfg : Cfg W} {c : Bool} {w0 : W} {now : Nat} {s : Sim W}
    (h : Steps cfg c (Sim.init w0 now) s) :
    Along (fun pre e => ∀ q o, e = .handled q o → ∃ pre' f, pre = pre' ++ [.frame f] ∧
      f.header.type = 1) s.trace := by
  refine Steps.inv (P := fun s => Along (fun pre e => ∀ q o, e = .handled q o → ∃ pre' f,
    pre = pre' ++ [.frame f] ∧ f.header.type = 1) s.trace) ?_ h (Along.nil _)
  intro b s t hb st i
  obtain ⟨es, he, ha⟩ := st.adds
  rw [he]
  cases ha with
  | none => rw [List.append_nil]; exact i
  | goaway cs h =>
    refine i.append_triv ?_
    intro e hm pre q o h; subst h; simp at hm
  | preface h1 h2 =>
    refine i.append_triv ?_
    intro e hm pre q o h; subst h; simp at hm
  | frame f evs h hr hev =>
    refine i.append ?_
    intro p e r hpq q o hre
    subst hre
    obtain ⟨s1, ha, hs1⟩ := st.acts he
    rw [← hs1] at he
    have hmem : Ev.handled q o ∈ Ev.frame f :: evs := by rw [hpq]; simp
    cases ha with
    | request data hs dec' resp' evs2 w' block' enc' ht hb hd' hr he2 =>
      simp only [List.append_assoc, List.singleton_append] at he
      have hes := List.append_cancel_left he
      simp only [List.cons.injEq, true_and] at hes
      refine ⟨s.trace, f, ?_, ht⟩
      rw [← hes] at hpq
      cases p with
      | nil => simp at hpq
      | cons x p =>
        simp only [List.cons_append, List.cons.injEq, answerEvs, List.append_assoc] at hpq
        obtain ⟨rfl, hpq⟩ := hpq
        have hno : ∀ y p', evs2 = y :: p' → p' = [] := by
          intro y p' h; cases hr <;> simp at h <;> exact h.2
        have hno2 : Ev.handled q o ∉ [Ev.respond f.header.streamId resp' block'] ++
            ((responseChunks f.header.streamId resp' block').map Ev.enqueue ++
              [.logged hs resp'.status resp'.body.length]) := by simp
        rcases append_split hpq with ⟨q', h'⟩ | ⟨p', h', -⟩
        · cases p with
          | nil => simp
          | cons y p =>
            have := hno _ _ h'
            simp at this
        · rw [List.singleton_append] at hno2
          rw [List.nil_append] at h'
          rw [h'] at hno2
          simp at hno2
    | settings l ht hf h =>
      simp only [enq, List.append_assoc] at he
      rw [← List.append_cancel_left he] at hmem
      simp at hmem
    | _ =>
      rw [← List.append_cancel_left he] at hmem
      simp at hmem
  | _ => exact i.snoc fun _ _ h => by cases h

/-- What a handler's outcome means for the response: its response, or an empty one with status 500. -/
def Gives (o : HOut) (r : HttpResponse) : Prop := o = .resp r ∨ (o = .stdExn ∧ r = { status := 500 })

theorem Steps.handled_at {cfg : Cfg W} {c : Bool} {w0 : W} {now : Nat} {s : Sim W}
    (h : Steps cfg c (Sim.init w0 now) s) {pre post : List Ev} {q : HttpRequest} {o : HOut}
    (ht : s.trace = pre ++ .handled q o :: post) :
    ∃ pre' f r block post', pre = pre' ++ [.frame f] ∧ f.header.type = 1 ∧ Gives o r ∧
      post = .respond f.header.streamId (finishResponse r) block :: post' := by
  obtain ⟨pre', f, rfl, h1⟩ := h.handled_after pre _ post ht q o rfl
  have ht' : s.trace = pre' ++ .frame f :: (.handled q o :: post) := by rw [ht]; simp
  obtain ⟨dec2, enc2, w2, evs02, k0, k | k⟩ := h.answers pre' f _ ht' h1
  · obtain ⟨data2, hs2, dec2', resp2, evs2, w2', block2, enc2', rest, k1, k2, k3, k4, k5⟩ := k
    cases k3 with
    | missing h => simp [answerEvs] at k5
    | handler path method r w' hp hm h =>
      simp [answerEvs] at k5
      exact ⟨pre', f, r, block2, _, rfl, h1, .inl k5.1.2, k5.2⟩
    | threw path method w' hp hm h =>
      simp [answerEvs] at k5
      exact ⟨pre', f, _, block2, _, rfl, h1, .inr ⟨k5.1.2, rfl⟩, k5.2⟩
  · obtain ⟨-, -, -, -, -, -, -, k, -⟩ := k
    simp [handled] at k

/-- C41: a handler that threw was called for the HEADERS frame just before, and a response with status
500 and no body is produced on that frame's stream right after. -/
theorem C41_status (cfg : Cfg W) (calls : List Call) (w : W) (now : Nat) (s : Sim W)
    (h : run cfg calls (init w now) = .ok s) (pre post : List Ev) (q : HttpRequest)
    (ht : s.trace = pre ++ .handled q .stdExn :: post) :
    ∃ pre' f resp block post', pre = pre' ++ [.frame f] ∧ f.header.type = 1 ∧
      post = .respond f.header.streamId resp block :: post' ∧ resp.status = 500 ∧ resp.body = [] := by
  obtain ⟨pre', f, r, block, post', h1, h2, h3, h4⟩ := (run_steps cfg calls h).handled_at ht
  rcases h3 with h3 | ⟨-, rfl⟩
  · cases h3
  · exact ⟨pre', f, _, block, post', h1, h2, h4, rfl, rfl⟩

/-- An application whose handler for "/" throws and whose other handlers answer. -/
def exThrows : Cfg Nat :=
  { getHandler := fun path _ _ n =>
      if path = [47] then (.stdExn, n + 1) else (.resp { status := 200 }, n + 1) }

/-- A HEADERS frame on stream 3 for `GET /index.html`. -/
def exGet3 : Bytes := [0, 0, 2, 1, 5, 0, 0, 0, 3, 0x82, 0x85]

/-- A request whose handler throws, and another one answered after it. -/
example : ∃ calls s, run exThrows calls (init 0 0) = .ok s ∧
    ((handled s.trace).map Prod.snd == [.stdExn, .resp { status := 200 }] &&
    (responses s.trace).map (fun x => (x.1, x.2.1.status)) == [(1, 500), (3, 200)]) = true :=
  Shows.run (e := exEnv (clientPreface ++ exGet ++ exGet3) [57]) (es := []) (by decide +kernel)

/-! ### C42, C43 -/

/-- C42 is false: a request without `:path` or `:method` is answered with a HEADERS frame that carries
no field at all, not even `:status`. -/
theorem C42_refuted : ∃ r s, Called exCfg 0 0 r s ∧ (r == .wantRead &&
    responses s.trace == [(1, { status := 400 }, [])] && handled s.trace == [] &&
    (produced s.trace).drop 27 == [0, 0, 0, 1, 5, 0, 0, 0, 1]) = true :=
  Shows.called (e := exEnv (clientPreface ++ [0, 0, 1, 1, 5, 0, 0, 0, 1, 0x82]) [36]) (es := [])
    (by decide +kernel)

/-- C42 for requests that reach a handler: the response's fields are those of the handler's response as
`ResponseFields` says. Missing: requests without `:path` or `:method`; their responses have status 400
and no fields. -/
theorem C42_fields_partial (cfg : Cfg W) (calls : List Call) (w : W) (now : Nat) (s : Sim W)
    (h : run cfg calls (init w now) = .ok s) (pre post : List Ev) (sid : UInt32) (resp : HttpResponse)
    (block : Bytes) (ht : s.trace = pre ++ .respond sid resp block :: post) :
    ∃ pre' f, f.header.type = 1 ∧ f.header.streamId = sid ∧
      ((∃ q o r, pre = pre' ++ [.frame f, .handled q o] ∧ Gives o r ∧
        ResponseFields r resp.headers ∧ resp.status = r.status ∧ resp.body = r.body) ∨
      (pre = pre' ++ [.frame f] ∧ resp = { status := 400 })) := by
  obtain ⟨pre', f, evs, dec, enc, w, evs0, data, hs, dec', w', enc', rest, h1, h2, h3, h4, h5, h6, h7, h8,
    h9⟩ := (run_steps cfg calls h).answer_at ht
  refine ⟨pre', f, h2, h3, ?_⟩
  cases h7 with
  | missing h => exact .inr ⟨h1, rfl⟩
  | handler path method r w' hp hm h =>
    exact .inl ⟨_, _, r, h1, .inl rfl, finishResponse_fields r, rfl, rfl⟩
  | threw path method w' hp hm h =>
    exact .inl ⟨_, _, _, h1, .inr ⟨rfl, rfl⟩, finishResponse_fields _, rfl, rfl⟩

/-- A request that reaches a handler. -/
example : ∃ calls s, run exCfg calls (init 0 0) = .ok s ∧ ((handled s.trace).length == 1 &&
    (responses s.trace).map (fun x => x.2.1.headers.map Header.value) ==
      [[[50, 48, 48], [50], [105, 111, 110], [105, 111, 110]]]) = true :=
  Shows.run (e := exEnv (clientPreface ++ exGet) [71]) (es := []) (by decide +kernel)

/-- C43: the frames produced for a response are its HEADERS frame and DATA frames `ds`; the fields ion
adds contain a `content-length`, namely the decimal number of octets in `ds`, exactly when there are
DATA frames. -/
theorem C43_content_length (cfg : Cfg W) (calls : List Call) (w : W) (now : Nat) (s : Sim W)
    (h : run cfg calls (init w now) = .ok s) (pre post : List Ev) (q : HttpRequest) (o : HOut)
    (sid : UInt32) (resp : HttpResponse) (block : Bytes) (hb : block.length < 2 ^ 24)
    (ht : s.trace = pre ++ .handled q o :: .respond sid resp block :: post) :
    ∃ (chunks : List Bytes) (rest : List Ev) (flags : UInt8) (stream : Nat) (ds : List Frame)
      (own len : List Header), post = chunks.map Ev.enqueue ++ rest ∧
      FramesWire (⟨1, flags, stream, block⟩ :: ds) chunks.flatten ∧
      (∀ d ∈ ds, d.type = 0 ∧ d.stream = stream) ∧
      resp.headers = own ++ len ++ [⟨b!"server", b!"ion"⟩, ⟨b!"x-powered-by", b!"ion"⟩] ∧
      (∃ r status, Gives o r ∧ own = ⟨b!":status", status⟩ :: r.headers) ∧
      (if ds = [] then len = [] else
        ∃ v, len = [⟨b!"content-length", v⟩] ∧ IsDecimal (ds.map Frame.payload).flatten.length v) := by
  have ht2 : s.trace = (pre ++ [.handled q o]) ++ .respond sid resp block :: post := by rw [ht]; simp
  obtain ⟨pre', f, evs, dec, enc, w, evs0, data, hs, dec', w', enc', rest, h1, h2, h3, h4, h5, h6, h7, h8,
    h9⟩ := (run_steps cfg calls h).answer_at ht2
  obtain ⟨ds, k1, k2⟩ := responseChunks_frames sid resp block hb
  obtain ⟨r, hg, rfl⟩ : ∃ r, Gives o r ∧ resp = finishResponse r := by
    obtain ⟨pre'', f', r, block', post', e1, e2, e3, e4⟩ := (run_steps cfg calls h).handled_at ht
    simp at e4
    exact ⟨r, e3, e4.1.2.1⟩
  obtain ⟨status, len, f1, f2, f3⟩ := finishResponse_fields r
  refine ⟨responseChunks sid (finishResponse r) block, _, _, _, ds, ⟨b!":status", status⟩ :: r.headers,
    if r.body.length = 0 then [] else [⟨b!"content-length", len⟩], h9, k1, ?_, ?_, ⟨r, status, hg, rfl⟩, ?_⟩
  · intro d hd
    exact ⟨(k2.data d hd).1, (k2.data d hd).2.1⟩
  · rw [f3]
  · have hbody : (finishResponse r).body = r.body := rfl
    have hlen := k2.octets
    rw [hbody] at hlen
    by_cases hd : ds = []
    · rw [if_pos hd]
      subst hd
      simp at hlen
      rw [if_pos (by simp [← hlen])]
    · rw [if_neg hd]
      refine ⟨len, ?_, by rw [hlen]; exact f2⟩
      rw [if_neg]
      intro h0
      cases ds with
      | nil => exact hd rfl
      | cons d ds =>
        have := (k2.data d (.head _)).2.2.1
        have h0 := List.length_eq_zero_iff.mp h0
        rw [h0] at hlen
        simp at hlen
        exact this hlen.1

/-- A response with a body of two octets: one HEADERS frame (35 octets) and one DATA frame. -/
example : ∃ calls s, run exCfg calls (init 0 0) = .ok s ∧ ((handled s.trace).length == 1 &&
    (responses s.trace).all (fun x => decide (x.2.2.length < 2 ^ 24)) &&
    (produced s.trace).length == 71) = true :=
  Shows.run (e := exEnv (clientPreface ++ exGet) [71]) (es := []) (by decide +kernel)

/-! ### C45 -/

/-- Requests among frames: the streams of HEADERS frames. -/
def requestStreams (fs : List FrameReader) : List UInt32 :=
  (fs.filter fun f => f.header.type == 1).map fun f => f.header.streamId

theorem Steps.all_answered {cfg : Cfg W} {c : Bool} {w0 : W} {now : Nat} {s : Sim W}
    (h : Steps cfg c (Sim.init w0 now) s) :
    ¬ Ended s.st → (responses s.trace).map Prod.fst = requestStreams (frames s.trace) := by
  refine Steps.inv (P := fun s => ¬ Ended s.st →
    (responses s.trace).map Prod.fst = requestStreams (frames s.trace)) ?_ h (fun _ => rfl)
  intro b s t hb st i hne
  have i := i fun he => hne (st.ended he).1
  cases st with
  | frame _ s1 h hd hh hl hr hw ha =>
    simp only at hne ⊢
    generalize (⟨hd, (s.rbuf.drop 9).take hd.length.toNat⟩ : FrameReader) = f at ha
    cases ha with
    | request data hs dec' resp evs w' block enc' ht hb hd' hr' he =>
      have h1 : responses evs = [] ∧ frames evs = [] := by cases hr' <;> exact ⟨rfl, rfl⟩
      simp [answerEvs, responses, frames, h1.1, h1.2, requestStreams, ht, i]
    | badHeaders block e dec' ht hb hd' => simp [Ended] at hne
    | badSettings e ht hf h => simp [Ended] at hne
    | settings l ht hf h => simp [enq, responses, frames, requestStreams, ht, i]
    | settingsAck ht hf => simp [responses, frames, requestStreams, ht, i]
    | windowUpdate w ht h => simp [responses, frames, requestStreams, ht, i]
    | goaway ht => simp [responses, frames, requestStreams, ht, i]
    | other h1 h4 h7 h8 => simp [responses, frames, requestStreams, h1, i]
  | readFailed _ e hw hst hr =>
    cases e <;> simpa [Sim.readFailed, emit, updateState, frames, responses] using i
  | preface _ rest h hw hr => simpa [enq, emit, frames, responses] using i
  | close _ h => simpa [enq, frames, responses] using i
  | _ => simpa [frames, responses] using i

/-- C45 is false: a request that has arrived together with the end of the stream is dropped. Here the
server has received a complete request, calls no handler and discards the connection. -/
theorem C45_refuted : ∃ r s v, Called exCfg 0 0 r s ∧ (r == .discard && frames s.trace == [] &&
    handled s.trace == [] && responses s.trace == []) = true ∧
    received s.trace = Spec.preface ++ v ∧ FramesWire [⟨1, 5, 1, [0x82, 0x84]⟩] v := by
  obtain ⟨r, s, h1, h2⟩ : ∃ r s, Called exCfg 0 0 r s ∧ (r == .discard && frames s.trace == [] &&
      handled s.trace == [] && responses s.trace == [] &&
      received s.trace == Spec.preface ++ exGet) = true :=
    Shows.called (e := exEnv clientPreface []) (es := [⟨.done 1, [.data exGet 4, .fail .connectionClosed],
      [.wrote 27 3]⟩]) (by decide +kernel)
  simp only [Bool.and_eq_true, beq_iff_eq] at h2
  refine ⟨r, s, exGet, h1, by simp [h2], h2.2, .one ⟨[0, 0, 2], [0, 0, 0, 1], ?_⟩⟩
  decide

/-- C45 until the server has noticed the end of the stream (or an error): when a connection waits for
input, everything received is the preface, frames, and the beginning of a frame; and each HEADERS frame
among them has been answered, in order. Missing: requests read in the same `fill_read_buffer` as the
end of the stream. -/
theorem C45_answered_partial (cfg : Cfg W) (w : W) (now : Nat) (s : Sim W)
    (h : Called cfg w now .wantRead s) (hl : 24 ≤ (received s.trace).length) :
    ∃ v rest, received s.trace = Spec.preface ++ (v ++ rest) ∧
      FramesWire ((frames s.trace).map asFrame) v ∧ Waiting rest ∧
      (responses s.trace).map (fun x => x.1.toNat) =
        (((frames s.trace).map asFrame).filter fun f => f.type == 1).map Frame.stream := by
  rcases C26_frames_complete cfg w now s h with ⟨-, h1⟩ | ⟨v, rest, h1, h2, h3⟩
  · omega
  · refine ⟨v, rest, h1, h2, h3, ?_⟩
    obtain ⟨p, evs, -, c⟩ := h.waiting
    rcases c with ⟨-, l⟩ | ⟨-, hst, -⟩
    · omega
    · have := h.steps.all_answered (by simp [hst, Ended])
      have := congrArg (List.map UInt32.toNat) this
      simp only [List.map_map, requestStreams] at this
      rw [show (fun x : UInt32 × HttpResponse × Bytes => x.1.toNat) = UInt32.toNat ∘ Prod.fst from rfl,
        this, List.filter_map, List.map_map]
      rfl

/-- A connection with two requests, both answered. -/
example : ∃ r s, Called exCfg 0 0 r s ∧ (r == .wantRead && (received s.trace).length == 55 &&
    (responses s.trace).length == 2) = true :=
  Shows.called (e := exEnv (clientPreface ++ exGet ++ exSettings ++ exGet) [71, 9, 24]) (es := [])
    (by decide +kernel)

end Sim
end Ion
