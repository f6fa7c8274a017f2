import Verif.Model.Connection
import Verif.Spec.Trace
import Verif.Lemmas.Frames

/-!
# A connection's behaviour as small steps

`run_steps`: everything a sequence of calls does is a sequence of the steps below. Invariants of
connections are proved by cases on `Step`.
-/

namespace Ion
namespace Sim

variable {W : Type}

/-! ### Trace projections -/

@[simp] theorem received_append (a b : List Ev) : received (a ++ b) = received a ++ received b := by
  induction a with
  | nil => rfl
  | cons e a ih => cases e <;> simp [received, ih]

@[simp] theorem produced_append (a b : List Ev) : produced (a ++ b) = produced a ++ produced b := by
  induction a with
  | nil => rfl
  | cons e a ih => cases e <;> simp [produced, ih]

@[simp] theorem accepted_append (a b : List Ev) : accepted (a ++ b) = accepted a ++ accepted b := by
  induction a with
  | nil => rfl
  | cons e a ih =>
    cases e with
    | write x r => cases r <;> simp [accepted, ih]
    | _ => simp [accepted, ih]

@[simp] theorem frames_append (a b : List Ev) : frames (a ++ b) = frames a ++ frames b := by
  induction a with
  | nil => rfl
  | cons e a ih => cases e <;> simp [frames, ih]

@[simp] theorem handled_append (a b : List Ev) : handled (a ++ b) = handled a ++ handled b := by
  induction a with
  | nil => rfl
  | cons e a ih => cases e <;> simp [handled, ih]

@[simp] theorem writeAttempts_append (a b : List Ev) :
    writeAttempts (a ++ b) = writeAttempts a ++ writeAttempts b := by
  induction a with
  | nil => rfl
  | cons e a ih => cases e <;> simp [writeAttempts, ih]

/-! ### Producing output -/

/-- Appends chunks to the write buffer. -/
def enq (s : Sim W) (cs : List Bytes) : Sim W :=
  { s with wbuf := s.wbuf ++ cs.flatten, trace := s.trace ++ cs.map Ev.enqueue }

@[simp] theorem produced_enqueues (cs : List Bytes) : produced (cs.map Ev.enqueue) = cs.flatten := by
  induction cs with
  | nil => rfl
  | cons c cs ih => simp [produced, ih]
@[simp] theorem received_enqueues (cs : List Bytes) : received (cs.map Ev.enqueue) = [] := by
  induction cs with
  | nil => rfl
  | cons c cs ih => simp [received, ih]
@[simp] theorem accepted_enqueues (cs : List Bytes) : accepted (cs.map Ev.enqueue) = [] := by
  induction cs with
  | nil => rfl
  | cons c cs ih => simp [accepted, ih]
@[simp] theorem frames_enqueues (cs : List Bytes) : frames (cs.map Ev.enqueue) = [] := by
  induction cs with
  | nil => rfl
  | cons c cs ih => simp [frames, ih]
@[simp] theorem handled_enqueues (cs : List Bytes) : handled (cs.map Ev.enqueue) = [] := by
  induction cs with
  | nil => rfl
  | cons c cs ih => simp [handled, ih]
@[simp] theorem writeAttempts_enqueues (cs : List Bytes) :
    writeAttempts (cs.map Ev.enqueue) = [] := by
  induction cs with
  | nil => rfl
  | cons c cs ih => simp [writeAttempts, ih]

theorem enqueue_eq (s : Sim W) (d : Bytes) : s.enqueue d = s.enq [d] := by
  simp [enqueue, enq, emit]

theorem enq_enq (s : Sim W) (a b : List Bytes) : (s.enq a).enq b = s.enq (a ++ b) := by
  simp [enq]

theorem enq_nil (s : Sim W) : s.enq [] = s := by simp [enq]

/-- The octets of the initial SETTINGS frame. -/
def settingsChunks : List Bytes :=
  [(⟨18, 4, 0, 0⟩ : FrameHeader).serialize, (⟨3, 100⟩ : Setting).serialize,
    (⟨4, 65535⟩ : Setting).serialize, (⟨5, 16384⟩ : Setting).serialize]

theorem writeServerSettings_eq (s : Sim W) : s.writeServerSettings = s.enq settingsChunks := by
  simp only [writeServerSettings, writeSettings, writeFrameHeader, enqueue_eq, List.foldl, enq_enq]
  rfl

theorem writeSettingsAck_eq (s : Sim W) :
    s.writeSettingsAck = s.enq [(⟨0, 4, 1, 0⟩ : FrameHeader).serialize] := by
  simp only [writeSettingsAck, writeFrameHeader, enqueue_eq]

theorem writeHeadersResponse_eq (s : Sim W) (sid : UInt32) (data : Bytes) (flags : UInt8) :
    s.writeHeadersResponse sid data flags =
      s.enq [(⟨UInt32.ofNat data.length, 1, flags, sid⟩ : FrameHeader).serialize, data] := by
  simp only [writeHeadersResponse, writeFrameHeader, enqueue_eq, enq_enq]
  rfl

theorem writeGoAway_eq (s : Sim W) (sid code : UInt32) :
    s.writeGoAway sid code =
      s.enq [(⟨8, 7, 0, 0⟩ : FrameHeader).serialize, (⟨sid, code⟩ : GoAway).serialize] := by
  simp only [writeGoAway, writeFrameHeader, enqueue_eq, enq_enq]
  rfl

/-- The chunks `write_data_response` produces. -/
def dataChunks (sid : UInt32) (body : Bytes) : List Bytes :=
  if _h : body.length = 0 then []
  else
    let n := min body.length 16256
    (⟨UInt32.ofNat n, 0, if body.length - n = 0 then 1 else 0, sid⟩ : FrameHeader).serialize ::
      body.take n :: dataChunks sid (body.drop n)
termination_by body.length
decreasing_by simp only [List.length_drop]; omega

theorem writeDataResponse_eq (sid : UInt32) (n : Nat) : ∀ (body : Bytes), body.length = n →
    ∀ s : Sim W, s.writeDataResponse sid body = s.enq (dataChunks sid body) := by
  induction n using Nat.strongRecOn with
  | _ n ih =>
    intro body hn s
    rw [writeDataResponse, dataChunks]
    by_cases h : body.length = 0
    · simp [h, enq_nil]
    · rw [dif_neg h, dif_neg h]
      simp only [writeFrameHeader, enqueue_eq, enq_enq]
      rw [ih (body.drop (min body.length (maxFrameSize - 128))).length
        (by simp only [List.length_drop, maxFrameSize]; omega) _ rfl, enq_enq]
      rfl

/-- The chunks of the GOAWAY frame `close()` produces in state `st`. -/
def goawayChunks (st : CState) : List Bytes :=
  [(⟨8, 7, 0, 0⟩ : FrameHeader).serialize,
    (⟨1, if st ≠ .protocolError then 0 else 1⟩ : GoAway).serialize]

theorem close_eq (s : Sim W) (h : s.st ≠ .closing) :
    s.close = { s.enq (goawayChunks s.st) with st := .closing } := by
  simp only [close, h, if_false, writeGoAway_eq]
  rfl

theorem close_closing (s : Sim W) (h : s.st = .closing) : s.close = s := by simp [close, h]

/-! ### Answering a request -/

/-- The chunks of a response. -/
def responseChunks (sid : UInt32) (resp : HttpResponse) (block : Bytes) : List Bytes :=
  (⟨UInt32.ofNat block.length, 1, if resp.body = [] then 5 else 4, sid⟩ : FrameHeader).serialize ::
    block :: dataChunks sid resp.body

/-- What a request with decoded headers `hs` leads to. -/
inductive Responds (cfg : Cfg W) (w : W) (hs : List Header) : HttpResponse → W → List Ev → Prop
  | missing (h : getHeader hs b!":path" = none ∨ getHeader hs b!":method" = none) :
      Responds cfg w hs { status := 400 } w []
  | handler (path method : Bytes) (r : HttpResponse) (w' : W)
      (hp : getHeader hs b!":path" = some path) (hm : getHeader hs b!":method" = some method)
      (h : cfg.getHandler path method ⟨method, path, hs⟩ w = (.resp r, w')) :
      Responds cfg w hs (finishResponse r) w' [.handled ⟨method, path, hs⟩ (.resp r)]
  | threw (path method : Bytes) (w' : W)
      (hp : getHeader hs b!":path" = some path) (hm : getHeader hs b!":method" = some method)
      (h : cfg.getHandler path method ⟨method, path, hs⟩ w = (.stdExn, w')) :
      Responds cfg w hs (finishResponse { status := 500 }) w' [.handled ⟨method, path, hs⟩ .stdExn]

theorem processRequest_ok {cfg : Cfg W} {s s' : Sim W} {hs : List Header} {resp : HttpResponse}
    (h : processRequest cfg s hs = .ok (resp, s')) :
    ∃ evs w', Responds cfg s.world hs resp w' evs ∧
      s' = { s with world := w', trace := s.trace ++ evs } := by
  unfold processRequest at h
  split at h
  · rename_i path method hp hm
    simp only [emit] at h
    split at h
    · rename_i r ho
      simp only [Outcome.ok.injEq, Prod.mk.injEq] at h
      obtain ⟨rfl, rfl⟩ := h
      exact ⟨_, _, .handler path method r _ hp hm (by rw [← ho]), by rw [ho]⟩
    · rename_i ho
      simp only [Outcome.ok.injEq, Prod.mk.injEq] at h
      obtain ⟨rfl, rfl⟩ := h
      exact ⟨_, _, .threw path method _ hp hm (by rw [← ho]), by rw [ho]⟩
    · cases h
  · rename_i hn
    simp only [Outcome.ok.injEq, Prod.mk.injEq] at h
    obtain ⟨rfl, rfl⟩ := h
    refine ⟨[], s.world, .missing ?_, by simp⟩
    cases hp : getHeader hs b!":path" with
    | none => exact .inl rfl
    | some p =>
      cases hm : getHeader hs b!":method" with
      | none => exact .inr rfl
      | some m => exact absurd hm (hn p m hp)

theorem Responds.processRequest {cfg : Cfg W} {w w' : W} {hs : List Header} {resp : HttpResponse}
    {evs : List Ev} (h : Responds cfg w hs resp w' evs) (s : Sim W) (hw : s.world = w) :
    processRequest cfg s hs = .ok (resp, { s with world := w', trace := s.trace ++ evs }) := by
  subst hw
  cases h with
  | missing h =>
    unfold Sim.processRequest
    split
    · rename_i hp hm; simp [hp, hm] at h
    · simp
  | handler path method r w' hp hm h => simp [Sim.processRequest, hp, hm, h, emit]
  | threw path method w' hp hm h => simp [Sim.processRequest, hp, hm, h, emit]

theorem Responds.det {cfg : Cfg W} {w w1 w2 : W} {hs : List Header} {r1 r2 : HttpResponse}
    {e1 e2 : List Ev} (h1 : Responds cfg w hs r1 w1 e1) (h2 : Responds cfg w hs r2 w2 e2) :
    r1 = r2 ∧ w1 = w2 ∧ e1 = e2 := by
  cases h1 <;> cases h2 <;> simp_all

/-- Projections of the events of a handler call. -/
theorem Responds.proj {cfg : Cfg W} {w w' : W} {hs : List Header} {resp : HttpResponse}
    {evs : List Ev} (h : Responds cfg w hs resp w' evs) :
    received evs = [] ∧ produced evs = [] ∧ accepted evs = [] ∧ frames evs = [] ∧
      writeAttempts evs = [] := by
  cases h <;> simp [received, produced, accepted, frames, writeAttempts]

/-- The trace of an answered request. -/
def answerEvs (evs : List Ev) (sid : UInt32) (hs : List Header) (resp : HttpResponse)
    (block : Bytes) : List Ev :=
  evs ++ [.respond sid resp block] ++ (responseChunks sid resp block).map Ev.enqueue ++
    [.logged hs resp.status resp.body.length]

theorem answerRequest_ok {cfg : Cfg W} {s s' : Sim W} {sid : UInt32} {hs : List Header} :
    answerRequest cfg s sid hs = .ok s' ↔
    ∃ resp evs w' block enc', Responds cfg s.world hs resp w' evs ∧
      (encodeBlock cfg.charSigned s.enc resp.headers : Outcome Stop _) = .ok (block, enc') ∧
      s' = { s with world := w', enc := enc',
                    wbuf := s.wbuf ++ (responseChunks sid resp block).flatten,
                    trace := s.trace ++ answerEvs evs sid hs resp block } := by
  have key : ∀ (resp : HttpResponse) (block : Bytes) (t : Sim W),
      (if resp.body = [] then
          t.writeHeadersResponse sid block (0x04 ||| (if resp.body = [] then 0x01 else 0))
        else (t.writeHeadersResponse sid block
          (0x04 ||| (if resp.body = [] then 0x01 else 0))).writeDataResponse sid resp.body) =
      t.enq (responseChunks sid resp block) := by
    intro resp block t
    by_cases hb : resp.body = []
    · simp only [hb, if_true, writeHeadersResponse_eq, responseChunks]
      rw [dataChunks]; rfl
    · simp only [hb, if_false, writeHeadersResponse_eq, responseChunks]
      rw [writeDataResponse_eq sid _ _ rfl, enq_enq]; rfl
  constructor
  · intro h
    simp only [answerRequest] at h
    obtain ⟨⟨resp, s1⟩, h1, h⟩ := Outcome.bind_eq_ok.mp h
    obtain ⟨⟨block, enc'⟩, h2, h⟩ := Outcome.bind_eq_ok.mp h
    obtain ⟨evs, w', hr, rfl⟩ := processRequest_ok h1
    refine ⟨resp, evs, w', block, enc', hr, h2, ?_⟩
    simp only [Outcome.ok.injEq] at h
    rw [← h, key]
    simp [emit, enq, answerEvs]
  · rintro ⟨resp, evs, w', block, enc', hr, h2, rfl⟩
    simp only [answerRequest, hr.processRequest s rfl, Outcome.bind_ok, h2, key]
    simp [emit, enq, answerEvs]

/-! ### Acting on a frame -/

/-- What `process_frame` does to a connection. -/
inductive Acts (cfg : Cfg W) (s : Sim W) (f : FrameReader) : Sim W → Prop
  | settingsAck (ht : f.header.type = 4) (hf : f.header.flags &&& 1 ≠ 0) : Acts cfg s f s
  | settings (l : List Setting) (ht : f.header.type = 4) (hf : f.header.flags &&& 1 = 0)
      (h : f.readSettings = .ok l) :
      Acts cfg s f (s.enq [(⟨0, 4, 1, 0⟩ : FrameHeader).serialize])
  | badSettings (e : FrameError) (ht : f.header.type = 4) (hf : f.header.flags &&& 1 = 0)
      (h : f.readSettings = .err e) : Acts cfg s f { s with st := .protocolError }
  | badHeaders (block : Bytes) (e : FrameError) (dec' : DynTable) (ht : f.header.type = 1)
      (hb : (f.headersBlock : Outcome Stop _) = .ok block) (hd : decodeBlock s.dec block = .err e dec') :
      Acts cfg s f { s with dec := dec', st := .protocolError }
  | request (data : Bytes) (hs : List Header) (dec' : DynTable) (resp : HttpResponse) (evs : List Ev)
      (w' : W) (block : Bytes) (enc' : DynTable) (ht : f.header.type = 1)
      (hb : (f.headersBlock : Outcome Stop _) = .ok data) (hd : decodeBlock s.dec data = .ok hs dec')
      (hr : Responds cfg s.world hs resp w' evs)
      (he : (encodeBlock cfg.charSigned s.enc resp.headers : Outcome Stop _) = .ok (block, enc')) :
      Acts cfg s f { s with dec := dec', world := w', enc := enc',
                            wbuf := s.wbuf ++ (responseChunks f.header.streamId resp block).flatten,
                            trace := s.trace ++ answerEvs evs f.header.streamId hs resp block }
  | windowUpdate (w : WindowUpdate) (ht : f.header.type = 8)
      (h : (f.readWindowUpdate : Outcome Stop _) = .ok w) : Acts cfg s f s
  | goaway (ht : f.header.type = 7) : Acts cfg s f { s with st := .clientClosed }
  | other (h1 : f.header.type ≠ 1) (h4 : f.header.type ≠ 4) (h7 : f.header.type ≠ 7)
      (h8 : f.header.type ≠ 8) : Acts cfg s f s

theorem processFrame_ok {cfg : Cfg W} {s s' : Sim W} {f : FrameReader}
    (h : processFrame cfg s f = .ok s') : Acts cfg s f s' := by
  unfold processFrame at h
  split at h
  · rename_i ht
    split at h
    · rename_i hf
      cases h
      exact .settingsAck ht (by simpa [FrameReader.hasFlag] using hf)
    · rename_i hf
      have hf : f.header.flags &&& 1 = 0 := by simpa [FrameReader.hasFlag] using hf
      split at h
      · rename_i e he; cases h; exact .badSettings e ht hf he
      · cases h
      · rename_i l hl
        cases h
        rw [writeSettingsAck_eq]
        exact .settings l ht hf hl
  · rename_i h4
    split at h
    · rename_i ht
      obtain ⟨block, hb, h⟩ := Outcome.bind_eq_ok.mp h
      split at h
      · cases h
      · rename_i e dec' hd; cases h; exact .badHeaders block e dec' ht hb hd
      · rename_i hs dec' hd
        obtain ⟨resp, evs, w', blk, enc', hr, he, rfl⟩ := answerRequest_ok.mp h
        exact .request block hs dec' resp evs w' blk enc' ht hb hd hr he
    · rename_i h1
      split at h
      · rename_i ht
        obtain ⟨w, hw, h⟩ := Outcome.bind_eq_ok.mp h
        cases h
        exact .windowUpdate w ht hw
      · rename_i h8
        split at h
        · rename_i ht; cases h; exact .goaway ht
        · rename_i h7; cases h; exact .other h1 h4 h7 h8

theorem Acts.processFrame {cfg : Cfg W} {s s' : Sim W} {f : FrameReader}
    (h : Acts cfg s f s') : processFrame cfg s f = .ok s' := by
  cases h with
  | settingsAck ht hf => simp [Sim.processFrame, ht, FrameReader.hasFlag, hf]
  | settings l ht hf h => simp [Sim.processFrame, ht, FrameReader.hasFlag, hf, h, writeSettingsAck_eq]
  | badSettings e ht hf h => simp [Sim.processFrame, ht, FrameReader.hasFlag, hf, h, updateState]
  | badHeaders block e dec' ht hb hd => simp [Sim.processFrame, ht, hb, hd, updateState]
  | request data hs dec' resp evs w' block enc' ht hb hd hr he =>
    simp only [Sim.processFrame, ht, hb, Outcome.bind_ok, hd]
    exact answerRequest_ok.mpr ⟨resp, evs, w', block, enc', hr, he, rfl⟩
  | windowUpdate w ht h => simp [Sim.processFrame, ht, h]
  | goaway ht => simp [Sim.processFrame, ht, updateState]
  | other h1 h4 h7 h8 => simp [Sim.processFrame, h1, h4, h7, h8]

/-! ### Steps -/

/-- `rbuf` begins with a complete frame header announcing `header`. -/
def HasHeader (rbuf : Bytes) (header : FrameHeader) : Prop :=
  9 ≤ rbuf.length ∧ (FrameHeader.parse rbuf : Outcome Stop _) = .ok header

/-- `rbuf` holds no complete frame and no oversized frame header. -/
def NoFrame (rbuf : Bytes) : Prop :=
  rbuf.length < 9 ∨ ∃ h, HasHeader rbuf h ∧ h.length.toNat ≤ 16384 ∧
    rbuf.length < 9 + h.length.toNat

theorem NoFrame.length {rbuf : Bytes} (h : NoFrame rbuf) : rbuf.length < 16393 := by
  rcases h with h | ⟨hd, -, h1, h2⟩ <;> omega

/-- When output may still be pending as a frame is looked at: only right after the preface. -/
def Ready (s : Sim W) : Prop := s.wbuf = [] ∨
  (s.wbuf = settingsChunks.flatten ∧
    ∃ pre, s.trace = pre ++ Ev.prefaceOk :: settingsChunks.map Ev.enqueue)

/-- Atomic steps. `true` marks those that produce a GOAWAY frame. -/
inductive Step (cfg : Cfg W) : Bool → Sim W → Sim W → Prop
  | env (s : Sim W) (e : Env) :
      Step cfg false s { s with hs := e.hs, reads := e.reads, writes := e.writes }
  | handshake (s : Sim W) (t : Nat) (h : s.st = .awaitingHandshake) :
      Step cfg false s { s with st := .awaitingPreface, last := t, trace := s.trace ++ [.handshake t] }
  | writeBlocked (s : Sim W) (ws : List WriteRes) (h : s.wbuf ≠ []) (hst : s.st ≠ .awaitingHandshake) :
      Step cfg false s { s with writes := ws,
                                trace := s.trace ++ [.write s.wbuf (.fail .wantReadOrWrite)] }
  | writeFailed (s : Sim W) (ws : List WriteRes) (e : TErr) (h : s.wbuf ≠ [])
      (he : e ≠ .wantReadOrWrite) (hst : s.st ≠ .awaitingHandshake) :
      Step cfg false s { s with writes := ws, st := .protocolError,
                                trace := s.trace ++ [.write s.wbuf (.fail e)] }
  | wrote (s : Sim W) (ws : List WriteRes) (n t : Nat) (h : s.wbuf ≠ []) (hn : n ≤ s.wbuf.length)
      (hst : s.st ≠ .awaitingHandshake) :
      Step cfg false s { s with writes := ws, last := t, wbuf := s.wbuf.drop n,
                                trace := s.trace ++ [.write s.wbuf (.wrote n t)] }
  | read (s : Sim W) (bs : Bytes) (t : Nat) (hw : s.wbuf = []) (hst : s.st ≠ .awaitingHandshake)
      (hr : s.rbuf.length + 16384 < 65536) :
      Step cfg false s { s with last := t, rbuf := s.rbuf ++ bs, trace := s.trace ++ [.read bs t] }
  | readFailed (s : Sim W) (e : TErr) (hw : s.wbuf = []) (hst : s.st ≠ .awaitingHandshake)
      (hr : s.rbuf.length + 16384 < 65536) :
      Step cfg false s (s.readFailed e)
  | readsLeft (s : Sim W) (rs : List ReadRes) : Step cfg false s { s with reads := rs }
  | preface (s : Sim W) (rest : Bytes) (h : s.st = .awaitingPreface) (hw : s.wbuf = [])
      (hr : s.rbuf = clientPreface ++ rest) :
      Step cfg false s { (s.emit .prefaceOk).enq settingsChunks with st := .awaitingFrame, rbuf := rest }
  | oversized (s : Sim W) (h : s.st = .awaitingFrame) (hd : FrameHeader) (hh : HasHeader s.rbuf hd)
      (hl : 16384 < hd.length.toNat) (hw : Ready s) :
      Step cfg false s { s with st := .protocolError }
  | frame (s s' : Sim W) (h : s.st = .awaitingFrame) (hd : FrameHeader) (hh : HasHeader s.rbuf hd)
      (hl : hd.length.toNat ≤ 16384) (hr : 9 + hd.length.toNat ≤ s.rbuf.length) (hw : Ready s)
      (ha : Acts cfg { s with trace := s.trace ++
          [.frame ⟨hd, (s.rbuf.drop 9).take hd.length.toNat⟩] }
        ⟨hd, (s.rbuf.drop 9).take hd.length.toNat⟩ s') :
      Step cfg false s { s' with rbuf := s'.rbuf.drop (9 + hd.length.toNat) }
  | shutdown (s : Sim W) (h : s.st = .closing) (hw : s.wbuf = []) :
      Step cfg false s { s with st := .clientClosed, trace := s.trace ++ [.shutdown] }
  | close (s : Sim W) (h : s.st ≠ .closing) :
      Step cfg true s { s.enq (goawayChunks s.st) with st := .closing }
  | wantRead (s : Sim W)
      (h : s.st = .awaitingHandshake ∨
        (s.st = .awaitingPreface ∧ s.rbuf.length < 24 ∧ s.wbuf = []) ∨
        (s.st = .awaitingFrame ∧ NoFrame s.rbuf ∧ Ready s)) :
      Step cfg false s { s with trace := s.trace ++ [.returned .wantRead] }
  | wantWrite (s : Sim W) (h : s.wbuf ≠ []) :
      Step cfg false s { s with trace := s.trace ++ [.returned .wantWrite] }
  | discard (s : Sim W)
      (h : s.st = .awaitingHandshake ∨
        (s.st = .awaitingPreface ∧ s.wbuf = [] ∧ 24 ≤ s.rbuf.length ∧
          s.rbuf.take 24 ≠ clientPreface) ∨
        s.st = .closing ∨ (s.st = .clientClosed ∧ s.wbuf = [])) :
      Step cfg false s { s with trace := s.trace ++ [.returned .discard] }

/-- Sequences of steps; the flag says whether steps that produce GOAWAY are allowed. -/
inductive Steps (cfg : Cfg W) (closing : Bool) : Sim W → Sim W → Prop
  | refl (s : Sim W) : Steps cfg closing s s
  | tail {s t u : Sim W} {b : Bool} (h : Steps cfg closing s t) (hb : b = true → closing = true)
      (st : Step cfg b t u) : Steps cfg closing s u

theorem Steps.trans {cfg : Cfg W} {c : Bool} {s t u : Sim W} (h1 : Steps cfg c s t)
    (h2 : Steps cfg c t u) : Steps cfg c s u := by
  induction h2 with
  | refl => exact h1
  | tail _ hb st ih => exact .tail ih hb st

theorem Steps.one {cfg : Cfg W} {c : Bool} {s t : Sim W} (h : Step cfg false s t) :
    Steps cfg c s t := .tail (.refl s) (by simp) h

/-- An invariant of steps is an invariant of sequences of steps. -/
theorem Steps.inv {cfg : Cfg W} {c : Bool} {P : Sim W → Prop}
    (hp : ∀ b s t, (b = true → c = true) → Step cfg b s t → P s → P t) {s t : Sim W}
    (h : Steps cfg c s t) (hs : P s) : P t := by
  induction h with
  | refl => exact hs
  | tail _ hb st ih => exact hp _ _ _ hb st ih

/-- Events are only ever appended. -/
theorem Acts.trace_mono {cfg : Cfg W} {s s' : Sim W} {f : FrameReader} (h : Acts cfg s f s') :
    ∃ evs, s'.trace = s.trace ++ evs ∧ frames evs = [] ∧ received evs = [] ∧ accepted evs = [] ∧
      writeAttempts evs = [] ∧ s'.wbuf = s.wbuf ++ produced evs := by
  cases h with
  | settings l ht hf h =>
    exact ⟨[.enqueue _], rfl, rfl, rfl, rfl, rfl, by simp [enq, produced]⟩
  | request data hs dec' resp evs w' block enc' ht hb hd hr he =>
    obtain ⟨h1, h2, h3, h4, h5⟩ := hr.proj
    refine ⟨_, rfl, ?_, ?_, ?_, ?_, ?_⟩ <;>
      simp [answerEvs, h1, h2, h3, h4, h5, frames, received, accepted, produced, writeAttempts]
  | _ => exact ⟨[], by simp, rfl, rfl, rfl, rfl, by simp [produced]⟩

theorem Acts.rbuf {cfg : Cfg W} {s s' : Sim W} {f : FrameReader} (h : Acts cfg s f s') :
    s'.rbuf = s.rbuf ∧ s'.last = s.last ∧ s'.hs = s.hs ∧ s'.reads = s.reads ∧ s'.writes = s.writes := by
  cases h <;> simp [enq]

/-- The state after a frame. -/
theorem Acts.state {cfg : Cfg W} {s s' : Sim W} {f : FrameReader} (h : Acts cfg s f s') :
    s'.st = s.st ∨ s'.st = .protocolError ∨ s'.st = .clientClosed := by
  cases h <;> simp [enq]

theorem Step.trace_mono {cfg : Cfg W} {b : Bool} {s s' : Sim W} (h : Step cfg b s s') :
    ∃ evs, s'.trace = s.trace ++ evs := by
  cases h with
  | frame _ s1 hst hd hh hl hr hw ha =>
    obtain ⟨evs, h1, -⟩ := ha.trace_mono
    exact ⟨_, by simp only [h1, List.append_assoc]; rfl⟩
  | readFailed _ e hw hst hr =>
    refine ⟨[.readFail e], ?_⟩
    cases e <;> rfl
  | preface _ rest h hw hr => exact ⟨_, by simp only [enq, emit, List.append_assoc]; rfl⟩
  | _ => first | exact ⟨_, rfl⟩ | exact ⟨[], by simp⟩

theorem Steps.trace_mono {cfg : Cfg W} {c : Bool} {s s' : Sim W} (h : Steps cfg c s s') :
    ∃ evs, s'.trace = s.trace ++ evs := by
  induction h with
  | refl => exact ⟨[], by simp⟩
  | tail _ _ st ih =>
    obtain ⟨e1, h1⟩ := ih
    obtain ⟨e2, h2⟩ := st.trace_mono
    exact ⟨e1 ++ e2, by rw [h2, h1, List.append_assoc]⟩

/-! ### The functions take steps -/

theorem readFailed_keeps (s : Sim W) (e : TErr) :
    (s.readFailed e).wbuf = s.wbuf ∧ (s.readFailed e).rbuf = s.rbuf ∧
    ((s.readFailed e).st = s.st ∨ (s.readFailed e).st = .clientClosed ∨
      (s.readFailed e).st = .protocolError) := by
  cases e <;> simp [readFailed, emit, updateState]

theorem fillLoop_steps (cfg : Cfg W) (c : Bool) (rs : List ReadRes) :
    ∀ s : Sim W, s.wbuf = [] → s.st ≠ .awaitingHandshake →
      Steps cfg c s (fillLoop rs s) ∧ (fillLoop rs s).wbuf = [] ∧
      (fillLoop rs s).st ≠ .awaitingHandshake ∧
      ((fillLoop rs s).rbuf.length < 49152 →
        ∃ pre e, (fillLoop rs s).trace = pre ++ [Ev.readFail e]) := by
  induction rs with
  | nil =>
    intro s hw hst
    by_cases hfull : s.rbuf.length + tempReadBufferSize ≥ maxReadBufferSize
    · rw [show fillLoop [] s = { s with reads := [] } by simp only [fillLoop, hfull, if_true]]
      simp only [tempReadBufferSize, maxReadBufferSize] at hfull
      exact ⟨.one (.readsLeft s _), hw, hst, fun h => by simp only at h; omega⟩
    · rw [show fillLoop [] s = { s.readFailed .wantReadOrWrite with reads := [] } by
        simp only [fillLoop, hfull, if_false]]
      simp only [tempReadBufferSize, maxReadBufferSize] at hfull
      exact ⟨.tail (.one (.readFailed s _ hw hst (by omega))) (by simp) (.readsLeft _ _), hw, hst,
        fun _ => ⟨s.trace, _, rfl⟩⟩
  | cons r rs ih =>
    intro s hw hst
    by_cases hfull : s.rbuf.length + tempReadBufferSize ≥ maxReadBufferSize
    · rw [show fillLoop (r :: rs) s = { s with reads := r :: rs } by simp only [fillLoop, hfull, if_true]]
      simp only [tempReadBufferSize, maxReadBufferSize] at hfull
      exact ⟨.one (.readsLeft s _), hw, hst, fun h => by simp only at h; omega⟩
    · have hfull' := hfull
      simp only [tempReadBufferSize, maxReadBufferSize] at hfull'
      have hfull' : s.rbuf.length + 16384 < 65536 := by omega
      cases r with
      | fail e =>
        rw [show fillLoop (.fail e :: rs) s = { s.readFailed e with reads := rs } by
          simp only [fillLoop, hfull, if_false]]
        obtain ⟨k1, k2, k3⟩ := readFailed_keeps s e
        refine ⟨.tail (.one (.readFailed s e hw hst hfull')) (by simp) (.readsLeft _ rs), ?_, ?_,
          fun _ => ⟨s.trace, e, by cases e <;> rfl⟩⟩
        · simp [k1, hw]
        · rcases k3 with k | k | k <;> simp [k, hst]
      | data bs t =>
        rw [show fillLoop (.data bs t :: rs) s =
            fillLoop rs ({ s with last := t, rbuf := s.rbuf ++ bs }.emit (.read bs t)) by
          simp only [fillLoop, hfull, if_false]]
        have := ih ({ s with last := t, rbuf := s.rbuf ++ bs }.emit (.read bs t)) hw hst
        exact ⟨(Steps.one (.read s bs t hw hst hfull')).trans this.1, this.2⟩

theorem fill_steps (cfg : Cfg W) (c : Bool) (s : Sim W) (hw : s.wbuf = [])
    (hst : s.st ≠ .awaitingHandshake) :
    Steps cfg c s s.fill ∧ s.fill.wbuf = [] ∧ s.fill.st ≠ .awaitingHandshake ∧
      (s.fill.rbuf.length < 49152 → ∃ pre e, s.fill.trace = pre ++ [Ev.readFail e]) :=
  fillLoop_steps cfg c s.reads s hw hst

theorem flush_steps (cfg : Cfg W) (c : Bool) {s s' : Sim W} (hst : s.st ≠ .awaitingHandshake)
    (h : s.flush = .ok s') : Steps cfg c s s' ∧ s'.st ≠ .awaitingHandshake := by
  unfold flush at h
  split at h
  · cases h; exact ⟨.refl _, hst⟩
  · rename_i hw
    simp only [emit, updateState] at h
    split at h
    · cases h
      rename_i hr
      rw [hr]
      exact ⟨.one (.writeBlocked s _ hw hst), hst⟩
    · cases h
      rename_i e he hr
      rw [hr]
      exact ⟨.one (.writeFailed s _ e hw (by simpa using he) hst), by simp⟩
    · rename_i n t hr
      by_cases hn : n > s.wbuf.length
      · simp only [hn, if_true] at h; cases h
      · simp only [hn, if_false] at h
        cases h
        rw [hr]
        exact ⟨.one (.wrote s _ n t hw (by simpa using hn) hst), hst⟩

theorem tryReadFrame_steps (cfg : Cfg W) (c : Bool) {s s' : Sim W} {b : Bool}
    (hst : s.st = .awaitingFrame) (hw : Ready s) (h : s.tryReadFrame cfg = .ok (b, s')) :
    Steps cfg c s s' ∧ (b = false → s' = s ∧ NoFrame s.rbuf) := by
  unfold tryReadFrame at h
  split at h
  · rename_i hl
    cases h
    exact ⟨.refl _, fun _ => ⟨rfl, .inl hl⟩⟩
  · rename_i hl
    obtain ⟨hd, hp, h⟩ := Outcome.bind_eq_ok.mp h
    have hh : HasHeader s.rbuf hd := ⟨by omega, hp⟩
    split at h
    · rename_i hbig
      cases h
      exact ⟨.one (.oversized s hst hd hh hbig hw), by simp⟩
    · rename_i hsz
      have hsz : hd.length.toNat ≤ 16384 := by simpa [maxFrameSize] using hsz
      by_cases hsh : s.rbuf.length < 9 + hd.length.toNat
      · simp only [hsh, if_true] at h
        cases h
        exact ⟨.refl _, fun _ => ⟨rfl, .inr ⟨hd, hh, hsz, hsh⟩⟩⟩
      · simp only [hsh, if_false] at h
        obtain ⟨s1, h1, h⟩ := Outcome.bind_eq_ok.mp h
        cases h
        exact ⟨.one (.frame s s1 hst hd hh hsz (by omega) hw (processFrame_ok h1)), by simp⟩

theorem frameCase_steps (cfg : Cfg W) (c : Bool) {s s' : Sim W} {r : Option ProcRes}
    (hst : s.st = .awaitingFrame) (hw : Ready s) (h : s.frameCase cfg = .ok (r, s')) :
    Steps cfg c s s' ∧ (r = none ∨ (r = some .wantRead ∧ s' = s ∧ NoFrame s.rbuf)) := by
  unfold frameCase at h
  obtain ⟨⟨b, s1⟩, h1, h⟩ := Outcome.bind_eq_ok.mp h
  obtain ⟨k1, k2⟩ := tryReadFrame_steps cfg c hst hw h1
  cases b with
  | true => simp at h; obtain ⟨rfl, rfl⟩ := h; exact ⟨k1, .inl rfl⟩
  | false => simp at h; obtain ⟨rfl, rfl⟩ := h; exact ⟨k1, .inr ⟨rfl, k2 rfl⟩⟩

/-- The transport had nothing left to read when it was last asked, and at most the preface has been
acted on since. -/
def Drained (tr : List Ev) : Prop :=
  ∃ pre e, tr = pre ++ [Ev.readFail e] ∨
    tr = pre ++ Ev.readFail e :: Ev.prefaceOk :: settingsChunks.map Ev.enqueue

/-- A result with which `process()` may return in the given state. -/
def MayReturn (s : Sim W) : ProcRes → Prop
  | .wantRead => s.st = .awaitingHandshake ∨
        (s.st = .awaitingPreface ∧ s.rbuf.length < 24 ∧ s.wbuf = [] ∧ Drained s.trace) ∨
        (s.st = .awaitingFrame ∧ NoFrame s.rbuf ∧ Ready s ∧ Drained s.trace)
  | .wantWrite => s.wbuf ≠ []
  | .discard => s.st = .awaitingHandshake ∨
        (s.st = .awaitingPreface ∧ s.wbuf = [] ∧ 24 ≤ s.rbuf.length ∧
          s.rbuf.take 24 ≠ clientPreface) ∨ (s.st = .clientClosed ∧ s.wbuf = [])

theorem MayReturn.step {cfg : Cfg W} {s : Sim W} {r : ProcRes} (h : MayReturn s r) :
    Step cfg false s { s with trace := s.trace ++ [.returned r] } := by
  cases r with
  | wantRead =>
    refine .wantRead s ?_
    rcases h with h | ⟨h1, h2, h3, -⟩ | ⟨h1, h2, h3, -⟩
    · exact .inl h
    · exact .inr (.inl ⟨h1, h2, h3⟩)
    · exact .inr (.inr ⟨h1, h2, h3⟩)
  | wantWrite => exact .wantWrite s h
  | discard =>
    refine .discard s ?_
    rcases h with h | h | h
    · exact .inl h
    · exact .inr (.inl h)
    · exact .inr (.inr (.inr h))

/-- How `process()` ends: it returns, or it produces GOAWAY for a protocol error and returns. -/
def Ends (s : Sim W) (r : ProcRes) (s' : Sim W) : Prop :=
  (s' = s ∧ MayReturn s r) ∨
  (r = .discard ∧ s.st = .protocolError ∧ s.wbuf = [] ∧
    s' = { s.enq (goawayChunks .protocolError) with st := .closing })

theorem dispatch_steps (cfg : Cfg W) {s s' : Sim W} {r : Option ProcRes}
    (hst : s.st ≠ .awaitingHandshake) (hw : s.wbuf = [])
    (hdr : s.rbuf.length < 49152 → ∃ pre e, s.trace = pre ++ [Ev.readFail e])
    (h : s.dispatch cfg = .ok (r, s')) :
    (r = none ∧ Steps cfg false s s') ∨
    ∃ x s1, r = some x ∧ Steps cfg false s s1 ∧ Ends s1 x s' := by
  unfold dispatch at h
  split at h
  · rename_i hs
    unfold readPreface at h
    by_cases h1 : s.rbuf.length < clientPreface.length
    · simp only [h1, if_true] at h
      cases h
      refine .inr ⟨_, s, rfl, .refl _, .inl ⟨rfl, .inr (.inl ⟨hs, h1, hw, ?_⟩)⟩⟩
      simp only [clientPreface, List.length_cons, List.length_nil] at h1
      obtain ⟨pre, e, he⟩ := hdr (by omega)
      exact ⟨pre, e, .inl he⟩
    · by_cases h2 : s.rbuf.take clientPreface.length ≠ clientPreface
      · rw [if_neg h1, if_pos h2] at h
        cases h
        exact .inr ⟨_, s, rfl, .refl _,
          .inl ⟨rfl, .inr (.inl ⟨hs, hw, by simpa [clientPreface] using h1, h2⟩)⟩⟩
      · rw [if_neg h1, if_neg h2] at h
        have h2 : s.rbuf.take clientPreface.length = clientPreface := by simpa using h2
        have hr : s.rbuf = clientPreface ++ s.rbuf.drop clientPreface.length := by
          conv => lhs; rw [← List.take_append_drop clientPreface.length s.rbuf, h2]
        have e : (((s.emit .prefaceOk).writeServerSettings.updateState .awaitingFrame).discardProcessed
            clientPreface.length) = { (s.emit .prefaceOk).enq settingsChunks with
              st := .awaitingFrame, rbuf := s.rbuf.drop clientPreface.length } := by
          rw [writeServerSettings_eq]; rfl
        simp only [e] at h
        have hready : Ready { (s.emit .prefaceOk).enq settingsChunks with
              st := .awaitingFrame, rbuf := s.rbuf.drop clientPreface.length } :=
          .inr ⟨by simp [enq, emit, hw], s.trace, by simp [enq, emit]⟩
        have k := frameCase_steps cfg false rfl hready h
        have hp := (Steps.one (Step.preface (cfg := cfg) s _ hs hw hr)).trans k.1
        rcases k.2 with k | ⟨k1, k2, k3⟩
        · exact .inl ⟨k, hp⟩
        · refine .inr ⟨_, _, k1, hp, .inl ⟨rfl, ?_⟩⟩
          rw [k2]
          refine .inr (.inr ⟨rfl, k3, hready, ?_⟩)
          have hlen := k3.length
          simp only [List.length_drop, clientPreface, List.length_cons, List.length_nil] at hlen
          obtain ⟨pre, e, he⟩ := hdr (by omega)
          exact ⟨pre, e, .inr (by simp [enq, emit, he])⟩
  · rename_i hs
    have k := frameCase_steps cfg false hs (.inl hw) h
    rcases k.2 with k' | ⟨k1, k2, k3⟩
    · exact .inl ⟨k', k.1⟩
    · refine .inr ⟨_, _, k1, k.1, .inl ⟨rfl, ?_⟩⟩
      rw [k2]
      have hlen := k3.length
      obtain ⟨pre, e, he⟩ := hdr (by omega)
      exact .inr (.inr ⟨hs, k3, .inl hw, pre, e, .inl he⟩)
  · rename_i hs
    cases h
    exact .inr ⟨_, _, rfl, .one (.shutdown s hs hw), .inl ⟨rfl, .inr (.inr ⟨rfl, hw⟩)⟩⟩
  · rename_i hs
    cases h
    rw [close_eq s (by rw [hs]; simp), hs]
    exact .inr ⟨_, s, rfl, .refl _, .inr ⟨rfl, hs, hw, rfl⟩⟩
  · rename_i hs
    cases h
    exact .inr ⟨_, s, rfl, .refl _, .inl ⟨rfl, .inr (.inr ⟨hs, hw⟩)⟩⟩
  · rename_i hs; exact absurd hs hst

theorem turn_steps (cfg : Cfg W) {s s' : Sim W} {r : Option ProcRes}
    (hst : s.st ≠ .awaitingHandshake) (h : s.turn cfg = .ok (r, s')) :
    (r = none ∧ Steps cfg false s s') ∨
    ∃ x s1, r = some x ∧ Steps cfg false s s1 ∧ Ends s1 x s' := by
  unfold turn at h
  obtain ⟨s1, h1, h⟩ := Outcome.bind_eq_ok.mp h
  obtain ⟨k1, k2⟩ := flush_steps cfg false hst h1
  split at h
  · rename_i hw
    cases h
    exact .inr ⟨_, _, rfl, k1, .inl ⟨rfl, hw⟩⟩
  · rename_i hw
    have hw : s1.wbuf = [] := by simpa using hw
    obtain ⟨f1, f2, f3, f4⟩ := fill_steps cfg false s1 hw k2
    rcases dispatch_steps cfg f3 f2 f4 h with ⟨d1, d2⟩ | ⟨x, s2, d1, d2, d3⟩
    · exact .inl ⟨d1, (k1.trans f1).trans d2⟩
    · exact .inr ⟨x, s2, d1, (k1.trans f1).trans d2, d3⟩

theorem iter_steps (cfg : Cfg W) {s s' : Sim W} {r : Option ProcRes}
    (h : s.iter cfg = .ok (r, s')) :
    (r = none ∧ Steps cfg false s s') ∨
    ∃ x s1, r = some x ∧ Steps cfg false s s1 ∧ Ends s1 x s' := by
  unfold iter at h
  split at h
  · rename_i hs
    unfold handleHandshake at h
    split at h
    · rename_i x s1 heq
      cases h
      split at heq
      · cases heq
      · cases heq; exact .inr ⟨_, _, rfl, .refl _, .inl ⟨rfl, .inl hs⟩⟩
      · cases heq; exact .inr ⟨_, _, rfl, .refl _, .inl ⟨rfl, .inl hs⟩⟩
    · rename_i s1 heq
      split at heq
      · rename_i t ht
        cases heq
        have j := Steps.one (c := false) (Step.handshake (cfg := cfg) s t hs)
        rcases turn_steps cfg (by simp [updateState]) h with ⟨k1, k2⟩ | ⟨x, s2, k1, k2, k3⟩
        · exact .inl ⟨k1, j.trans k2⟩
        · exact .inr ⟨x, s2, k1, j.trans k2, k3⟩
      · cases heq
      · cases heq
  · rename_i hs; exact turn_steps cfg hs h

theorem loop_steps (cfg : Cfg W) (n : Nat) : ∀ {s s' : Sim W} {r : ProcRes},
    s.loop cfg n = .ok (r, s') → ∃ s1, Steps cfg false s s1 ∧ Ends s1 r s' := by
  induction n with
  | zero => intro s s' r h; cases h
  | succ n ih =>
    intro s s' r h
    rw [loop] at h
    obtain ⟨⟨x, s1⟩, h1, h⟩ := Outcome.bind_eq_ok.mp h
    cases x with
    | some x =>
      simp at h
      obtain ⟨rfl, rfl⟩ := h
      rcases iter_steps cfg h1 with ⟨k, -⟩ | ⟨y, s2, k1, k2, k3⟩
      · cases k
      · cases k1; exact ⟨s2, k2, k3⟩
    | none =>
      rcases iter_steps cfg h1 with ⟨-, k⟩ | ⟨y, s2, k1, k2, k3⟩
      · obtain ⟨s2, j1, j2⟩ := ih h
        exact ⟨s2, k.trans j1, j2⟩
      · cases k1

theorem process_steps (cfg : Cfg W) {env : Env} {s s' : Sim W} {r : ProcRes}
    (h : s.process cfg env = .ok (r, s')) :
    ∃ s1 s2, Steps cfg false s s1 ∧ Ends s1 r s2 ∧
      s' = { s2 with trace := s2.trace ++ [.returned r] } := by
  unfold process at h
  obtain ⟨⟨x, s2⟩, h1, h⟩ := Outcome.bind_eq_ok.mp h
  cases h
  obtain ⟨s1, k1, k2⟩ := loop_steps cfg _ h1
  exact ⟨s1, s2, (Steps.one (.env s env)).trans k1, k2, rfl⟩

/-- A call that does not end in "discard" produces no GOAWAY. -/
theorem process_steps_plain (cfg : Cfg W) {env : Env} {s s' : Sim W} {r : ProcRes}
    (h : s.process cfg env = .ok (r, s')) (hr : r ≠ .discard) : Steps cfg false s s' := by
  obtain ⟨s1, s2, h1, h2, rfl⟩ := process_steps cfg h
  rcases h2 with ⟨rfl, h2⟩ | ⟨h2, -⟩
  · exact h1.trans (.one h2.step)
  · exact absurd h2 hr

theorem Steps.weaken {cfg : Cfg W} {s t : Sim W} (h : Steps cfg false s t) : Steps cfg true s t := by
  induction h with
  | refl => exact .refl _
  | tail _ _ st ih => exact .tail ih (fun _ => rfl) st

theorem process_steps' (cfg : Cfg W) {env : Env} {s s' : Sim W} {r : ProcRes}
    (h : s.process cfg env = .ok (r, s')) : Steps cfg true s s' := by
  obtain ⟨s1, s2, h1, h2, rfl⟩ := process_steps cfg h
  rcases h2 with ⟨rfl, h2⟩ | ⟨rfl, h3, h4, rfl⟩
  · exact h1.weaken.trans (.one h2.step)
  · have k := Step.close (cfg := cfg) s1 (by rw [h3]; simp)
    rw [h3] at k
    exact .tail (.tail h1.weaken (fun _ => rfl) k) (by simp) (.discard _ (.inr (.inr (.inl rfl))))

/-- Everything a sequence of calls does is a sequence of steps. -/
theorem run_steps (cfg : Cfg W) : ∀ (calls : List Call) {s s' : Sim W},
    run cfg calls s = .ok s' → Steps cfg true s s'
  | [], s, s', h => by cases h; exact .refl _
  | x :: calls, s, s', h => by
    rw [run] at h
    obtain ⟨s1, h1, h⟩ := Outcome.bind_eq_ok.mp h
    refine Steps.trans ?_ (run_steps cfg calls h)
    cases x with
    | process env =>
      simp only [call] at h1
      obtain ⟨⟨r, s2⟩, h2, h1⟩ := Outcome.bind_eq_ok.mp h1
      cases h1
      exact process_steps' cfg h2
    | close =>
      simp only [call] at h1
      cases h1
      by_cases hs : s.st = .closing
      · rw [close_closing s hs]; exact .refl _
      · rw [close_eq s hs]
        exact .tail (.refl s) (fun _ => rfl) (.close s hs)

end Sim
end Ion
