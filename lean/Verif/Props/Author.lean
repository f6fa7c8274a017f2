import Verif.Model.ServerLog
import Verif.Props.AppLog

/-!
# Every message tells which part wrote it (C175)

The log is one stream of messages from the server, its connections, their transports and the handlers, and many of them
contain texts that clients choose. C175 says that one can tell from a message alone which part of the program wrote it.
A `Line` of the model is a message; that one with a line break in it takes two lines in the file is C128's matter.
-/

namespace Ion

namespace Spec

/-- The parts of the program, and nobody. -/
inductive Part where
  | server | transport | handler | connection | nobody
deriving DecidableEq, Repr

/-- How lines of the server, its poller and sockets begin. -/
def serverWords : List Bytes :=
  [b!"listening on port ", b!"server shutting down ", b!"server at capacity", b!"client connected ", b!"HTTP connection ",
   b!"closing connection", b!"closing socket ", b!"poll indicated ", b!"will poll ", b!"epoll_", b!"getpeername ",
   b!"unknown ss_family", b!"failed to set TCP_NODELAY"]

/-- How lines of the transports begin. -/
def transportWords : List Bytes :=
  [b!"reading from ", b!"successfully ", b!"TCP ", b!"TLS ", b!"SSL ", b!"shutting down ", b!"shutdown failed",
   b!"client disconnected "]

/-- How lines of the handlers begin. -/
def handlerWords : List Bytes :=
  [b!"Path error: ", b!"Directory traversal ", b!"Failed to open file", b!"Failed to get file size", b!"Read file: ",
   b!"failed to read file", b!"failed to get file size", b!"serving static file", b!"Returning metadata ",
   b!"file not found ", b!"invalid file path "]

/-- How lines of a connection, its decoder and encoder begin, if not with the status of a response. -/
def connectionWords : List Bytes :=
  [b!" - (", b!" - end headers: ", b!" - request header: ", b!"read ", b!"received ", b!"processing state: ",
   b!"connection state changed ", b!"frame ", b!"handshake: ", b!"transport ", b!"not enough data ", b!"valid HTTP/2 preface ",
   b!"invalid ", b!"SETTINGS frame sent", b!"GOAWAY frame enqueued", b!"flushed ", b!"failed to flush ", b!"failed to decode ",
   b!"enqueuing data frame ", b!"sending response body ", b!"error processing request: ", b!"unhandled error ",
   b!"protocol error. ", b!"in closing state, ", b!"attempting to close ", b!"window size increment ", b!"header type: ",
   b!"decoded header: ", b!"decoding literal field ", b!"decoder dynamic table:", b!"encoder dynamic table:",
   b!"dynamic table", b!"remaining unmatched Huffman code ", b!"Failed to decode string length ",
   b!"Header string length ", b!"Insufficient data ", b!"Unexpected end of data "]

/-- A text that begins with a digit. -/
def Numbered : Bytes → Bool
  | [] => false
  | c :: _ => 48 ≤ c && c ≤ 57

/-- Which part wrote a line with this text. -/
def author (text : Bytes) : Part :=
  if serverWords.any (·.isPrefixOf text) then .server
  else if transportWords.any (·.isPrefixOf text) then .transport
  else if handlerWords.any (·.isPrefixOf text) then .handler
  else if Numbered text || connectionWords.any (·.isPrefixOf text) then .connection
  else .nobody

/-- The lines of one part. -/
def linesOf (p : Part) (lines : List Line) : List Line := lines.filter fun l => author l.2 = p

end Spec

namespace Sim

open Spec
variable {W : Type}

/-- All lines are by one part. -/
def By (p : Part) (ls : List Line) : Prop := linesOf p ls = ls

theorem By.nil {p : Part} : By p [] := rfl

theorem By.cons {p : Part} {l : Line} {ls : List Line} (h : author l.2 = p) (hs : By p ls) : By p (l :: ls) := by
  rw [By, linesOf, List.filter_cons_of_pos (by simp [h])]
  exact congrArg _ hs

theorem linesOf_append (p : Part) (a b : List Line) : linesOf p (a ++ b) = linesOf p a ++ linesOf p b :=
  List.filter_append ..

theorem By.append {p : Part} {a b : List Line} (ha : By p a) (hb : By p b) : By p (a ++ b) := by
  rw [By, linesOf_append, ha, hb]

theorem By.mem {p : Part} {ls : List Line} (h : By p ls) : ∀ l ∈ ls, author l.2 = p := by
  intro l hl
  have := List.filter_eq_self.mp h l hl
  simpa using this

theorem By.other {p q : Part} {ls : List Line} (h : By p ls) (hq : p ≠ q) : linesOf q ls = [] := by
  refine List.filter_eq_nil_iff.mpr fun l hl => ?_
  rw [h.mem l hl]
  simpa using hq

/-- Goes through a function and checks the beginning of each line. -/
macro "by_part" : tactic => `(tactic| repeat' first
  | assumption
  | exact By.nil
  | refine By.cons (by rfl) ?_
  | refine By.append ?_ ?_
  | split)

/-! ## The connection -/

theorem insert_by (t : DynTable) (h : Header) : By .connection (t.insertLines h) := by
  simp only [DynTable.insertLines]; by_part

theorem entries_by : ∀ (n : Nat) (hs : List Header), By .connection (entryLines n hs)
  | _, [] => .nil
  | n, _ :: hs => .cons rfl (entries_by (n + 1) hs)

theorem tables_by (a b : DynTable) : By .connection (tablesLines a b) := by
  have h1 := entries_by 0 a.table
  have h2 := entries_by 0 b.table
  simp only [tablesLines, DynTable.contentLines]; by_part

theorem rest_by (br : BitReader) (n : Nat) : By .connection (HuffTree.restLines br n) := by
  fun_induction HuffTree.restLines br n <;> by_part

theorem loop_by (root : HuffTree) (br : BitReader) (c : HuffTree) (n : Nat) : By .connection (HuffTree.loopLines root br c n) := by
  fun_induction HuffTree.loopLines root br c n <;> first | exact rest_by _ _ | by_part

theorem limit_by (n : Nat) : By .connection (limitLines n) := by
  simp only [limitLines]; by_part

theorem string_by (b : Bool) (n : Nat) (data : Bytes) : By .connection (stringLines b n data) := by
  have h1 := limit_by n
  have h2 := loop_by huffmanTree { data := data.take n } huffmanTree 0
  simp only [stringLines, huffmanStringLines, HuffTree.decodeLines]
  by_part
  exact limit_by _

theorem lengthAndString_by (r : ByteReader) : By .connection (lengthAndStringLines r) := by
  simp only [lengthAndStringLines]
  by_part
  exact string_by _ _ _

theorem headerAt_by (t : DynTable) (i j : Nat) : By .connection (headerAtLines t i j) := by
  simp only [headerAtLines]; by_part

theorem headerNameAt_by (t : DynTable) (i j : Nat) : By .connection (headerNameAtLines t i j) := by
  simp only [headerNameAtLines]; by_part

theorem value_by (name : Bytes) (r : ByteReader) : By .connection (valueLines name r) := by
  have := lengthAndString_by r
  simp only [valueLines]; by_part

theorem literal_by (t : DynTable) (b : UInt8) (r : ByteReader) : By .connection (literalFieldLines t b r) := by
  simp only [literalFieldLines, indexedNameLines]
  by_part
  all_goals first | exact lengthAndString_by _ | exact value_by _ _ | exact headerNameAt_by _ _ _

theorem field_by (t : DynTable) (r : ByteReader) (b : UInt8) : By .connection (fieldLines t r b) := by
  have h4 := literal_by t 4 r
  have h6 := literal_by t 6 r
  simp only [fieldLines, indexedFieldLines, indexedHeaderLines, sizeUpdateLines]
  by_part
  all_goals first | exact headerAt_by _ _ _ | exact insert_by _ _

theorem blockLoop_by : ∀ (n : Nat) (t : DynTable) (r : ByteReader), By .connection (blockLoopLines n t r)
  | n, _, [] => by cases n <;> exact .nil
  | 0, _, _ :: _ => .nil
  | n + 1, t, b :: r => by
    rw [blockLoopLines]
    refine (field_by _ _ _).append ?_
    split
    · exact blockLoop_by n _ _
    · exact .nil

theorem encodeHeader_by (c : Bool) (t : DynTable) (h : Header) : By .connection (encodeHeaderLines c t h) := by
  have := insert_by t h
  simp only [encodeHeaderLines]; by_part

theorem encode_by (c : Bool) : ∀ (t : DynTable) (hs : List Header), By .connection (encodeLines c t hs)
  | _, [] => .nil
  | t, h :: hs => by
    rw [encodeLines]
    refine (encodeHeader_by _ _ _).append ?_
    split
    · exact encode_by c _ hs
    · exact .nil

theorem state_by (s : Sim W) (st : CState) : By .connection (s.stateLines st) := by
  simp only [stateLines]; by_part

theorem data_by (body : Bytes) : By .connection (dataLines body) := by
  fun_induction dataLines body <;> by_part

theorem requestHeaders_by (hs : List Header) :
    By .connection (hs.map fun h => (Level.debug, b!" - request header: " ++ h.name ++ b!": " ++ h.value)) := by
  induction hs with
  | nil => exact .nil
  | cons h hs ih => exact .cons rfl ih

theorem author_digit {d : UInt8} (h : Digit d = true) (ds : Bytes) : author (d :: ds) = .connection := by
  have h1 : ∀ ws : List Bytes, (ws.all fun w => match w with | [] => false | c :: _ => !Digit c) = true →
      ws.any (·.isPrefixOf (d :: ds)) = false := by
    intro ws hw
    rw [List.any_eq_false]
    intro w hm
    have := (List.all_eq_true.mp hw) w hm
    cases w with
    | nil => cases this
    | cons c cs =>
      simp only [List.isPrefixOf_cons_cons, Bool.and_eq_true, beq_iff_eq, not_and]
      rintro rfl
      simp [h] at this
  have h2 : Numbered (d :: ds) = true := by simpa [Numbered, Digit, UInt8.le_iff_toNat_le] using h
  rw [author, h1 serverWords (by decide), h1 transportWords (by decide), h1 handlerWords (by decide), h2]
  rfl

theorem author_status (n : Nat) (t : Bytes) : author (decimal n ++ t) = .connection := by
  obtain ⟨h1, h2, -, -⟩ := decimal_spec n
  revert h1 h2
  generalize decimal n = ds
  intro h1 h2
  cases ds with
  | nil => exact absurd rfl h1
  | cons d ds => exact author_digit (by simpa [Digit] using h2 d (by simp)) _

/-- An application that logs nothing itself. -/
def quietApp (app : AppLog W) : AppLog W := ⟨fun _ _ => [], app.what⟩

/-- A transport that logs nothing. -/
def quietNet : NetLog := ⟨fun _ => [], fun _ => [], fun _ _ => [], []⟩

/-- Some of the parts, the connection among them. -/
abbrev Parts := { q : Part → Bool // q .connection = true }

/-- The lines of these parts. -/
def linesIn (q : Parts) (lines : List Line) : List Line := lines.filter fun l => q.1 (author l.2)

/-- Nothing that the application and the transport log looks like a line of these parts. -/
structure Apart (q : Parts) (app : AppLog W) (net : NetLog) : Prop where
  app : ∀ req w, linesIn q (app.lines req w) = []
  handshake : ∀ r, linesIn q (net.handshake r) = []
  read : ∀ rs, linesIn q (net.read rs) = []
  write : ∀ a ws, linesIn q (net.write a ws) = []
  shutdown : linesIn q net.shutdown = []

/-- These parts' lines of the one are the other. -/
def Own (q : Parts) (a b : List Line) : Prop := linesIn q a = b

theorem Own.nil {q : Parts} : Own q [] [] := rfl
theorem Own.cons {q : Parts} {l : Line} {a b : List Line} (h : author l.2 = .connection) (hs : Own q a b) :
    Own q (l :: a) (l :: b) := by
  rw [Own, linesIn, List.filter_cons_of_pos (by rw [h]; exact q.2)]
  exact congrArg _ hs
theorem Own.append {q : Parts} {a b c d : List Line} (h1 : Own q a b) (h2 : Own q c d) : Own q (a ++ c) (b ++ d) := by
  rw [Own, linesIn, List.filter_append]
  exact congr (congrArg _ h1) h2
theorem By.own {q : Parts} {a : List Line} (h : By .connection a) : Own q a a :=
  List.filter_eq_self.mpr fun l hl => by rw [h.mem l hl]; exact q.2

/-- Goes through a function and drops what others log. -/
macro "own_part" : tactic => `(tactic| repeat' first
  | assumption
  | exact Own.nil
  | exact By.own (state_by _ _)
  | refine Own.cons (by rfl) ?_
  | refine Own.append ?_ ?_
  | split)

theorem request_own {q : Parts} {cfg : Cfg W} {app : AppLog W} (h : ∀ req w, linesIn q (app.lines req w) = []) (w : W)
    (hs : List Header) : Own q (requestLines cfg app w hs) (requestLines cfg (quietApp app) w hs) := by
  simp only [requestLines, quietApp]
  split
  · exact Own.append (h _ _) (by own_part)
  · own_part

theorem answer_own {q : Parts} {cfg : Cfg W} {app : AppLog W} (h : ∀ req w, linesIn q (app.lines req w) = []) (s : Sim W)
    (hs : List Header) : Own q (s.answerLines cfg app hs) (s.answerLines cfg (quietApp app) hs) := by
  simp only [answerLines]
  refine (((requestHeaders_by hs).own).append (request_own h _ _)).append ?_
  split
  · refine (encode_by _ _ _).own.append ?_
    split
    · refine (tables_by _ _).own.append (Own.cons ?_ ?_)
      · exact author_status _ _
      · split
        · exact .nil
        · exact Own.cons rfl (data_by _).own
    · exact .nil
  · exact .nil

theorem frame_own {q : Parts} {cfg : Cfg W} {app : AppLog W} (h : ∀ req w, linesIn q (app.lines req w) = []) (s : Sim W)
    (f : FrameReader) : Own q (s.frameLines cfg app f) (s.frameLines cfg (quietApp app) f) := by
  simp only [frameLines]
  split
  · own_part
  · split
    · refine .cons rfl (.cons rfl ((tables_by _ _).own.append ?_))
      split
      · refine (blockLoop_by _ _ _).own.append ?_
        split
        · exact answer_own h _ _
        · exact (state_by _ _).own
        · exact .nil
      · exact .nil
    · own_part

theorem tryRead_own {q : Parts} {cfg : Cfg W} {app : AppLog W} (h : ∀ req w, linesIn q (app.lines req w) = []) (s : Sim W) :
    Own q (s.tryReadLines cfg app) (s.tryReadLines cfg (quietApp app)) := by
  simp only [tryReadLines]
  own_part
  exact frame_own h _ _

theorem frameCase_own {q : Parts} {cfg : Cfg W} {app : AppLog W} (h : ∀ req w, linesIn q (app.lines req w) = []) (s : Sim W) :
    Own q (s.frameCaseLines cfg app) (s.frameCaseLines cfg (quietApp app)) := by
  simp only [frameCaseLines]
  exact (tryRead_own h s).append (by own_part)

theorem closeCall_by (s : Sim W) : By .connection s.closeCallLines := by
  have := state_by s .closing
  simp only [closeCallLines]; by_part

theorem readFailed_by (s : Sim W) (e : TErr) : By .connection (s.readFailedLines e) := by
  have h1 := state_by s .clientClosed
  have h2 := state_by s .protocolError
  simp only [readFailedLines]; by_part

theorem preface_by (s : Sim W) : By .connection s.prefaceLines := by
  have h1 := state_by s .awaitingFrame
  simp only [prefaceLines]; by_part

theorem fill_own {q : Parts} {app : AppLog W} {net : NetLog} (h : Apart q app net) : ∀ (rs : List ReadRes) (s : Sim W),
    Own q (fillLoopLines net rs s) (fillLoopLines quietNet rs s)
  | [], s => by
    simp only [fillLoopLines]
    split
    · exact Own.cons rfl .nil
    · exact Own.append (h.read _) (readFailed_by _ _).own
  | r :: rs, s => by
    simp only [fillLoopLines]
    split
    · exact Own.cons rfl .nil
    · refine Own.append (h.read _) ?_
      split
      · exact (readFailed_by _ _).own
      · exact Own.cons rfl (fill_own h rs _)

theorem flush_own {q : Parts} {app : AppLog W} {net : NetLog} (h : Apart q app net) (s : Sim W) :
    Own q (s.flushLines net) (s.flushLines quietNet) := by
  simp only [flushLines]
  split
  · exact .nil
  · exact Own.append (h.write _ _) (by own_part)

theorem handshake_own {q : Parts} {app : AppLog W} {net : NetLog} (h : Apart q app net) (s : Sim W) :
    Own q (s.handshakeLines net) (s.handshakeLines quietNet) := by
  simp only [handshakeLines]
  exact Own.append (h.handshake _) (by own_part)

theorem dispatch_own {q : Parts} {cfg : Cfg W} {app : AppLog W} {net : NetLog} (h : Apart q app net) (s : Sim W) :
    Own q (s.dispatchLines cfg app net) (s.dispatchLines cfg (quietApp app) quietNet) := by
  simp only [dispatchLines]
  split
  · refine (preface_by s).own.append ?_
    split
    · exact frameCase_own h.app _
    · exact .nil
  · exact frameCase_own h.app _
  · exact Own.cons rfl (Own.append h.shutdown (state_by _ _).own)
  · exact Own.cons rfl (closeCall_by s).own
  · exact .nil
  · exact Own.cons rfl (state_by _ _).own

theorem turn_own {q : Parts} {cfg : Cfg W} {app : AppLog W} {net : NetLog} (h : Apart q app net) (s : Sim W) :
    Own q (s.turnLines cfg app net) (s.turnLines cfg (quietApp app) quietNet) := by
  simp only [turnLines]
  refine (flush_own h s).append ?_
  split
  · split
    · exact .nil
    · exact (fill_own h _ _).append (dispatch_own h _)
  · exact .nil

theorem iter_own {q : Parts} {cfg : Cfg W} {app : AppLog W} {net : NetLog} (h : Apart q app net) (s : Sim W) :
    Own q (s.iterLines cfg app net) (s.iterLines cfg (quietApp app) quietNet) := by
  simp only [iterLines]
  refine Own.cons rfl ?_
  split
  · refine (handshake_own h s).append ?_
    split
    · exact .nil
    · exact turn_own h _
  · exact turn_own h _

theorem loop_own {q : Parts} {cfg : Cfg W} {app : AppLog W} {net : NetLog} (h : Apart q app net) : ∀ (n : Nat) (s : Sim W),
    Own q (processLoopLines cfg app net n s) (processLoopLines cfg (quietApp app) quietNet n s)
  | 0, _ => .nil
  | n + 1, s => by
    simp only [processLoopLines]
    refine (iter_own h s).append ?_
    split
    · exact loop_own h n _
    · exact .nil

/-! ## Transports and handlers -/

theorem tcpRead_by (why : Bytes) (r : SysRead) : By .transport (tcpReadLines why r) := by
  cases r with
  | again => exact rfl
  | error => exact rfl
  | got bs =>
    simp only [tcpReadLines]
    split <;> exact rfl

theorem tcpWrite_by (why : Bytes) (size : Nat) (r : SysWrite) : By .transport (tcpWriteLines why size r) := by
  cases r with
  | again => exact rfl
  | error => exact rfl
  | sent n =>
    simp only [tcpWriteLines]
    split <;> exact rfl

theorem tcpShutdown_by (failed : Option Bytes) : By .transport (tcpShutdownLines failed) := by
  cases failed <;> exact rfl

theorem tlsHandshake_by (code : Nat) (why : Bytes) (r : Option SslError) : By .transport (tlsHandshakeLines code why r) := by
  cases r with
  | none => exact rfl
  | some e =>
    cases e with
    | ssl eof => cases eof <;> exact rfl
    | _ => exact rfl

theorem tlsRead_by (code : Nat) (r : SslRead) : By .transport (tlsReadLines code r) := by
  cases r with
  | got bs => exact rfl
  | failed e => cases e <;> exact rfl

theorem tlsWrite_by (code size : Nat) (r : SslWrite) : By .transport (tlsWriteLines code size r) := by
  cases r with
  | sent n =>
    simp only [tlsWriteLines]
    split <;> exact rfl
  | failed e => cases e <;> exact rfl

theorem tlsShutdown_by (first : Bool) : By .transport (tlsShutdownLines first) := by
  cases first <;> exact rfl

theorem sanitize_by (why : Bytes) (fs : FS) (base requested : Bytes) :
    By .handler (FileReader.sanitizeLines why fs base requested) := by
  simp only [FileReader.sanitizeLines]
  split
  · split <;> exact rfl
  · split
    · exact rfl
    · split
      · exact rfl
      · split
        · exact rfl
        · split <;> exact rfl

theorem fileResponse_by (why : Bytes) (fs : FS) (path : Bytes) (head : Bool) :
    By .handler (StaticFileHandler.fileResponseLines why fs path head) := by
  simp only [StaticFileHandler.fileResponseLines]
  split
  · exact rfl
  · split
    · simp only [StaticFileHandler.headResponseLines, FileReader.getFileSizeLines]
      refine By.append ?_ ?_ <;> split <;> exact rfl
    · simp only [StaticFileHandler.getResponseLines, FileReader.readFileLines]
      refine By.append ?_ ?_ <;> split <;> exact rfl

theorem handle_by (h : StaticFileHandler) (why : Bytes) (fs : FS) (path : Bytes) (head : Bool) :
    By .handler (h.handleLines why fs path head) := by
  simp only [StaticFileHandler.handleLines]
  refine (sanitize_by _ _ _ _).append ?_
  split
  · exact rfl
  · exact fileResponse_by _ _ _ _

theorem pickStatic_by (why : Bytes) (fs : FS) (path method : Bytes) (hs : List StaticFileHandler) :
    ∀ ls, By .handler ls → By .handler (Router.pickStaticLines why fs path method hs ls) := by
  induction hs with
  | nil => intro ls h; exact h
  | cons x hs ih =>
    intro ls h
    rw [Router.pickStaticLines]
    refine ih _ ?_
    split
    · exact handle_by _ _ _ _ _
    · exact h

theorem target_by (why : Bytes) (r : Router World) (req : HttpRequest) (w : World) :
    By .handler (r.targetLines why req w) := by
  simp only [Router.targetLines]
  split
  · exact .nil
  · split
    · exact pickStatic_by _ _ _ _ _ _ .nil
    · exact .nil

theorem handlerLines_by (page : Page) (a : Args) (why : Bytes) (req : HttpRequest) (w : World) :
    By .handler (a.handlerLines page why req w) := by
  have h1 : ∀ q v, By .handler ((if a.status404FilePath ≠ [] then
      custom404Lines why a.status404FilePath
        ({ a.router page with chain := fun h => h }.getHandler World.fs req.path req.method)
        ((a.router page).targetLines why) else (a.router page).targetLines why) q v) := by
    intro q v
    split
    · refine (target_by _ _ _ _).append ?_
      split
      · split
        · exact fileResponse_by _ _ _ _
        · exact .nil
      · exact .nil
    · exact target_by _ _ _ _
  simp only [Args.handlerLines]
  split
  · exact h1 _ _
  · exact h1 _ _

theorem tcpNet_by (c : TcpOps) : (∀ r, By .transport (c.net.handshake r)) ∧ (∀ rs, By .transport (c.net.read rs)) ∧
    (∀ a ws, By .transport (c.net.write a ws)) ∧ By .transport c.net.shutdown := by
  refine ⟨fun _ => .nil, fun rs => ?_, fun a ws => ?_, tcpShutdown_by _⟩
  · simp only [TcpOps.net]; split <;> exact tcpRead_by _ _
  · simp only [TcpOps.net]; split <;> exact tcpWrite_by _ _ _

theorem tlsNet_by (c : TlsOps) : (∀ r, By .transport (c.net.handshake r)) ∧ (∀ rs, By .transport (c.net.read rs)) ∧
    (∀ a ws, By .transport (c.net.write a ws)) ∧ By .transport c.net.shutdown := by
  refine ⟨fun _ => tlsHandshake_by _ _ _, fun rs => ?_, fun a ws => ?_, tlsShutdown_by _⟩
  · simp only [TlsOps.net]; split <;> exact tlsRead_by _ _
  · simp only [TlsOps.net]; split <;> exact tlsWrite_by _ _ _

theorem By.out {p : Part} {ls : List Line} (h : By p ls) {q : Parts} (hq : q.1 p = false) : linesIn q ls = [] :=
  List.filter_eq_nil_iff.mpr fun l hl => by rw [h.mem l hl, hq]; decide

theorem apart {q : Parts} (h1 : q.1 .handler = false) (h2 : q.1 .transport = false) {page : Page} {a : Args}
    {why what : HttpRequest → World → Bytes} {net : NetLog}
    (h : (∀ r, By .transport (net.handshake r)) ∧ (∀ rs, By .transport (net.read rs)) ∧
      (∀ a ws, By .transport (net.write a ws)) ∧ By .transport net.shutdown) :
    Apart q ⟨fun q v => a.handlerLines page (why q v) q v, what⟩ net :=
  ⟨fun _ _ => (handlerLines_by _ _ _ _ _).out h1, fun r => (h.1 r).out h2, fun r => (h.2.1 r).out h2,
   fun a r => (h.2.2.1 a r).out h2, h.2.2.2.out h2⟩

/-- The lines of a call, sorted by their authors. -/
theorem call_by {page : Page} {a : Args} {why what : HttpRequest → World → Bytes} {cfg : Cfg World} {net : NetLog}
    (h : (∀ r, By .transport (net.handshake r)) ∧ (∀ rs, By .transport (net.read rs)) ∧
      (∀ a ws, By .transport (net.write a ws)) ∧ By .transport net.shutdown) (env : Env) (s : Sim World) (p : Part)
    (hp : p = .server ∨ p = .nobody) :
    linesOf .connection (s.processLines cfg ⟨fun q v => a.handlerLines page (why q v) q v, what⟩ net env) =
      s.processLines cfg ⟨fun _ _ => [], what⟩ quietNet env ∧
    linesOf p (s.processLines cfg ⟨fun q v => a.handlerLines page (why q v) q v, what⟩ net env) = [] := by
  have h1 := loop_own (q := ⟨fun p => p = .connection, rfl⟩) (cfg := cfg)
    (apart (page := page) (a := a) (why := why) (what := what) rfl rfl h)
    ({ s with hs := env.hs, reads := env.reads, writes := env.writes } : Sim World).budget
    { s with hs := env.hs, reads := env.reads, writes := env.writes }
  have h2 := loop_own (q := ⟨fun r => r = .connection ∨ r = p, by simp⟩) (cfg := cfg)
    (apart (page := page) (a := a) (why := why) (what := what) (by rcases hp with rfl | rfl <;> rfl) (by rcases hp with rfl | rfl <;> rfl) h)
    ({ s with hs := env.hs, reads := env.reads, writes := env.writes } : Sim World).budget
    { s with hs := env.hs, reads := env.reads, writes := env.writes }
  refine ⟨h1, List.filter_eq_nil_iff.mpr fun l hl => ?_⟩
  intro hs
  have hs : author l.2 = p := by simpa using hs
  have m : l ∈ linesIn ⟨fun r => r = .connection ∨ r = p, by simp⟩
      (s.processLines cfg ⟨fun q v => a.handlerLines page (why q v) q v, what⟩ net env) :=
    List.mem_filter.mpr ⟨hl, by simp [hs]⟩
  have e : linesIn ⟨fun r => r = .connection ∨ r = p, by simp⟩
      (s.processLines cfg ⟨fun q v => a.handlerLines page (why q v) q v, what⟩ net env) =
    linesIn ⟨fun p => p = .connection, rfl⟩
      (s.processLines cfg ⟨fun q v => a.handlerLines page (why q v) q v, what⟩ net env) := h2.trans h1.symm
  rw [e] at m
  have := (List.mem_filter.mp m).2
  rcases hp with rfl | rfl <;> simp [hs] at this

/-- C175: whatever the requests and the texts of errors, each line of a handler is recognizable as a handler's and each line
of a transport as a transport's. -/
theorem C175_others (page : Page) (a : Args) (why : Bytes) (req : HttpRequest) (w : World) (tcp : TcpOps) (tls : TlsOps)
    (hs : HsRes) (rs : List ReadRes) (octets : Bytes) (ws : List WriteRes) :
    (∀ l ∈ a.handlerLines page why req w, author l.2 = .handler) ∧
    (∀ l ∈ tcp.net.handshake hs ++ tcp.net.read rs ++ tcp.net.write octets ws ++ tcp.net.shutdown ++ tls.net.handshake hs ++
      tls.net.read rs ++ tls.net.write octets ws ++ tls.net.shutdown, author l.2 = .transport) := by
  have h1 := tcpNet_by tcp
  have h2 := tlsNet_by tls
  exact ⟨(handlerLines_by page a why req w).mem, (((((((h1.1 hs).append (h1.2.1 rs)).append
    (h1.2.2.1 octets ws)).append h1.2.2.2).append (h2.1 hs)).append (h2.2.1 rs)).append (h2.2.2.1 octets ws)).append
    h2.2.2.2 |>.mem⟩

/-- C175: in each call of `process`, over TCP or TLS, the lines recognizable as the connection's are all those it writes
itself (the lines that remain when handlers and transport log nothing), and no line looks like one of the server or like
nobody's: all others are lines of handlers and transports. -/
theorem C175_call (page : Page) (a : Args) (signed : Bool) (why what : HttpRequest → World → Bytes) (s : Sim World)
    (tcp : TcpOps) (tls : TlsOps) :
    let cfg : Cfg World := ⟨a.getHandler page, signed⟩
    let app : AppLog World := ⟨fun q v => a.handlerLines page (why q v) q v, what⟩
    let mute : AppLog World := ⟨fun _ _ => [], what⟩
    let still : NetLog := ⟨fun _ => [], fun _ => [], fun _ _ => [], []⟩
    linesOf .connection (s.processLines cfg app tcp.net tcp.env) = s.processLines cfg mute still tcp.env ∧
    linesOf .connection (s.processLines cfg app tls.net tls.env) = s.processLines cfg mute still tls.env ∧
    ∀ l ∈ s.processLines cfg app tcp.net tcp.env ++ s.processLines cfg app tls.net tls.env,
      author l.2 ≠ .server ∧ author l.2 ≠ .nobody := by
  have h1 := call_by (page := page) (a := a) (why := why) (what := what) (cfg := ⟨a.getHandler page, signed⟩)
    (tcpNet_by tcp) tcp.env s
  have h2 := call_by (page := page) (a := a) (why := why) (what := what) (cfg := ⟨a.getHandler page, signed⟩)
    (tlsNet_by tls) tls.env s
  have key : ∀ p, p = .server ∨ p = .nobody → linesOf p
      (s.processLines ⟨a.getHandler page, signed⟩ ⟨fun q v => a.handlerLines page (why q v) q v, what⟩ tcp.net tcp.env ++
       s.processLines ⟨a.getHandler page, signed⟩ ⟨fun q v => a.handlerLines page (why q v) q v, what⟩ tls.net tls.env) = [] := by
    intro p hp
    rw [linesOf_append, (h1 p hp).2, (h2 p hp).2]; rfl
  refine ⟨(h1 .server (.inl rfl)).1, (h2 .server (.inl rfl)).1, fun l hl => ⟨?_, ?_⟩⟩
  · simpa using List.filter_eq_nil_iff.mp (key .server (.inl rfl)) l hl
  · simpa using List.filter_eq_nil_iff.mp (key .nobody (.inr rfl)) l hl

/-- C175: `close` writes lines of the connection only. -/
theorem C175_close (s : Sim W) : ∀ l ∈ s.closeCallLines, author l.2 = .connection := (closeCall_by s).mem

set_option maxRecDepth 100000 in
/-- The call of `exTls`: lines of three parts, of which those of handler and transport are these. -/
example : exTlsLines.length = 57 ∧ (exTlsLines.filter fun t => author t ≠ .connection).map (fun t => (author t, t)) =
      [(.transport, b!"reading from SSL"), (.transport, b!"successfully read 44 bytes from SSL"),
       (.transport, b!"reading from SSL"), (.transport, b!"SSL want read"),
       (.transport, b!"successfully wrote 36 bytes to SSL"), (.transport, b!"reading from SSL"), (.transport, b!"SSL want read"),
       (.handler, b!"Read file: /srv/www/index.html (5 bytes)"),
       (.handler, b!"serving static file: /srv/www/index.html (5 bytes, text/html; charset=utf-8)"),
       (.transport, b!"TLS protocol error (SSL_ERROR=5)")] := by
  refine ⟨?_, ?_⟩ <;> decide +kernel

end Sim

/-! ## The server -/

namespace Server
open Spec Sim
variable {W : Type}

theorem set_by (sys : SysLog) (s : Server W) (fd : Nat) (events : PollEvents) (fails : Bool) :
    By .server (s.setLines sys fd events fails) := by
  simp only [setLines, EPoll.setLines]
  repeat' split
  all_goals first | exact .nil | exact .cons rfl .nil

theorem remove_by (sys : SysLog) (s : Server W) (fd : Nat) : By .server (s.removeLines sys fd) := by
  simp only [removeLines, EPoll.removeLines]
  repeat' split
  all_goals first | exact .nil | exact .cons rfl .nil

theorem close_by (fd : Nat) : By .server (closeLines fd) := .cons rfl .nil

theorem peer_by (sys : SysLog) (fd : Nat) : By .server (sys.peerLines fd) := by
  simp only [SysLog.peerLines]
  split
  · exact .cons rfl .nil
  · exact .cons rfl .nil
  · exact .nil

theorem tryAccept_by (sys : SysLog) (s : Server W) (r : AcceptRes) : By .server (s.tryAcceptLines sys r) := by
  cases r with
  | client fd nonblocking t now =>
    simp only [tryAcceptLines]
    repeat' split
    all_goals first | exact .nil | exact close_by _ | exact .cons rfl .nil
  | _ => exact .nil

theorem establish_by (sys : SysLog) (s : Server W) (ev : PollEv) : By .server (s.establishLines sys ev) := by
  simp only [establishLines]
  refine (tryAccept_by _ _ _).append ?_
  split
  · refine (peer_by _ _).append (.cons rfl ?_)
    split
    · split
      · exact close_by _
      · exact .cons rfl (set_by _ _ _ _ _)
    · exact .nil
  · exact .nil

theorem reapFold_by (sys : SysLog) (now : Nat → Nat) (l : Assoc (Conn W)) :
    ∀ s : Server W, By .server (reapFoldLines sys now l s) := by
  induction l with
  | nil => intro _; exact .nil
  | cons e l ih =>
    intro s
    rw [reapFoldLines]
    refine By.append ?_ (ih _)
    simp only [reapOneLines]
    split
    · exact .cons rfl ((remove_by _ _ _).append (close_by _))
    · exact .nil

theorem incoming_by (sys : SysLog) (s : Server W) (ev : PollEv) : By .server (s.incomingLines sys ev) := by
  simp only [incomingLines]
  split
  · exact establish_by _ _ _
  · refine (tryAccept_by _ _ _).append ?_
    split
    · exact (peer_by _ _).append (.cons rfl (close_by _))
    · exact .nil

theorem connection_by (cfg : Cfg W) (sys : SysLog) (s : Server W) (ev : PollEv) :
    By .server (s.connectionLines cfg sys ev) := by
  simp only [connectionLines]
  split
  · exact .nil
  · split
    · exact .cons rfl ((close_by _).append (remove_by _ _ _))
    · split
      · exact .nil
      · refine By.append ?_ ?_
        · split
          · exact set_by _ _ _ _ _
          · exact .nil
        · split
          · exact .cons rfl (set_by _ _ _ _ _)
          · exact .cons rfl ((remove_by _ _ _).append (close_by _))
          · exact .nil

theorem events_by (cfg : Cfg W) (sys : SysLog) (evs : List PollEv) : ∀ s : Server W, By .server (eventsLines cfg sys evs s) := by
  induction evs with
  | nil => intro _; exact .nil
  | cons ev evs ih =>
    intro s
    rw [eventsLines]
    refine By.append ?_ ?_
    · simp only [eventLines]
      split
      · exact incoming_by _ _ _
      · exact connection_by _ _ _ _
    · split
      · exact ih _
      · exact .nil

theorem iteration_by (cfg : Cfg W) (sys : SysLog) (s : Server W) (it : Iter) : By .server (s.iterationLines cfg sys it) := by
  simp only [iterationLines]
  refine (reapFold_by _ _ _ _).append ?_
  split
  · exact .nil
  · exact events_by _ _ _ _

theorem run_by (cfg : Cfg W) (sys : SysLog) (its : List Iter) : ∀ s : Server W, By .server (runLines cfg sys its s) := by
  induction its with
  | nil =>
    intro s
    rw [runLines]
    split
    · refine .cons ?_ .nil
      simp only [shutdownLine]
      rfl
    · exact .nil
  | cons it its ih =>
    intro s
    rw [runLines]
    split
    · refine .cons ?_ .nil
      simp only [shutdownLine]
      rfl
    · refine (iteration_by _ _ _ _).append ?_
      split
      · exact ih _
      · exact .nil

theorem begin_by (sys : SysLog) (world : W) (listener port : Nat) (created ctlFails : Bool) (why : Bytes) :
    By .server (beginLines sys world listener port created ctlFails why) := by
  simp only [beginLines]
  refine .cons rfl (By.append ?_ (set_by _ _ _ _ _))
  split
  · exact .nil
  · exact .cons rfl .nil

/-- C175: each line of the server itself is recognizable as one, whatever clients connect and whatever the system says. -/
theorem C175_server (cfg : Cfg W) (sys : SysLog) (world : W) (listener port : Nat) (created ctlFails : Bool) (why : Bytes)
    (its : List Iter) (s : Server W) :
    ∀ l ∈ beginLines sys world listener port created ctlFails why ++ runLines cfg sys its s, author l.2 = .server :=
  ((begin_by sys world listener port created ctlFails why).append (run_by cfg sys its s)).mem

end Server
end Ion
