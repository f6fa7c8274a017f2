import Verif.Model.AppLog
import Verif.Props.App
import Verif.Props.SentLog

/-!
# Nobody else writes the connection's lines (C173)

C169, C170 and C172 say what the lines about changes of state, octets moved and frames sent tell, if the transport and the
handlers write no such lines themselves. C173 is about the server as it is: its two transports and the handlers of the
application, which put texts into the log that clients choose.
-/

namespace Ion

namespace Spec

/-- A connection of the server after some calls of `process` and `close` over TCP or TLS, with all that was logged in them.
`why` gives the texts of errors of the file system and `what` those of exceptions. -/
inductive RanBy (page : Page) (a : Args) (signed : Bool) (why what : HttpRequest → World → Bytes) (w : World) (now : Nat) :
    Sim World → List Line → Prop where
  | new : RanBy page a signed why what w now (Sim.init w now) []
  | tcp (s s' : Sim World) (lines : List Line) (c : TcpOps) (r : ProcRes) :
    RanBy page a signed why what w now s lines → s.process ⟨a.getHandler page, signed⟩ c.env = .ok (r, s') →
    RanBy page a signed why what w now s' (lines ++
      s.processLines ⟨a.getHandler page, signed⟩ ⟨fun q v => a.handlerLines page (why q v) q v, what⟩ c.net c.env)
  | tls (s s' : Sim World) (lines : List Line) (c : TlsOps) (r : ProcRes) :
    RanBy page a signed why what w now s lines → s.process ⟨a.getHandler page, signed⟩ c.env = .ok (r, s') →
    RanBy page a signed why what w now s' (lines ++
      s.processLines ⟨a.getHandler page, signed⟩ ⟨fun q v => a.handlerLines page (why q v) q v, what⟩ c.net c.env)
  | closed (s : Sim World) (lines : List Line) :
    RanBy page a signed why what w now s lines → RanBy page a signed why what w now s.close (lines ++ s.closeCallLines)

end Spec

namespace Sim

open Spec

/-- Lines that are not about changes of state, octets moved or frames sent. -/
def Foreign (ls : List Line) : Prop := changes ls = [] ∧ moved ls = [] ∧ notices ls = []

theorem Foreign.nil : Foreign [] := ⟨rfl, rfl, rfl⟩

theorem Foreign.append {a b : List Line} (ha : Foreign a) (hb : Foreign b) : Foreign (a ++ b) := by
  refine ⟨?_, ?_, ?_⟩
  · rw [changes, List.filter_append]; exact List.append_eq_nil_iff.mpr ⟨ha.1, hb.1⟩
  · rw [moved, List.filter_append]; exact List.append_eq_nil_iff.mpr ⟨ha.2.1, hb.2.1⟩
  · rw [notices, List.filter_append]; exact List.append_eq_nil_iff.mpr ⟨ha.2.2, hb.2.2⟩

/-! ## Transports -/

theorem tcpRead_foreign (why : Bytes) (r : SysRead) : Foreign (tcpReadLines why r) := by
  cases r with
  | again => exact ⟨rfl, rfl, rfl⟩
  | error => exact ⟨rfl, rfl, rfl⟩
  | got bs =>
    simp only [tcpReadLines]
    split <;> exact ⟨rfl, rfl, rfl⟩

theorem tcpWrite_foreign (why : Bytes) (size : Nat) (r : SysWrite) : Foreign (tcpWriteLines why size r) := by
  cases r with
  | again => exact ⟨rfl, rfl, rfl⟩
  | error => exact ⟨rfl, rfl, rfl⟩
  | sent n =>
    simp only [tcpWriteLines]
    split <;> exact ⟨rfl, rfl, rfl⟩

theorem tcpShutdown_foreign (failed : Option Bytes) : Foreign (tcpShutdownLines failed) := by
  cases failed <;> exact ⟨rfl, rfl, rfl⟩

theorem tlsHandshake_foreign (code : Nat) (why : Bytes) (r : Option SslError) : Foreign (tlsHandshakeLines code why r) := by
  cases r with
  | none => exact ⟨rfl, rfl, rfl⟩
  | some e =>
    cases e with
    | ssl eof => cases eof <;> exact ⟨rfl, rfl, rfl⟩
    | _ => exact ⟨rfl, rfl, rfl⟩

theorem tlsRead_foreign (code : Nat) (r : SslRead) : Foreign (tlsReadLines code r) := by
  cases r with
  | got bs => exact ⟨rfl, rfl, rfl⟩
  | failed e => cases e <;> exact ⟨rfl, rfl, rfl⟩

theorem tlsWrite_foreign (code size : Nat) (r : SslWrite) : Foreign (tlsWriteLines code size r) := by
  cases r with
  | sent n =>
    simp only [tlsWriteLines]
    split <;> exact ⟨rfl, rfl, rfl⟩
  | failed e => cases e <;> exact ⟨rfl, rfl, rfl⟩

theorem tlsShutdown_foreign (first : Bool) : Foreign (tlsShutdownLines first) := by
  cases first <;> exact ⟨rfl, rfl, rfl⟩

/-! ## Handlers -/

theorem sanitize_foreign (why : Bytes) (fs : FS) (base requested : Bytes) :
    Foreign (FileReader.sanitizeLines why fs base requested) := by
  simp only [FileReader.sanitizeLines]
  split
  · split <;> exact ⟨rfl, rfl, rfl⟩
  · split
    · exact ⟨rfl, rfl, rfl⟩
    · split
      · exact ⟨rfl, rfl, rfl⟩
      · split
        · exact ⟨rfl, rfl, rfl⟩
        · split <;> exact ⟨rfl, rfl, rfl⟩

theorem fileResponse_foreign (why : Bytes) (fs : FS) (path : Bytes) (head : Bool) :
    Foreign (StaticFileHandler.fileResponseLines why fs path head) := by
  simp only [StaticFileHandler.fileResponseLines]
  split
  · exact ⟨rfl, rfl, rfl⟩
  · split
    · simp only [StaticFileHandler.headResponseLines, FileReader.getFileSizeLines]
      refine Foreign.append ?_ ?_ <;> split <;> exact ⟨rfl, rfl, rfl⟩
    · simp only [StaticFileHandler.getResponseLines, FileReader.readFileLines]
      refine Foreign.append ?_ ?_ <;> split <;> exact ⟨rfl, rfl, rfl⟩

theorem handle_foreign (h : StaticFileHandler) (why : Bytes) (fs : FS) (path : Bytes) (head : Bool) :
    Foreign (h.handleLines why fs path head) := by
  simp only [StaticFileHandler.handleLines]
  refine (sanitize_foreign _ _ _ _).append ?_
  split
  · exact ⟨rfl, rfl, rfl⟩
  · exact fileResponse_foreign _ _ _ _

theorem pickStatic_foreign (why : Bytes) (fs : FS) (path method : Bytes) (hs : List StaticFileHandler) :
    ∀ ls, Foreign ls → Foreign (Router.pickStaticLines why fs path method hs ls) := by
  induction hs with
  | nil => intro ls h; exact h
  | cons x hs ih =>
    intro ls h
    rw [Router.pickStaticLines]
    refine ih _ ?_
    split
    · exact handle_foreign _ _ _ _ _
    · exact h

theorem target_foreign (why : Bytes) (r : Router World) (req : HttpRequest) (w : World) :
    Foreign (r.targetLines why req w) := by
  simp only [Router.targetLines]
  split
  · exact .nil
  · split
    · exact pickStatic_foreign _ _ _ _ _ _ .nil
    · exact .nil

theorem handlerLines_foreign (page : Page) (a : Args) (why : Bytes) (req : HttpRequest) (w : World) :
    Foreign (a.handlerLines page why req w) := by
  have h1 : ∀ q v, Foreign ((if a.status404FilePath ≠ [] then
      custom404Lines why a.status404FilePath
        ({ a.router page with chain := fun h => h }.getHandler World.fs req.path req.method)
        ((a.router page).targetLines why) else (a.router page).targetLines why) q v) := by
    intro q v
    split
    · refine (target_foreign _ _ _ _).append ?_
      split
      · split
        · exact fileResponse_foreign _ _ _ _
        · exact .nil
      · exact .nil
    · exact target_foreign _ _ _ _
  simp only [Args.handlerLines]
  split
  · exact h1 _ _
  · exact h1 _ _

/-! ## The server -/

theorem tcpNet_foreign (c : TcpOps) : (∀ r, Foreign (c.net.handshake r)) ∧ (∀ rs, Foreign (c.net.read rs)) ∧
    (∀ a ws, Foreign (c.net.write a ws)) ∧ Foreign c.net.shutdown := by
  refine ⟨fun _ => .nil, fun rs => ?_, fun a ws => ?_, tcpShutdown_foreign _⟩
  · simp only [TcpOps.net]; split <;> exact tcpRead_foreign _ _
  · simp only [TcpOps.net]; split <;> exact tcpWrite_foreign _ _ _

theorem tlsNet_foreign (c : TlsOps) : (∀ r, Foreign (c.net.handshake r)) ∧ (∀ rs, Foreign (c.net.read rs)) ∧
    (∀ a ws, Foreign (c.net.write a ws)) ∧ Foreign c.net.shutdown := by
  refine ⟨fun _ => tlsHandshake_foreign _ _ _, fun rs => ?_, fun a ws => ?_, tlsShutdown_foreign _⟩
  · simp only [TlsOps.net]; split <;> exact tlsRead_foreign _ _
  · simp only [TlsOps.net]; split <;> exact tlsWrite_foreign _ _ _

theorem keeps {page : Page} {a : Args} {why what : HttpRequest → World → Bytes} {net : NetLog}
    (h : (∀ r, Foreign (net.handshake r)) ∧ (∀ rs, Foreign (net.read rs)) ∧ (∀ a ws, Foreign (net.write a ws)) ∧
      Foreign net.shutdown) :
    let app : AppLog World := ⟨fun q v => a.handlerLines page (why q v) q v, what⟩
    Discreet app net ∧ Modest app net ∧ Reserved app net :=
  ⟨⟨fun _ _ => (handlerLines_foreign _ _ _ _ _).1, fun r => (h.1 r).1, fun r => (h.2.1 r).1, fun a r => (h.2.2.1 a r).1, h.2.2.2.1⟩,
   ⟨fun _ _ => (handlerLines_foreign _ _ _ _ _).2.1, fun r => (h.1 r).2.1, fun r => (h.2.1 r).2.1, fun a r => (h.2.2.1 a r).2.1,
    h.2.2.2.2.1⟩,
   ⟨fun _ _ => (handlerLines_foreign _ _ _ _ _).2.2, fun r => (h.1 r).2.2, fun r => (h.2.1 r).2.2, fun a r => (h.2.2.1 a r).2.2,
    h.2.2.2.2.2⟩⟩

/-- C173: neither the transports nor the handlers of the application write lines about changes of state, octets moved or
frames sent, whatever the requests and the texts of errors. -/
theorem C173_foreign (page : Page) (a : Args) (why : Bytes) (req : HttpRequest) (w : World) (tcp : TcpOps) (tls : TlsOps)
    (hs : HsRes) (rs : List ReadRes) (octets : Bytes) (ws : List WriteRes) :
    ∀ l ∈ a.handlerLines page why req w ++ tcp.net.handshake hs ++ tcp.net.read rs ++ tcp.net.write octets ws ++
      tcp.net.shutdown ++ tls.net.handshake hs ++ tls.net.read rs ++ tls.net.write octets ws ++ tls.net.shutdown,
      AboutChange l.2 = false ∧ AboutMove l.2 = false ∧ AboutSent l.2 = false := by
  have h1 := tcpNet_foreign tcp
  have h2 := tlsNet_foreign tls
  have h := ((((((((handlerLines_foreign page a why req w).append (h1.1 hs)).append (h1.2.1 rs)).append
    (h1.2.2.1 octets ws)).append h1.2.2.2).append (h2.1 hs)).append (h2.2.1 rs)).append (h2.2.2.1 octets ws)).append h2.2.2.2
  intro l hl
  refine ⟨?_, ?_, ?_⟩
  · simpa using (List.filter_eq_nil_iff.mp h.1) l hl
  · simpa using (List.filter_eq_nil_iff.mp h.2.1) l hl
  · simpa using (List.filter_eq_nil_iff.mp h.2.2) l hl

/-- C173: so on every connection of the server, over TCP or TLS, the lines about changes of state lead from AwaitingHandshake
to the state it is in; those about octets moved agree with what the transport did; those about frames sent are one for each
frame, and true of it. -/
theorem C173_served {page : Page} {a : Args} {signed : Bool} {why what : HttpRequest → World → Bytes} {w : World} {now : Nat}
    {s : Sim World} {lines : List Line} (h : RanBy page a signed why what w now s lines) :
    Chain .awaitingHandshake (changes lines) s.st ∧ Booked 0 s.trace (moved lines) s.rbuf.length ∧
    ((∀ x ∈ responses s.trace, x.2.2.length < 2 ^ 24) →
      ∃ fs, FramesWire fs (produced s.trace) ∧ Noticed fs (responses s.trace) (notices lines)) := by
  have k : let app : AppLog World := ⟨fun q v => a.handlerLines page (why q v) q v, what⟩
      let cfg : Cfg World := ⟨a.getHandler page, signed⟩
      Watched cfg app w now s lines ∧ Metered cfg app w now s lines ∧ Overheard cfg app w now s lines := by
    induction h with
    | new => exact ⟨.new, .new, .new⟩
    | tcp s s' lines c r _ hp ih =>
      obtain ⟨h1, h2, h3⟩ := keeps (page := page) (a := a) (why := why) (what := what) (tcpNet_foreign c)
      exact ⟨.step _ _ _ _ _ _ ih.1 h1 hp, .step _ _ _ _ _ _ ih.2.1 h2 hp, .step _ _ _ _ _ _ ih.2.2 h3 hp⟩
    | tls s s' lines c r _ hp ih =>
      obtain ⟨h1, h2, h3⟩ := keeps (page := page) (a := a) (why := why) (what := what) (tlsNet_foreign c)
      exact ⟨.step _ _ _ _ _ _ ih.1 h1 hp, .step _ _ _ _ _ _ ih.2.1 h2 hp, .step _ _ _ _ _ _ ih.2.2 h3 hp⟩
    | closed s lines _ ih => exact ⟨.closed _ _ ih.1, .closed _ _ ih.2.1, .closed _ _ ih.2.2⟩
  exact ⟨C169_all k.1, C170_all k.2.1, C172_all k.2.2⟩

/-- C173: what is logged when a call of `read` or `write` gives its result is what the transport logs for that call. -/
theorem C173_calls (tcp : TcpOps) (tls : TlsOps) (i : Nat) :
    (∀ x, tcp.reads[i]? = some x → tcp.env.reads[i]? = some (tcpRead x.1 x.2.2) ∧
      tcp.net.read (tcp.env.reads.drop i) = tcpReadLines x.2.1 x.1) ∧
    (∀ x a, tcp.writes[i]? = some x → tcp.env.writes[i]? = some (tcpWrite x.2.1 x.1 x.2.2.2) ∧
      tcp.net.write a (tcp.env.writes.drop i) = tcpWriteLines x.2.2.1 a.length x.1) ∧
    (∀ x, tls.reads[i]? = some x → tls.env.reads[i]? = some (tlsRead x.1 x.2.2) ∧
      tls.net.read (tls.env.reads.drop i) = tlsReadLines x.2.1 x.1) ∧
    (∀ x a, tls.writes[i]? = some x → tls.env.writes[i]? = some (tlsWrite x.2.1 x.1 x.2.2.2) ∧
      tls.net.write a (tls.env.writes.drop i) = tlsWriteLines x.2.2.1 a.length x.1) := by
  have key : ∀ {n : Nat}, i < n → n - (n - i) = i := by omega
  refine ⟨fun x h => ?_, fun x a h => ?_, fun x h => ?_, fun x a h => ?_⟩ <;>
    have hi := (List.getElem?_eq_some_iff.mp h).1
  · refine ⟨by simp [TcpOps.env, h], ?_⟩
    simp only [TcpOps.net, TcpOps.env, List.length_drop, List.length_map, key hi, h]
  · refine ⟨by simp [TcpOps.env, h], ?_⟩
    simp only [TcpOps.net, TcpOps.env, List.length_drop, List.length_map, key hi, h]
  · refine ⟨by simp [TlsOps.env, h], ?_⟩
    simp only [TlsOps.net, TlsOps.env, List.length_drop, List.length_map, key hi, h]
  · refine ⟨by simp [TlsOps.env, h], ?_⟩
    simp only [TlsOps.net, TlsOps.env, List.length_drop, List.length_map, key hi, h]

/-- What the application logs for a GET request. -/
def exHandlerLines (path : Bytes) : List Bytes :=
  (Props.exArgs.handlerLines Props.exPage b!"?" ⟨b!"GET", path, []⟩ Props.exWorld).map (·.2)

set_option maxRecDepth 100000 in
/-- A file; a path that tries to look like a line of the connection; and a path of nobody, for which the custom page is
served. -/
example : exHandlerLines b!"/static/index.html" =
      [b!"Read file: /srv/www/index.html (5 bytes)", b!"serving static file: /srv/www/index.html (5 bytes, text/html; charset=utf-8)"] ∧
    exHandlerLines b!"/static/../flushed 7 bytes" =
      [b!"Directory traversal attempt blocked: ../flushed 7 bytes (base: /srv/www)",
       b!"invalid file path requested: /static/../flushed 7 bytes"] ∧
    exHandlerLines b!"/nothing" =
      [b!"Read file: /srv/www/index.html (5 bytes)", b!"serving static file: /srv/www/index.html (5 bytes, text/html; charset=utf-8)"] := by
  refine ⟨?_, ?_, ?_⟩ <;> decide +kernel

/-- One call over TLS: the handshake, the client's preface, settings and a request; the second write fails. -/
def exTls : TlsOps where
  hs := (none, 0, [], 1)
  reads := [(.got (clientPreface ++ exSettings ++ exGet), 0, 2)]
  writes := [(.sent 36, 36, 0, 3), (.failed .other, 0, 5, 4)]

/-- What is logged in that call at level trace. -/
def exTlsLines : List Bytes :=
  ((Sim.init Props.exWorld 0).processLines ⟨Props.exArgs.getHandler Props.exPage, true⟩
    ⟨fun q v => Props.exArgs.handlerLines Props.exPage [] q v, fun _ _ => []⟩ exTls.net exTls.env).map (·.2)

set_option maxRecDepth 100000 in
/-- The call succeeds, and this is what is logged about changes of state, octets moved and frames sent. -/
example : (∃ r s, (Sim.init Props.exWorld 0).process ⟨Props.exArgs.getHandler Props.exPage, true⟩ exTls.env = .ok (r, s)) ∧
    exTlsLines.filter (fun t => AboutChange t || AboutMove t || AboutSent t) =
      [b!"connection state changed from AwaitingHandshake to AwaitingPreface", b!"read 44 bytes, buffer size now 44",
       b!"SETTINGS frame sent", b!"connection state changed from AwaitingPreface to AwaitingFrame",
       b!"read 0 settings, sending ACK", b!"flushed 36 bytes from write buffer", b!"404 status code sent w/headers",
       b!"sending response body (length: 5)", b!"enqueuing data frame for write (size: 5, rem: 0)",
       b!"connection state changed from AwaitingFrame to ProtocolError"] ∧
    b!"TLS protocol error (SSL_ERROR=5)" ∈ exTlsLines := by
  refine ⟨?_, ?_, ?_⟩
  · have h : (match (Sim.init Props.exWorld 0).process ⟨Props.exArgs.getHandler Props.exPage, true⟩ exTls.env with
      | .ok _ => true
      | _ => false) = true := by decide +kernel
    revert h
    generalize (Sim.init Props.exWorld 0).process ⟨Props.exArgs.getHandler Props.exPage, true⟩ exTls.env = x
    intro h
    split at h
    · exact ⟨_, _, rfl⟩
    · cases h
  · decide +kernel
  · decide +kernel

end Sim
end Ion
