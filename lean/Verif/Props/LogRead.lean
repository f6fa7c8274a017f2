import Verif.Props.Author
import Verif.Model.Reports

/-!
# The log can be read back (C177)

A line of the log has the time, the level, the trace if there is one, and the message (app/main.cpp:105,
app/trace_id_flag.cpp). C177 asks whether these can be recovered from the file.
-/

namespace Ion

namespace Spec

/-- What one call of the logger is about. -/
structure Entry where
  time : Bytes
  level : Bytes
  trace : Option Bytes
  message : Bytes
deriving DecidableEq, Repr

/-- Times, levels and traces as spdlog and OpenTelemetry write them, at least without closing brackets. -/
def Entry.Usual (e : Entry) : Prop :=
  0x5d ∉ e.time ∧ 0x5d ∉ e.level ∧ ∀ id, e.trace = some id → 0x5d ∉ id

/-- What the file contains after these calls. -/
def logFile (es : List Entry) : Bytes := es.flatMap fun e => logText e.time e.level e.trace e.message

end Spec

namespace Sim

open Spec

/-- The parts before the first `x` and after it. -/
theorem cut_at {x : UInt8} : ∀ {a b r s : Bytes}, x ∉ a → x ∉ b → a ++ x :: r = b ++ x :: s → a = b ∧ r = s
  | [], [], _, _, _, _, h => ⟨rfl, (List.cons.inj h).2⟩
  | [], c :: b, _, _, _, hb, h => absurd (List.cons.inj h).1 (fun e => hb (by rw [e]; exact List.mem_cons_self ..))
  | c :: a, [], _, _, ha, _, h => absurd (List.cons.inj h).1 (fun e => ha (by rw [← e]; exact List.mem_cons_self ..))
  | c :: a, d :: b, _, _, ha, hb, h => by
    obtain ⟨e1, h1⟩ := List.cons.inj h
    obtain ⟨e2, h2⟩ := cut_at (fun m => ha (.tail _ m)) (fun m => hb (.tail _ m)) h1
    exact ⟨by rw [e1, e2], h2⟩

theorem entry_inj {e f : Entry} {r s : Bytes} (he : e.Usual) (hf : f.Usual)
    (h1 : 0x0a ∉ e.message ∧ e.message.head? ≠ some 0x5b) (h2 : 0x0a ∉ f.message ∧ f.message.head? ≠ some 0x5b)
    (h : logText e.time e.level e.trace e.message ++ r = logText f.time f.level f.trace f.message ++ s) : e = f ∧ r = s := by
  obtain ⟨t, l, tr, m⟩ := e
  obtain ⟨t', l', tr', m'⟩ := f
  obtain ⟨a1, a2, a3⟩ := he
  obtain ⟨b1, b2, b3⟩ := hf
  have shape : ∀ (t l m r : Bytes) (tr : Option Bytes), logText t l tr m ++ r =
      0x5b :: (t ++ 0x5d :: (0x20 :: 0x5b :: (l ++ 0x5d :: (0x20 ::
        ((match tr with | some id => b!"[" ++ id ++ b!"] " | none => []) ++ (m ++ 0x0a :: r)))))) := by
    intro t l m r tr
    cases tr <;> simp [logText]
  rw [shape, shape] at h
  obtain ⟨-, h⟩ := List.cons.inj h
  obtain ⟨e1, h⟩ := cut_at a1 b1 h
  obtain ⟨-, h⟩ := List.cons.inj h
  obtain ⟨-, h⟩ := List.cons.inj h
  obtain ⟨e2, h⟩ := cut_at a2 b2 h
  obtain ⟨-, h⟩ := List.cons.inj h
  simp only at e1 e2 h1 h2
  subst e1 e2
  have mixed : ∀ {id m m' r s : Bytes}, m'.head? ≠ some 0x5b →
      (b!"[" ++ id ++ b!"] ") ++ (m ++ 0x0a :: r) = [] ++ (m' ++ 0x0a :: s) → False := by
    intro id m m' r s hm hh
    cases m' with
    | nil => exact absurd (List.cons.inj hh).1 (by decide)
    | cons c cs => exact hm (congrArg some (List.cons.inj hh).1.symm)
  cases tr with
  | none =>
    cases tr' with
    | none =>
      obtain ⟨rfl, rfl⟩ := cut_at h1.1 h2.1 h
      exact ⟨rfl, rfl⟩
    | some id' => exact (mixed h1.2 h.symm).elim
  | some id =>
    cases tr' with
    | none => exact (mixed h2.2 h).elim
    | some id' =>
      have h : id ++ 0x5d :: (0x20 :: (m ++ 0x0a :: r)) = id' ++ 0x5d :: (0x20 :: (m' ++ 0x0a :: s)) := by
        simpa using h
      obtain ⟨e3, h3⟩ := cut_at (a3 id rfl) (b3 id' rfl) h
      obtain ⟨rfl, rfl⟩ := cut_at h1.1 h2.1 (List.cons.inj h3).2
      subst e3
      exact ⟨rfl, rfl⟩

/-- No part of the program writes a message that begins with a bracket. -/
theorem bracket (t : Bytes) (h : author t ≠ .nobody) : t.head? ≠ some 0x5b := by
  intro hh
  cases t with
  | nil => cases hh
  | cons c cs =>
    cases hh
    exact h rfl

/-- C177, as far as it holds: of logs with messages that some part of the program wrote and that are without line breaks, the
file determines the entries: their number and order, and the time, the level, the trace and the message of each. Missing:
messages with line breaks. -/
theorem C177_read_partial (es fs : List Entry) (he : ∀ e ∈ es, e.Usual ∧ author e.message ≠ .nobody ∧ 0x0a ∉ e.message)
    (hf : ∀ e ∈ fs, e.Usual ∧ author e.message ≠ .nobody ∧ 0x0a ∉ e.message) (h : logFile es = logFile fs) : es = fs := by
  have empty : ∀ (t l m : Bytes) (tr : Option Bytes) (r : Bytes), logText t l tr m ++ r ≠ [] := by
    intro t l m tr r hh
    simp [logText] at hh
  induction es generalizing fs with
  | nil =>
    cases fs with
    | nil => rfl
    | cons f fs => exact absurd h.symm (empty _ _ _ _ _)
  | cons e es ih =>
    cases fs with
    | nil => exact absurd h (empty _ _ _ _ _)
    | cons f fs =>
      have a := he e (List.mem_cons_self ..)
      have b := hf f (List.mem_cons_self ..)
      obtain ⟨e1, h'⟩ := entry_inj a.1 b.1 ⟨a.2.2, bracket _ a.2.1⟩ ⟨b.2.2, bracket _ b.2.1⟩ h
      rw [ih fs (fun x m => he x (.tail _ m)) (fun x m => hf x (.tail _ m)) h', e1]

/-- C177: and every message is of some part: those of handlers, transports and connections in calls of `process`, those
in `close`, and those of the server. -/
theorem C177_somebody (page : Page) (a : Args) (signed : Bool) (why what : HttpRequest → World → Bytes) (s : Sim World)
    (tcp : TcpOps) (tls : TlsOps) (cfg : Cfg World) (sys : SysLog) (world : World) (listener port : Nat)
    (created ctlFails : Bool) (err : Bytes) (its : List Iter) (srv : Server World) :
    let cfg' : Cfg World := ⟨a.getHandler page, signed⟩
    let app : AppLog World := ⟨fun q v => a.handlerLines page (why q v) q v, what⟩
    ∀ l ∈ s.processLines cfg' app tcp.net tcp.env ++ s.processLines cfg' app tls.net tls.env ++ s.closeCallLines ++
      (Server.beginLines sys world listener port created ctlFails err ++ Server.runLines cfg sys its srv),
      author l.2 ≠ .nobody := by
  intro cfg' app l hl
  rcases List.mem_append.mp hl with hl | hl
  · rcases List.mem_append.mp hl with hl | hl
    · exact ((C175_call page a signed why what s tcp tls).2.2 l hl).2
    · rw [C175_close s l hl]; decide
  · rw [Server.C175_server cfg sys world listener port created ctlFails err its srv l hl]; decide

/-- C177 as stated fails: a client that asks for a target with a line break can make one entry look like two. -/
theorem C177_refuted : ∃ (path : Bytes) (es fs : List Entry), (∀ e ∈ es ++ fs, e.Usual) ∧ logFile es = logFile fs ∧
    es.length ≠ fs.length ∧
    (∀ e ∈ es, e.message ∈ (Props.exArgs.handlerLines Props.exPage [] ⟨b!"GET", path, []⟩ Props.exWorld).map (·.2)) := by
  refine ⟨b!"/static/../x?\n[2026-11-16 10:00:00.000] [info] server at capacity",
    [⟨b!"2026-11-16 10:00:00.000", b!"warning", none,
      b!"invalid file path requested: /static/../x?\n[2026-11-16 10:00:00.000] [info] server at capacity"⟩],
    [⟨b!"2026-11-16 10:00:00.000", b!"warning", none, b!"invalid file path requested: /static/../x?"⟩,
     ⟨b!"2026-11-16 10:00:00.000", b!"info", none, b!"server at capacity"⟩], ?_, ?_, ?_, ?_⟩
  · intro e he
    simp only [List.cons_append, List.nil_append, List.mem_cons, List.not_mem_nil, or_false] at he
    rcases he with rfl | rfl | rfl <;> exact ⟨by decide, by decide, fun _ h => nomatch h⟩
  · decide +kernel
  · decide
  · decide +kernel

set_option maxRecDepth 100000 in
/-- Two entries as they are in the file, one of them with a trace. -/
example : logFile [⟨b!"2026-11-16 10:00:00.000", b!"info", none, b!"listening on port 8443"⟩,
      ⟨b!"2026-11-16 10:00:01.000", b!"info", some b!"0af7651916cd43dd8448eb211c80319c", b!"200 status code sent w/headers"⟩] =
    b!"[2026-11-16 10:00:00.000] [info] listening on port 8443\n[2026-11-16 10:00:01.000] [info] [0af7651916cd43dd8448eb211c80319c] 200 status code sent w/headers\n" ∧
    author b!"listening on port 8443" = .server ∧ author b!"200 status code sent w/headers" = .connection ∧
    author b!"[info] forged" = .nobody := by
  refine ⟨?_, ?_, ?_, ?_⟩ <;> decide +kernel

end Sim
end Ion
