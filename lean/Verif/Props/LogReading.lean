import Verif.Spec.AccessLog
import Verif.Props.Startup

/-!
# What the access log's file tells (C151)

`AccessLog::log_request` (lib/access_log.cpp:11-42) writes lines in Combined Log Format; the texts of the client are
put between quotation marks as they are.
-/

namespace Ion.Props
open Ion Spec

theorem cut_unique {c : UInt8} {x x' r r' : Bytes} (hx : c ∉ x) (hx' : c ∉ x') (h : x ++ c :: r = x' ++ c :: r') :
    x = x' ∧ r = r' := by
  induction x generalizing x' with
  | nil =>
    cases x' with
    | nil => simpa using h
    | cons b x' =>
      simp only [List.nil_append, List.cons_append, List.cons.injEq] at h
      exact absurd (by simp [← h.1]) hx'
  | cons a x ih =>
    cases x' with
    | nil =>
      simp only [List.nil_append, List.cons_append, List.cons.injEq] at h
      exact absurd (by simp [h.1]) hx
    | cons b x' =>
      simp only [List.cons_append, List.cons.injEq] at h
      have := ih (x' := x') (fun hm => hx (by simp [hm])) (fun hm => hx' (by simp [hm])) h.2
      exact ⟨by rw [h.1, this.1], this.2⟩

theorem isDecimal_free {n : Nat} {d : Bytes} (h : IsDecimal n d) {c : UInt8} (hc : ¬ (48 ≤ c.toNat ∧ c.toNat ≤ 57)) : c ∉ d :=
  fun hm => hc (h.2.1 c hm)

theorem isDecimal_value {n n' : Nat} {d : Bytes} (h : IsDecimal n d) (h' : IsDecimal n' d) : n = n' :=
  h.2.2.1.symm.trans h'.2.2.1

/-- The line with its separators spelt out. -/
theorem line_cons {c t m p s l r a : Bytes} :
    c ++ b!" - - " ++ t ++ b!" \"" ++ m ++ b!" " ++ p ++ b!" HTTP/2\" " ++ s ++ b!" " ++ l ++ b!" \"" ++ r ++
      b!"\" \"" ++ a ++ b!"\"" =
    c ++ 0x20 :: ([0x2d, 0x20, 0x2d, 0x20] ++ ((t ++ [0x20]) ++ 0x22 :: (m ++ 0x20 :: ((p ++ b!" HTTP/2") ++
      0x22 :: (0x20 :: (s ++ 0x20 :: ((l ++ [0x20]) ++ 0x22 :: (r ++ 0x22 :: (0x20 :: 0x22 :: (a ++ 0x22 :: []))))))))))  := by
  simp only [List.append_assoc, List.cons_append, List.nil_append]

/-- A line tells one thing. -/
theorem line_unique {e e' : LogLine} {t : Bytes} (he : e.Proper) (he' : e'.Proper) (h : LineText e t)
    (h' : LineText e' t) : e = e' := by
  obtain ⟨s, l, hs, hl, rfl⟩ := h
  obtain ⟨s', l', hs', hl', h⟩ := h'
  rw [line_cons, line_cons] at h
  have q : ∀ {x : Bytes}, (∀ b ∈ x, b ≠ 0x0a ∧ b ≠ 0x22) → (0x22 : UInt8) ∉ x := fun h hm => (h _ hm).2 rfl
  have q1 : ∀ {x y : Bytes}, (0x22 : UInt8) ∉ x → (0x22 : UInt8) ∉ y → (0x22 : UInt8) ∉ x ++ y := by
    intro x y h k hm
    exact (List.mem_append.mp hm).elim h k
  obtain ⟨e1, h⟩ := cut_unique (fun hm => (he.client _ hm).2.2 rfl) (fun hm => (he'.client _ hm).2.2 rfl) h
  obtain h := List.append_cancel_left h
  obtain ⟨e2, h⟩ := cut_unique (q1 (q he.time) (by decide)) (q1 (q he'.time) (by decide)) h
  obtain ⟨e3, h⟩ := cut_unique (fun hm => (he.method _ hm).2.2 rfl) (fun hm => (he'.method _ hm).2.2 rfl) h
  obtain ⟨e4, h⟩ := cut_unique (q1 (q he.path) (by decide)) (q1 (q he'.path) (by decide)) h
  obtain h := (List.cons.inj h).2
  obtain ⟨e5, h⟩ := cut_unique (isDecimal_free hs (by decide)) (isDecimal_free hs' (by decide)) h
  obtain ⟨e6, h⟩ := cut_unique (q1 (isDecimal_free hl (by decide)) (by decide))
    (q1 (isDecimal_free hl' (by decide)) (by decide)) h
  obtain ⟨e7, h⟩ := cut_unique (q he.referer) (q he'.referer) h
  obtain h := (List.cons.inj (List.cons.inj h).2).2
  obtain ⟨e8, -⟩ := cut_unique (q he.agent) (q he'.agent) h
  have e2 := List.append_cancel_right e2
  have e4 := List.append_cancel_right e4
  have e6 := List.append_cancel_right e6
  subst e5 e6
  have e5 := isDecimal_value hs hs'
  have e6 := isDecimal_value hl hl'
  cases e
  cases e'
  simp only [LogLine.mk.injEq]
  exact ⟨e1, e2, e3, e4, e5, e6, e7, e8⟩

theorem line_whole {e : LogLine} {t : Bytes} (he : e.Proper) (h : LineText e t) : (0x0a : UInt8) ∉ t := by
  obtain ⟨s, l, hs, hl, rfl⟩ := h
  have app : ∀ {l m : Bytes}, (0x0a : UInt8) ∉ l → (0x0a : UInt8) ∉ m → (0x0a : UInt8) ∉ l ++ m := by
    intro l m h k hm
    exact (List.mem_append.mp hm).elim h k
  have n2 : ∀ {x : Bytes}, (∀ b ∈ x, b ≠ 0x0a ∧ b ≠ 0x22) → (0x0a : UInt8) ∉ x := fun h hm => (h _ hm).1 rfl
  have n3 : ∀ {x : Bytes}, (∀ b ∈ x, b ≠ 0x0a ∧ b ≠ 0x22 ∧ b ≠ 0x20) → (0x0a : UInt8) ∉ x := fun h hm => (h _ hm).1 rfl
  exact app (app (app (app (app (app (app (app (app (app (app (app (app (app (app (n3 he.client) (by decide))
    (n2 he.time)) (by decide)) (n3 he.method)) (by decide)) (n2 he.path)) (by decide))
    (isDecimal_free hs (by decide))) (by decide)) (isDecimal_free hl (by decide))) (by decide)) (n2 he.referer))
    (by decide)) (n2 he.agent)) (by decide)

/-- C151, readings: a file has at most one reading. -/
theorem C151_reading {es es' : List LogLine} {file : Bytes} (h : LogFile es file) (h' : LogFile es' file) : es = es' := by
  induction h generalizing es' with
  | nil =>
    generalize hf : ([] : Bytes) = f at h'
    cases h' with
    | nil => rfl
    | cons => simp at hf
  | cons e es text rest he ht h ih =>
    generalize hf : text ++ [0x0a] ++ rest = f at h'
    cases h' with
    | nil => simp at hf
    | cons e' es' text' rest' he' ht' h' =>
      simp only [List.append_assoc, List.cons_append, List.nil_append] at hf
      obtain ⟨rfl, rfl⟩ := cut_unique (line_whole he ht) (line_whole he' ht') hf
      rw [line_unique he he' ht ht', ih h']

theorem logFile_append {es es' : List LogLine} {f f' : Bytes} (h : LogFile es f) (h' : LogFile es' f') :
    LogFile (es ++ es') (f ++ f') := by
  induction h with
  | nil => exact h'
  | cons e es text rest he ht h ih =>
    rw [List.append_assoc]
    exact .cons e _ text _ he ht ih

/-- What a line is to tell of an answered request. -/
structure Tells (c : LogCall) (e : LogLine) : Prop where
  client : c.peer.connIp ≠ [] ∧ e.client = c.peer.connIp ∨ c.peer.connIp = [] ∧ e.client = b!"-"
  time : e.time = clfTimestamp c.tm
  method : Sim.FieldText c.headers b!":method" e.method
  path : Sim.FieldText c.headers b!":path" e.path
  status : e.status = c.status.toNat
  length : e.length = c.length
  referer : Sim.FieldText c.headers b!"referer" e.referer
  agent : Sim.FieldText c.headers b!"user-agent" e.agent

/-- Requests whose texts can stand in a line: no quotation marks and line feeds, and no space in the method; the
client has an IPv4 address, or none that is known. -/
structure Loggable (c : LogCall) : Prop where
  peer : ∀ text, c.peer ≠ .inet6 text
  month : c.tm.mon < 12
  texts : ∀ x ∈ c.headers, ∀ b ∈ x.value, b ≠ 0x0a ∧ b ≠ 0x22
  method : ∀ x ∈ c.headers, x.name = b!":method" → (0x20 : UInt8) ∉ x.value

theorem fieldText_all {P : Bytes → Prop} {hs : List Header} {name v : Bytes} (h : Sim.FieldText hs name v)
    (hd : P b!"-") (hp : ∀ x ∈ hs, x.name = name → P x.value) : P v := by
  rcases h with ⟨-, rfl⟩ | ⟨pre, x, post, rfl, h1, rfl, -⟩
  · exact hd
  · exact hp x (by simp) h1

theorem address_spaceless (p : PeerName) (hp : ∀ text, p ≠ .inet6 text) : (0x20 : UInt8) ∉ p.connIp := by
  have hd : ∀ n, (0x20 : UInt8) ∉ decimal n := fun n => isDecimal_free (Sim.decimal_spec n) (by decide)
  have app : ∀ {l m : Bytes}, (0x20 : UInt8) ∉ l → (0x20 : UInt8) ∉ m → (0x20 : UInt8) ∉ l ++ m := by
    intro l m h k hm
    exact (List.mem_append.mp hm).elim h k
  cases p with
  | inet a b c d =>
    exact app (app (app (app (app (app (hd _) (by decide)) (hd _)) (by decide)) (hd _)) (by decide)) (hd _)
  | inet6 text => exact absurd rfl (hp text)
  | failed => exact List.not_mem_nil
  | unknown => exact List.not_mem_nil

/-- The text of a line. -/
def lineOf (e : LogLine) : Bytes :=
  e.client ++ b!" - - " ++ e.time ++ b!" \"" ++ e.method ++ b!" " ++ e.path ++ b!" HTTP/2\" " ++ decimal e.status ++
    b!" " ++ decimal e.length ++ b!" \"" ++ e.referer ++ b!"\" \"" ++ e.agent ++ b!"\""

theorem lineOf_text (e : LogLine) : LineText e (lineOf e) := by
  refine ⟨decimal e.status, decimal e.length, Sim.decimal_spec _, Sim.decimal_spec _, ?_⟩
  rw [lineOf]

/-- What is logged for a request. -/
def callLine (c : LogCall) : LogLine :=
  ⟨if c.peer.connIp = [] then b!"-" else c.peer.connIp, clfTimestamp c.tm, lastHeader b!":method" c.headers b!"-",
    lastHeader b!":path" c.headers b!"-", c.status.toNat, c.length, lastHeader b!"referer" c.headers b!"-",
    lastHeader b!"user-agent" c.headers b!"-"⟩

theorem callLine_text (c : LogCall) : accessEntry c.headers c.status c.length c.peer c.tm = lineOf (callLine c) := by
  rw [accessEntry, logEntry, lineOf, callLine]

theorem entry_line (c : LogCall) : ∃ e, Tells c e ∧
    LineText e (accessEntry c.headers c.status c.length c.peer c.tm) ∧ (Loggable c → e.Proper) := by
  refine ⟨callLine c, ⟨?_, ?_, ?_, ?_, ?_, ?_, ?_, ?_⟩, by rw [callLine_text]; exact lineOf_text _, ?_⟩
  · by_cases h : c.peer.connIp = []
    · exact .inr ⟨h, by simp [callLine, h]⟩
    · exact .inl ⟨h, by simp [callLine, h]⟩
  · simp only [callLine]
  · simp only [callLine]; exact Sim.lastHeader_text _ _
  · simp only [callLine]; exact Sim.lastHeader_text _ _
  · simp only [callLine]
  · simp only [callLine]
  · simp only [callLine]; exact Sim.lastHeader_text _ _
  · simp only [callLine]; exact Sim.lastHeader_text _ _
  · intro hc
    have hf : ∀ name, ∀ b ∈ lastHeader name c.headers b!"-", b ≠ 0x0a ∧ b ≠ 0x22 := fun name =>
      fieldText_all (P := fun v => ∀ b ∈ v, b ≠ 0x0a ∧ b ≠ 0x22) (Sim.lastHeader_text name c.headers) (by decide +kernel)
        (fun x hx _ => hc.texts x hx)
    have hm : (0x20 : UInt8) ∉ lastHeader b!":method" c.headers b!"-" :=
      fieldText_all (P := fun v => (0x20 : UInt8) ∉ v) (Sim.lastHeader_text _ c.headers) (by decide) hc.method
    have ht : ∀ b ∈ clfTimestamp c.tm, b ≠ 0x0a ∧ b ≠ 0x22 := fun b hb => Neat.timestamp c.tm hc.month b hb
    rw [callLine]
    generalize clfTimestamp c.tm = time at ht
    refine ⟨?_, ht, ?_, hf _, hf _, hf _⟩
    · simp only
      split
      · decide +kernel
      · intro b hb
        have := Neat.address c.peer hc.peer b hb
        exact ⟨this.1, this.2, fun e => address_spaceless c.peer hc.peer (e ▸ hb)⟩
    · intro b hb
      exact ⟨(hf _ b hb).1, (hf _ b hb).2, fun e => hm (e ▸ hb)⟩

theorem entries_file {P : LogCall → Prop} (hP : ∀ c, P c → Loggable c) : ∃ f : LogCall → LogLine, (∀ c, Tells c (f c)) ∧
    ∀ cs : List LogCall, (∀ c ∈ cs, P c) → LogFile (cs.map f)
      (cs.map fun c => accessEntry c.headers c.status c.length c.peer c.tm ++ [0x0a]).flatten := by
  refine ⟨fun c => (entry_line c).choose, fun c => (entry_line c).choose_spec.1, ?_⟩
  intro cs
  induction cs with
  | nil => intro _; exact .nil
  | cons c cs ih =>
    intro h
    have hc := (entry_line c).choose_spec
    exact .cons _ _ _ _ (hc.2.2 (hP c (h c (by simp)))) hc.2.1 (ih fun x hx => h x (by simp [hx]))

/-- C151 for requests without quotation marks and line feeds in their fields, and without a space in the method: the
file, if it could be read before, can be read as the lines before and one for each request that was written, telling
what happened; and in no other way. Missing: other requests. -/
theorem C151_file_partial (args : Args) (old : Bytes) (before : List LogLine) (r : Registry) (cs : List LogCall)
    (h : startLogging args true old = some r) (hp : args.accessLogPath ≠ [])
    (hl : args.logLevel ∈ [b!"trace", b!"debug", b!"info"]) (ho : LogFile before old) (hc : ∀ c ∈ cs, Loggable c) :
    ∃ tells : LogCall → LogLine, (∀ c, Tells c (tells c)) ∧
      LogFile (before ++ (cs.filter (·.written)).map tells) (cs.foldl LogCall.run r).file ∧
      ∀ es, LogFile es (cs.foldl LogCall.run r).file → es = before ++ (cs.filter (·.written)).map tells := by
  obtain ⟨f, h1, h2⟩ := entries_file (P := Loggable) (fun _ h => h)
  have hfile := (C124_exact_partial args true old r cs h).1 ⟨hp, rfl, hl⟩
  have hr : LogFile (before ++ (cs.filter (·.written)).map f) (cs.foldl LogCall.run r).file := by
    rw [hfile]
    exact logFile_append ho (h2 _ fun c hm => hc c (List.mem_filter.mp hm).1)
  exact ⟨f, h1, hr, fun es he => C151_reading he hr⟩

theorem four_fields (a b c d : Bytes) :
    lastHeader b!":method" [⟨b!":method", a⟩, ⟨b!":path", b⟩, ⟨b!"referer", c⟩, ⟨b!"user-agent", d⟩] b!"-" = a ∧
    lastHeader b!":path" [⟨b!":method", a⟩, ⟨b!":path", b⟩, ⟨b!"referer", c⟩, ⟨b!"user-agent", d⟩] b!"-" = b ∧
    lastHeader b!"referer" [⟨b!":method", a⟩, ⟨b!":path", b⟩, ⟨b!"referer", c⟩, ⟨b!"user-agent", d⟩] b!"-" = c ∧
    lastHeader b!"user-agent" [⟨b!":method", a⟩, ⟨b!":path", b⟩, ⟨b!"referer", c⟩, ⟨b!"user-agent", d⟩] b!"-" = d := by
  refine ⟨?_, ?_, ?_, ?_⟩ <;> simp [lastHeader]

/-- C151, "the access log's file tells which requests were answered, and how", is false: a client can write whatever
lines it likes into the file. For all lines there is one request, with line feeds and quotation marks in its target,
after which the file can be read, and only read, as a line for a request the client chooses, answered as it chooses,
all these lines, and a last line that ends with how the request was really answered. -/
theorem C151_refuted (c : LogCall) (first last : LogLine) (lines : List LogLine) (file : Bytes)
    (hfile : LogFile lines file) (hp : first.Proper ∧ last.Proper)
    (hfirst : first.time = clfTimestamp c.tm ∧
      (c.peer.connIp ≠ [] ∧ first.client = c.peer.connIp ∨ c.peer.connIp = [] ∧ first.client = b!"-"))
    (hlast : last.status = c.status.toNat ∧ last.length = c.length) :
    ∃ headers : List Header, ∀ es,
      LogFile es (accessEntry headers c.status c.length c.peer c.tm ++ [0x0a]) ↔ es = first :: lines ++ [last] := by
  refine ⟨[⟨b!":method", first.method⟩, ⟨b!":path", first.path ++ b!" HTTP/2\" " ++ decimal first.status ++ b!" " ++
    decimal first.length ++ b!" \"" ++ first.referer ++ b!"\" \"" ++ first.agent ++ b!"\"" ++ [0x0a] ++ file ++
    last.client ++ b!" - - " ++ last.time ++ b!" \"" ++ last.method ++ b!" " ++ last.path⟩,
    ⟨b!"referer", last.referer⟩, ⟨b!"user-agent", last.agent⟩], ?_⟩
  generalize hP : (first.path ++ b!" HTTP/2\" " ++ decimal first.status ++ b!" " ++
    decimal first.length ++ b!" \"" ++ first.referer ++ b!"\" \"" ++ first.agent ++ b!"\"" ++ [0x0a] ++ file ++
    last.client ++ b!" - - " ++ last.time ++ b!" \"" ++ last.method ++ b!" " ++ last.path) = P
  have e5 : (if c.peer.connIp = [] then b!"-" else c.peer.connIp) = first.client := by
    rcases hfirst.2 with ⟨h, k⟩ | ⟨h, k⟩
    · rw [if_neg h, k]
    · rw [if_pos h, k]
  have hread : LogFile (first :: lines ++ [last]) (accessEntry [⟨b!":method", first.method⟩, ⟨b!":path", P⟩,
      ⟨b!"referer", last.referer⟩, ⟨b!"user-agent", last.agent⟩] c.status c.length c.peer c.tm ++ [0x0a]) := by
    have h := logFile_append (.cons first lines _ file hp.1 (lineOf_text first) hfile)
      (.cons last [] _ [] hp.2 (lineOf_text last) .nil)
    rw [accessEntry, logEntry, (four_fields _ _ _ _).1, (four_fields _ _ _ _).2.1, (four_fields _ _ _ _).2.2.1,
      (four_fields _ _ _ _).2.2.2, e5, ← hP, ← hfirst.1, ← hlast.1, ← hlast.2]
    rw [lineOf, lineOf] at h
    simp only [List.append_assoc, List.cons_append, List.nil_append, List.append_nil] at h ⊢
    exact h
  intro es
  exact ⟨fun h => C151_reading h hread, fun h => by rw [h]; exact hread⟩

/-- A request that makes three lines. -/
example : accessEntry [⟨b!":method", b!"GET"⟩, ⟨b!":path",
    b!"/ HTTP/2\" 200 5 \"-\" \"-\"\n10.0.0.9 - - [16/Nov/2026:01:09:20 +0100] \"GET /admin HTTP/2\" 200 9 \"-\" \"-\"\n10.0.0.7 - - [16/Nov/2026:01:09:21 +0100] \"GET /x"⟩]
    404 0 (.inet 10 0 0 7) ⟨21, 9, 1, 16, 10, 2026, 3600⟩ =
    b!"10.0.0.7 - - [16/Nov/2026:01:09:21 +0100] \"GET / HTTP/2\" 200 5 \"-\" \"-\"\n" ++
    b!"10.0.0.9 - - [16/Nov/2026:01:09:20 +0100] \"GET /admin HTTP/2\" 200 9 \"-\" \"-\"\n" ++
    b!"10.0.0.7 - - [16/Nov/2026:01:09:21 +0100] \"GET /x HTTP/2\" 404 0 \"-\" \"-\"" := by decide +kernel

/-- Requests that are logged as they should be. -/
example : ∃ (args : Args) (r : Registry) (c : LogCall), startLogging args true [] = some r ∧ args.accessLogPath ≠ [] ∧
    args.logLevel ∈ [b!"trace", b!"debug", b!"info"] ∧ LogFile [] [] ∧ Loggable c ∧ c.written = true :=
  ⟨{ accessLogPath := b!"log", logLevel := b!"info" }, _,
    ⟨[⟨b!":method", b!"GET"⟩, ⟨b!":path", b!"/a b"⟩], 200, 5, .inet 10 0 0 7, ⟨21, 9, 1, 16, 10, 2026, 3600⟩, true⟩,
    rfl, by decide, by decide, .nil, ⟨by simp, by decide, by decide +kernel, by decide +kernel⟩, rfl⟩

/-- Lines the refutation speaks of. -/
example : LogLine.Proper ⟨b!"10.0.0.9", b!"[x]", b!"GET", b!"/admin", 200, 9, b!"-", b!"-"⟩ :=
  ⟨by decide +kernel, by decide +kernel, by decide +kernel, by decide +kernel, by decide +kernel, by decide +kernel⟩

end Ion.Props
