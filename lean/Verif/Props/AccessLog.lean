import Verif.Model.App
import Verif.Props.ConnAnswer

/-! # The access log (C67) -/

namespace Ion
open Spec
namespace Sim
variable {W : Type}

/-- C67, number and content of the entries: there is one per response, in the same order, with that
response's status and body length. -/
theorem C67_entries (cfg : Cfg W) (calls : List Call) (w : W) (now : Nat) (s : Sim W)
    (h : run cfg calls (init w now) = .ok s) :
    (logs s.trace).map (fun x => (x.2.1, x.2.2)) =
      (responses s.trace).map (fun x => (x.2.1.status, x.2.1.body.length)) := by
  refine Steps.inv (P := fun s => (logs s.trace).map (fun x => (x.2.1, x.2.2)) =
      (responses s.trace).map (fun x => (x.2.1.status, x.2.1.body.length))) ?_ (run_steps cfg calls h) rfl
  intro b s t hb st i
  cases st with
  | frame _ s1 h hd hh hl hr hw ha =>
    simp only
    generalize (⟨hd, (s.rbuf.drop 9).take hd.length.toNat⟩ : FrameReader) = f at ha
    cases ha with
    | request data hs dec' resp evs w' block enc' ht hb hd' hr' he =>
      have h1 : responses evs = [] ∧ logs evs = [] := by cases hr' <;> exact ⟨rfl, rfl⟩
      simp [answerEvs, responses, logs, h1.1, h1.2, i]
    | settings l ht hf h => simp [enq, responses, logs, i]
    | _ => simp [responses, logs, i]
  | readFailed _ e hw hst hr =>
    cases e <;> simpa [Sim.readFailed, emit, updateState, logs, responses] using i
  | preface _ rest h hw hr => simpa [enq, emit, logs, responses] using i
  | close _ h => simpa [enq, logs, responses] using i
  | _ => simpa [logs, responses] using i

/-- A request with two `:path` fields. -/
def exTwice : Bytes := [0, 0, 3, 1, 5, 0, 0, 0, 1, 0x82, 0x84, 0x85]

/-- A request whose `:path` contains a line feed. -/
def exFeed : Bytes := [0, 0, 6, 1, 5, 0, 0, 0, 1, 0x82, 0x04, 3, 0x2f, 0x0a, 0x21]

/-- C67 is false in two ways. With two `:path` fields the first one is routed and the last one is
logged; and a field may contain a line feed, so that one entry is two lines of the log. -/
theorem C67_refuted :
    (∃ calls s q o hs st n, run exCfg calls (init 0 0) = .ok s ∧ handled s.trace = [(q, o)] ∧
      logs s.trace = [(hs, st, n)] ∧ q.path = b!"/" ∧ lastHeader b!":path" hs b!"-" = b!"/index.html") ∧
    (∃ calls s hs st n, run exCfg calls (init 0 0) = .ok s ∧ logs s.trace = [(hs, st, n)] ∧
      ∀ ip ts, 0x0a ∈ logEntry hs st n ip ts) := by
  constructor
  · obtain ⟨calls, s, h1, h2⟩ : ∃ calls s, run exCfg calls (init 0 0) = .ok s ∧
        (handled s.trace == [(⟨b!"GET", b!"/", [⟨b!":method", b!"GET"⟩, ⟨b!":path", b!"/"⟩,
            ⟨b!":path", b!"/index.html"⟩]⟩, .resp { status := 200, body := [104, 105] })] &&
          logs s.trace == [([⟨b!":method", b!"GET"⟩, ⟨b!":path", b!"/"⟩, ⟨b!":path", b!"/index.html"⟩], 200, 2)])
          = true :=
      Shows.run (e := exEnv (clientPreface ++ exTwice) [71]) (es := []) (by decide +kernel)
    simp only [Bool.and_eq_true, beq_iff_eq] at h2
    exact ⟨calls, s, _, _, _, _, _, h1, h2.1, h2.2, rfl, by decide +kernel⟩
  · obtain ⟨calls, s, h1, h2⟩ : ∃ calls s, run exCfg calls (init 0 0) = .ok s ∧
        (logs s.trace == [([⟨b!":method", b!"GET"⟩, ⟨b!":path", [0x2f, 0x0a, 0x21]⟩], 200, 2)]) = true :=
      Shows.run (e := exEnv (clientPreface ++ exFeed) [71]) (es := []) (by decide +kernel)
    simp only [beq_iff_eq] at h2
    refine ⟨calls, s, _, _, _, h1, h2, ?_⟩
    intro ip ts
    have : lastHeader b!":path" [⟨b!":method", b!"GET"⟩, ⟨b!":path", [0x2f, 0x0a, 0x21]⟩] b!"-" =
      [0x2f, 0x0a, 0x21] := by decide +kernel
    simp [logEntry, this]

theorem lastHeader_absent (name v : Bytes) (hs : List Header) (h : ∀ x ∈ hs, x.name ≠ name) :
    lastHeader name hs v = v := by
  induction hs generalizing v with
  | nil => rfl
  | cons x hs ih =>
    rw [lastHeader, if_neg (h x (by simp)), ih _ (fun y hy => h y (by simp [hy]))]

/-- A field that occurs at most once is logged as it is routed. -/
theorem lastHeader_once {name v d : Bytes} {hs : List Header} (h : getHeader hs name = some v)
    (h1 : (hs.filter (fun x => x.name = name)).length ≤ 1) : lastHeader name hs d = v := by
  induction hs generalizing d with
  | nil => simp [getHeader] at h
  | cons x hs ih =>
    rw [lastHeader]
    by_cases hx : x.name = name
    · rw [if_pos hx]
      simp [hx] at h1
      rw [lastHeader_absent _ _ _ (by intro y hy; exact h1 y hy)]
      simpa [getHeader, hx] using h
    · rw [if_neg hx]
      refine ih ?_ ?_
      · simpa [getHeader, hx] using h
      · simpa [hx] using h1

theorem lastHeader_mem (P : Bytes → Prop) (name d : Bytes) (hs : List Header) (hd : P d)
    (h : ∀ x ∈ hs, P x.value) : P (lastHeader name hs d) := by
  induction hs generalizing d with
  | nil => exact hd
  | cons x hs ih =>
    rw [lastHeader]
    refine ih _ ?_ (fun y hy => h y (by simp [hy]))
    split
    · exact h x (by simp)
    · exact hd

/-- What the log shows for a field: the value of the last one of that name, "-" without one. -/
def FieldText (hs : List Header) (name v : Bytes) : Prop :=
  ((∀ x ∈ hs, x.name ≠ name) ∧ v = b!"-") ∨
  ∃ pre x post, hs = pre ++ x :: post ∧ x.name = name ∧ x.value = v ∧ ∀ y ∈ post, y.name ≠ name

theorem lastHeader_text (name : Bytes) (hs : List Header) : FieldText hs name (lastHeader name hs b!"-") := by
  have key : ∀ (hs : List Header) (d : Bytes), ((∀ x ∈ hs, x.name ≠ name) ∧ lastHeader name hs d = d) ∨
      ∃ pre x post, hs = pre ++ x :: post ∧ x.name = name ∧ x.value = lastHeader name hs d ∧
        ∀ y ∈ post, y.name ≠ name := by
    intro hs
    induction hs with
    | nil => intro d; exact .inl ⟨by simp, rfl⟩
    | cons x hs ih =>
      intro d
      rw [lastHeader]
      rcases ih (if x.name = name then x.value else d) with ⟨h1, h2⟩ | ⟨pre, y, post, rfl, h2, h3, h4⟩
      · by_cases hx : x.name = name
        · exact .inr ⟨[], x, hs, rfl, hx, by rw [h2, if_pos hx], h1⟩
        · refine .inl ⟨?_, by rw [h2, if_neg hx]⟩
          intro y hy
          rcases List.mem_cons.1 hy with rfl | hy
          · exact hx
          · exact h1 y hy
      · exact .inr ⟨x :: pre, y, post, rfl, h2, h3, h4⟩
  rcases key hs b!"-" with h | h
  · exact .inl h
  · exact .inr h

/-- C67, what holds. Each handler call is followed by its response and the response's entry, for the
fields the handler saw. The entry is the client's address, the time stamp, the last `:method` and `:path` (each of
which is the one that was routed if it occurs once), the status and body length in decimal, and
the last `referer` and `user-agent` ("-" where there is none); if neither the fields nor the client address
and time stamp contain a line feed, the entry is a single line. Missing: duplicate and line-breaking
fields. -/
theorem C67_entry_partial (cfg : Cfg W) (calls : List Call) (w : W) (now : Nat) (s : Sim W)
    (h : run cfg calls (init w now) = .ok s) (pre post : List Ev) (q : HttpRequest) (o : HOut)
    (ht : s.trace = pre ++ .handled q o :: post) :
    ∃ (sid : UInt32) (resp : HttpResponse) (block : Bytes) (chunks : List Bytes) (rest : List Ev),
      post = .respond sid resp block :: (chunks.map Ev.enqueue ++
        .logged q.headers resp.status resp.body.length :: rest) ∧
      (∀ ip ts, ∃ method path st len client ref agent,
        FieldText q.headers b!":method" method ∧ FieldText q.headers b!":path" path ∧
        ((q.headers.filter (fun x => x.name = b!":method")).length ≤ 1 → method = q.method) ∧
        ((q.headers.filter (fun x => x.name = b!":path")).length ≤ 1 → path = q.path) ∧
        IsDecimal resp.status.toNat st ∧ IsDecimal resp.body.length len ∧
        FieldText q.headers b!"referer" ref ∧ FieldText q.headers b!"user-agent" agent ∧
        (ip ≠ [] ∧ client = ip ∨ ip = [] ∧ client = b!"-") ∧
        logEntry q.headers resp.status resp.body.length ip ts =
          client ++ b!" - - " ++ ts ++ b!" \"" ++ method ++ b!" " ++ path ++ b!" HTTP/2\" " ++ st ++ b!" " ++
            len ++ b!" \"" ++ ref ++ b!"\" \"" ++ agent ++ b!"\"") ∧
      ((∀ x ∈ q.headers, 0x0a ∉ x.value) → ∀ ip ts, 0x0a ∉ ip → 0x0a ∉ ts →
        0x0a ∉ logEntry q.headers resp.status resp.body.length ip ts) := by
  obtain ⟨pre', f, r, block, post', rfl, h2, h3, rfl⟩ := (run_steps cfg calls h).handled_at ht
  have ht2 : s.trace = (pre' ++ [.frame f, .handled q o]) ++
      .respond f.header.streamId (finishResponse r) block :: post' := by rw [ht]; simp
  obtain ⟨pre2, f2, evs, dec, enc, w1, evs0, data, hs, dec', w', enc', rest, k1, k2, k3, k4, k5, k6, k7, k8,
    k9⟩ := (run_steps cfg calls h).answer_at ht2
  have key : q.headers = hs ∧ getHeader hs b!":path" = some q.path ∧ getHeader hs b!":method" = some q.method := by
    have k1 : (pre' ++ [Ev.frame f]) ++ [.handled q o] = (pre2 ++ [.frame f2]) ++ evs := by simpa using k1
    generalize finishResponse r = resp at k7
    cases k7 with
    | missing h =>
      have := congrArg List.getLast? k1
      simp at this
    | handler path method r w' hp hm h =>
      obtain ⟨-, k1⟩ := List.append_inj' k1 rfl
      simp at k1
      obtain ⟨rfl, -⟩ := k1
      exact ⟨rfl, hp, hm⟩
    | threw path method w' hp hm h =>
      obtain ⟨-, k1⟩ := List.append_inj' k1 rfl
      simp at k1
      obtain ⟨rfl, -⟩ := k1
      exact ⟨rfl, hp, hm⟩
  obtain ⟨rfl, hp, hm⟩ := key
  refine ⟨_, finishResponse r, block, responseChunks f.header.streamId (finishResponse r) block, rest, by rw [k9], ?_, ?_⟩
  · intro ip ts
    refine ⟨_, _, _, _, if ip = [] then b!"-" else ip, _, _, lastHeader_text _ _, lastHeader_text _ _,
      fun u => lastHeader_once hm u, fun u => lastHeader_once hp u, decimal_spec _, decimal_spec _, lastHeader_text _ _,
      lastHeader_text _ _, ?_, ?_⟩
    · by_cases hi : ip = []
      · exact .inr ⟨hi, if_pos hi⟩
      · exact .inl ⟨hi, if_neg hi⟩
    · rw [logEntry]
  · intro hx ip ts hip hts
    have hdec : ∀ n, (0x0a : UInt8) ∉ decimal n := by
      intro n hn
      have := (decimal_spec n).2.1 _ hn
      revert this; decide
    have hl : ∀ name, (0x0a : UInt8) ∉ lastHeader name q.headers b!"-" :=
      fun name => lastHeader_mem (fun v => 0x0a ∉ v) name b!"-" q.headers (by decide) hx
    have hi : (0x0a : UInt8) ∉ (if ip = [] then b!"-" else ip) := by
      split
      · decide
      · exact hip
    simp only [logEntry, List.mem_append, not_or]
    repeat' apply And.intro
    all_goals first
      | exact hi
      | exact hts
      | exact hl _
      | exact hdec _
      | decide

/-- A handler call in a run, for a request with one `:method` and one `:path`. -/
example : ∃ calls s, run exCfg calls (init 0 0) = .ok s ∧
    ((handled s.trace).map (fun x => (x.1.path, x.1.headers.length)) == [(b!"/", 2)] &&
     (logs s.trace).map (fun x => logEntry x.1 x.2.1 x.2.2 b!"::1" b!"[now]") ==
      [b!"::1 - - [now] \"GET / HTTP/2\" 200 2 \"-\" \"-\""]) = true :=
  Shows.run (e := exEnv (clientPreface ++ exGet) [71]) (es := []) (by decide +kernel)

end Sim
end Ion
