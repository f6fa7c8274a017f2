import Verif.Model.Reports
import Verif.Props.AccessLog
import Verif.Props.StaticFiles

/-!
# Spans and log lines (C127, C128)
-/

namespace Ion
open Spec

variable {W : Type}

namespace Sim

/-! ### C127 -/

/-- C127 for requests that reach a handler: a HEADERS frame has exactly one span, other frames have none; if a handler
is called, the span names the method and the path that were routed, the client, and the status of the response that is
sent. If none is called, the span says nothing at all. Missing: the 400 that is sent for a request without `:path` or
`:method`. -/
theorem C127_span_partial (cfg : Cfg W) (s s' : Sim W) (ip : Bytes) (f : FrameReader)
    (h : processFrame cfg s f = .ok s') : ∃ new, s'.trace = s.trace ++ new ∧
      (f.header.type ≠ 1 → frameSpans cfg s ip f = [] ∧ handled new = [] ∧ responses new = []) ∧
      (f.header.type = 1 → ∃ span, frameSpans cfg s ip f = [span] ∧
        ((handled new = [] ∧ span = {}) ∨
          ∃ q o sid resp block, handled new = [(q, o)] ∧ responses new = [(sid, resp, block)] ∧
            span = ⟨some q.method, some q.path, some ip, some resp.status⟩)) := by
  have ha := processFrame_ok h
  cases ha with
  | settingsAck ht hf => exact ⟨[], by simp, by simp [frameSpans, ht, handled, responses], by simp [ht]⟩
  | settings l ht hf h =>
    refine ⟨_, rfl, fun _ => ?_, by simp [ht]⟩
    simp [frameSpans, ht, handled, responses]
  | badSettings e ht hf h => exact ⟨[], by simp, by simp [frameSpans, ht, handled, responses], by simp [ht]⟩
  | windowUpdate w ht h => exact ⟨[], by simp, by simp [frameSpans, ht, handled, responses], by simp [ht]⟩
  | goaway ht => exact ⟨[], by simp, by simp [frameSpans, ht, handled, responses], by simp [ht]⟩
  | other h1 h4 h7 h8 => exact ⟨[], by simp, by simp [frameSpans, h1, handled, responses], by simp [h1]⟩
  | badHeaders block e dec' ht hb hd =>
    refine ⟨[], by simp, by simp [ht], fun _ => ⟨{}, ?_, .inl ⟨rfl, rfl⟩⟩⟩
    simp [frameSpans, ht, hb, hd]
  | request data hs dec' resp evs w' block enc' ht hb hd hr he =>
    refine ⟨_, rfl, by simp [ht], fun _ => ⟨requestSpan cfg s.world ip hs, by simp [frameSpans, ht, hb, hd], ?_⟩⟩
    cases hr with
    | missing h0 =>
      left
      refine ⟨by simp [answerEvs, handled], ?_⟩
      rw [requestSpan]
      split
      · rename_i p m hp hm
        simp [hp, hm] at h0
      · rfl
    | handler path method r w' hp hm h0 =>
      right
      refine ⟨⟨method, path, hs⟩, .resp r, f.header.streamId, finishResponse r, block,
        by simp [answerEvs, handled], by simp [answerEvs, responses], ?_⟩
      simp [requestSpan, hp, hm, h0, finishResponse]
    | threw path method w' hp hm h0 =>
      right
      refine ⟨⟨method, path, hs⟩, .stdExn, f.header.streamId, finishResponse { status := 500 }, block,
        by simp [answerEvs, handled], by simp [answerEvs, responses], ?_⟩
      simp [requestSpan, hp, hm, h0, finishResponse]

/-- C127, "every response is in a span with its status", is false: a request without `:method` is answered 400, and its
span says nothing. -/
theorem C127_refuted : ∃ (s s' : Sim Nat) (f : FrameReader) (sid : UInt32) (resp : HttpResponse) (block : Bytes),
    processFrame exCfg s f = .ok s' ∧ responses s'.trace = [(sid, resp, block)] ∧ resp.status = 400 ∧
    ∀ ip, frameSpans exCfg s ip f = [{}] := by
  obtain ⟨s', h1, h2⟩ : ∃ s', processFrame exCfg (init 0 0) ⟨⟨1, 1, 5, 1⟩, [0x84]⟩ = .ok s' ∧
      (match responses s'.trace with | [(_, resp, _)] => resp.status == 400 | _ => false) = true := by
    have : (match processFrame exCfg (init 0 0) ⟨⟨1, 1, 5, 1⟩, [0x84]⟩ with
      | .ok s' => (match responses s'.trace with | [(_, resp, _)] => resp.status == 400 | _ => false)
      | _ => false) = true := by decide +kernel
    split at this
    · rename_i s' h; exact ⟨s', h, this⟩
    · cases this
  split at h2
  · rename_i sid resp block hr
    refine ⟨_, s', _, sid, resp, block, h1, hr, by simpa using h2, fun ip => ?_⟩
    have hb : ((⟨⟨1, 1, 5, 1⟩, [0x84]⟩ : FrameReader).headersBlock : Outcome Stop Bytes) = .ok [0x84] := by decide
    have hd : ∃ t, decodeBlock {} [0x84] = .ok [⟨b!":path", b!"/"⟩] t := by
      have : (match decodeBlock {} [0x84] with | .ok hs _ => hs == [⟨b!":path", b!"/"⟩] | _ => false) = true := by
        decide +kernel
      split at this
      · rename_i hs t hx
        rw [beq_iff_eq] at this
        exact ⟨t, this ▸ hx⟩
      · cases this
    obtain ⟨t, hd⟩ := hd
    have hm : getHeader [⟨b!":path", b!"/"⟩] b!":method" = none := by decide
    rw [frameSpans, if_pos rfl, hb]
    simp only [init, hd, requestSpan, hm]
    rfl
  · cases h2

/-- A request that is answered 200. -/
example : frameSpans exCfg (init 0 0) b!"10.0.0.1" ⟨⟨2, 1, 5, 1⟩, [0x82, 0x84]⟩ =
    [⟨some b!"GET", some b!"/", some b!"10.0.0.1", some 200⟩] := by decide +kernel

end Sim

namespace Props

/-! ### C128 -/

/-- C128, "each message of the program's log is a message of the program", is false of every server with a static
handler that does not serve the root directory, at every level up to "warn": whatever a line of the log looks like,
there is a target for which the log contains this line. -/
theorem C128_refuted (h : StaticFileHandler) (fs : FS)
    (hr : FileReader.sanitizePath fs h.filesystemRoot b!"/" = none) (time level trace message : Bytes) :
    ∃ path, h.matches path = true ∧ ∃ m, m ∈ h.messages fs path ∧ ∀ time' level' trace', ∃ before,
      logText time' level' trace' m = before ++ [0x0a] ++ logText time level (some trace) message := by
  let line := b!"[" ++ time ++ b!"] [" ++ level ++ b!"] " ++ (b!"[" ++ trace ++ b!"] ") ++ message
  let path := h.urlPrefix ++ (b!"//?" ++ 0x0a :: line)
  have hrel : h.getRelativePath path = b!"/" := by
    simp only [StaticFileHandler.getRelativePath, path, List.drop_left]
    have key : ∀ l : Bytes, (if (([47, 47, 63] ++ l : Bytes) = [] || ([47, 47, 63] ++ l : Bytes) = b!"/") = true
        then b!"/index.html" else [47, 47, 63] ++ l) = [47, 47, 63] ++ l := by
      intro l
      rw [if_neg (by simp)]
    rw [key, if_pos (by rfl)]
    rfl
  refine ⟨path, by simp [StaticFileHandler.matches, path], b!"invalid file path requested: " ++ path, ?_, ?_⟩
  · simp [StaticFileHandler.messages, hrel, hr]
  · intro time' level' trace'
    refine ⟨b!"[" ++ time' ++ b!"] [" ++ level' ++ b!"] " ++
      (match trace' with | some id => b!"[" ++ id ++ b!"] " | none => []) ++ b!"invalid file path requested: " ++
      h.urlPrefix ++ b!"//?", ?_⟩
    cases trace' <;> simp [logText, path, line]

/-- Such a site. -/
example : FileReader.sanitizePath Files.site b!"/srv/www" b!"/" = none := by decide +kernel

/-- The same with every header field at level "debug". -/
theorem C128_header (n : Bytes) (time level trace message : Bytes) : ∃ v : Bytes, ∀ time' level' trace', ∃ before,
    logText time' level' trace' (headerMessage ⟨n, v⟩) = before ++ [0x0a] ++ logText time level (some trace) message := by
  refine ⟨0x0a :: (b!"[" ++ time ++ b!"] [" ++ level ++ b!"] " ++ (b!"[" ++ trace ++ b!"] ") ++ message), ?_⟩
  intro time' level' trace'
  refine ⟨b!"[" ++ time' ++ b!"] [" ++ level' ++ b!"] " ++
      (match trace' with | some id => b!"[" ++ id ++ b!"] " | none => []) ++ b!" - request header: " ++ n ++ b!": ", ?_⟩
  cases trace' <;> simp [logText, headerMessage]

theorem relative_mem (h : StaticFileHandler) (path : Bytes) (b : UInt8) (hb : b ∈ h.getRelativePath path)
    (hn : b ∉ b!"/index.html") : b ∈ path := by
  simp only [StaticFileHandler.getRelativePath] at hb
  have h1 := (List.takeWhile_sublist _).mem hb
  have h2 : ∀ l : Bytes, b ∈ (if l.head? = some 0x2f then l.drop 1 else l) → b ∈ l := by
    intro l hl
    split at hl
    · exact List.mem_of_mem_drop hl
    · exact hl
  have h3 := h2 _ h1
  split at h3
  · exact absurd h3 hn
  · exact List.mem_of_mem_drop h3

/-- C128 for targets and fields without line feeds: every message is one line, if the name of the served directory is.
Missing: other targets and fields. -/
theorem C128_line_partial (h : StaticFileHandler) (fs : FS) (path time level : Bytes) (trace : Option Bytes)
    (field : Header) (hp : 0x0a ∉ path) (hd : 0x0a ∉ h.filesystemRoot) (ht : 0x0a ∉ time ∧ 0x0a ∉ level)
    (htr : ∀ id, trace = some id → 0x0a ∉ id) (hf : 0x0a ∉ field.name ∧ 0x0a ∉ field.value) :
    ∀ m, m ∈ h.messages fs path ∨ m = headerMessage field →
      ∃ text, logText time level trace m = text ++ [0x0a] ∧ 0x0a ∉ text := by
  intro m hm
  have hm : (0x0a : UInt8) ∉ m := by
    rcases hm with hm | rfl
    · simp only [StaticFileHandler.messages, List.mem_append] at hm
      have hrel : (0x0a : UInt8) ∉ h.getRelativePath path := fun hx => hp (relative_mem h path _ hx (by decide))
      rcases hm with hm | hm
      · simp only [sanitizeMessages] at hm
        split at hm
        · cases hm
        · split at hm
          · cases hm
          · split at hm
            · cases hm
            · split at hm
              · cases hm
              · split at hm
                · cases hm
                · simp only [List.mem_singleton] at hm
                  subst hm
                  simp only [List.mem_append, not_or]
                  exact ⟨⟨⟨⟨by decide, hrel⟩, by decide⟩, hd⟩, by decide⟩
      · split at hm
        · simp only [List.mem_singleton] at hm
          subst hm
          simp only [List.mem_append, not_or]
          exact ⟨by decide, hp⟩
        · cases hm
    · simp only [headerMessage, List.mem_append, not_or]
      exact ⟨⟨⟨by decide, hf.1⟩, by decide⟩, hf.2⟩
  refine ⟨_, rfl, ?_⟩
  simp only [List.mem_append, not_or]
  refine ⟨⟨⟨⟨⟨⟨by decide, ht.1⟩, by decide⟩, ht.2⟩, by decide⟩, ?_⟩, hm⟩
  cases trace with
  | none => simp
  | some id =>
    simp only [List.mem_append, not_or]
    exact ⟨⟨by decide, htr id rfl⟩, by decide⟩

/-- What is logged for an attempt to leave the directory. -/
example : StaticFileHandler.messages ⟨b!"/static", b!"/srv/www"⟩ Files.site b!"/static/../x" =
    [b!"Directory traversal attempt blocked: ../x (base: /srv/www)",
     b!"invalid file path requested: /static/../x"] ∧
    logText b!"2026-11-16 10:00:00.000" b!"warning" (some b!"0af7651916cd43dd8448eb211c80319c") b!"hi" =
      b!"[2026-11-16 10:00:00.000] [warning] [0af7651916cd43dd8448eb211c80319c] hi" ++ [0x0a] := by decide +kernel

end Props
end Ion
