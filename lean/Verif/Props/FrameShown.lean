import Verif.Props.FrameLog
import Verif.Props.InstanceId

/-!
# What the log says about the frames received (C168)

At level debug there is a line with the type, the flags and the length of each frame, and then lines about the frame.
C168 asks whether they are true, and whether there is one such line for each frame.
-/

namespace Ion

namespace Spec

/-- The line about a frame header with these contents. -/
def HeaderLine (type flags : UInt8) (length : Nat) (text : Bytes) : Prop :=
  ∃ t f n, IsDecimal type.toNat t ∧ HexNumber f flags.toNat ∧ f.length = 2 ∧ IsDecimal length n ∧
    text = b!"received frame header: type: " ++ t ++ b!", flag: 0x" ++ f ++ b!", length: " ++ n

/-- The word for a truth value. -/
def Word (p : Prop) (text : Bytes) : Prop := (p → text = b!"true") ∧ (¬ p → text = b!"false")

/-- What is said about a frame that was received. -/
inductive Announced (f : Frame) : List Line → Prop where
  | settings (a b n : Bytes) : f.type = 4 → f.flags &&& 1 = 0 → f.payload.length % 6 = 0 → IsDecimal f.stream a →
    IsDecimal f.flags.toNat b → IsDecimal (f.payload.length / 6) n →
    Announced f [(.debug, b!"received SETTINGS frame (stream=" ++ a ++ b!" flags=" ++ b ++ b!")"),
      (.debug, b!"read " ++ n ++ b!" settings, sending ACK")]
  | badSettings (a b : Bytes) (rest : List Line) : f.type = 4 → f.flags &&& 1 = 0 → f.payload.length % 6 ≠ 0 →
    IsDecimal f.stream a → IsDecimal f.flags.toNat b →
    Announced f ((.debug, b!"received SETTINGS frame (stream=" ++ a ++ b!" flags=" ++ b ++ b!")") ::
      (.err, b!"invalid SETTINGS frame: data size not a multiple of 6") :: rest)
  | ack (a b : Bytes) : f.type = 4 → f.flags &&& 1 ≠ 0 → IsDecimal f.stream a → IsDecimal f.flags.toNat b →
    Announced f [(.debug, b!"received SETTINGS frame (stream=" ++ a ++ b!" flags=" ++ b ++ b!")"),
      (.debug, b!"received SETTINGS ACK")]
  | headers (a h s n : Bytes) (rest : List Line) : f.type = 1 → IsDecimal f.stream a → Word (f.flags &&& 4 ≠ 0) h →
    Word (f.flags &&& 1 ≠ 0) s → IsDecimal f.payload.length n →
    Announced f ((.debug, b!"received HEADERS frame for stream " ++ a) ::
      (.debug, b!" - end headers: " ++ h ++ b!", end stream: " ++ s ++ b!", length: " ++ n) :: rest)
  | windowUpdate (a n : Bytes) : f.type = 8 → 4 ≤ f.payload.length → IsDecimal f.stream a →
    IsDecimal (be (f.payload.take 4) % 2 ^ 31) n →
    Announced f [(.debug, b!"received WINDOW_UPDATE frame for stream " ++ a), (.debug, b!"window size increment = " ++ n)]
  | goaway (a : Bytes) (rest : List Line) : f.type = 7 → IsDecimal f.stream a →
    Announced f ((.debug, b!"received GOAWAY frame (stream " ++ a ++ b!")") :: rest)
  | other (a : Bytes) : f.type ≠ 1 → f.type ≠ 4 → f.type ≠ 7 → f.type ≠ 8 → IsDecimal f.type.toNat a →
    Announced f [(.debug, b!"received unknown frame type: " ++ a)]

/-- What is said when the octets at hand are not a frame. -/
inductive Attempt (rbuf : Bytes) : List Line → Prop where
  | short (d : Bytes) : rbuf.length < 9 → IsDecimal rbuf.length d →
    Attempt rbuf [(.trace, b!"not enough data for frame header (" ++ d ++ b!" < 9)")]
  | part (len sid more head a b : Bytes) (type flags : UInt8) : rbuf = len ++ ([type, flags] ++ (sid ++ more)) →
    len.length = 3 → sid.length = 4 → be len ≤ 16384 → more.length < be len → HeaderLine type flags (be len) head →
    IsDecimal rbuf.length a → IsDecimal (9 + be len) b →
    Attempt rbuf [(.debug, head), (.trace, b!"not enough data for whole frame (" ++ a ++ b!" < " ++ b ++ b!")")]
  | big (len sid more head a : Bytes) (type flags : UInt8) (rest : List Line) :
    rbuf = len ++ ([type, flags] ++ (sid ++ more)) → len.length = 3 → sid.length = 4 → 16384 < be len →
    HeaderLine type flags (be len) head → IsDecimal (be len) a →
    Attempt rbuf ((.debug, head) :: (.warn, b!"frame too big (sz: " ++ a ++ b!", max: 16384)") :: rest)

variable {W : Type}

/-- The line about a frame header is written when the frame is taken, and not otherwise. -/
def ToldOnce (cfg : Cfg W) (app : AppLog W) : Prop :=
  ∀ (s s' : Sim W) (again : Bool) (type flags : UInt8) (n : Nat) (head : Bytes), s.st = .awaitingFrame →
    s.tryReadFrame cfg = .ok (again, s') → HeaderLine type flags n head → (.debug, head) ∈ s.tryReadLines cfg app →
    ∃ f new, s'.trace = s.trace ++ .frame f :: new

end Spec

open Spec

/-! ## Formats -/

theorem hexDigit_lower (n : Nat) (h : n < 16) : HexDigit (hexDigit 0x61 n) n := by
  rw [hexDigit]
  split
  · rename_i h10
    have e : (UInt8.ofNat (48 + n)).toNat = 48 + n := by rw [UInt8.toNat_ofNat']; omega
    have := HexDigit.number (UInt8.ofNat (48 + n)) (by omega) (by omega)
    rwa [e, Nat.add_sub_cancel_left] at this
  · have e : (0x61 + UInt8.ofNat (n - 10)).toNat = 87 + n := by
      rw [UInt8.toNat_add, UInt8.toNat_ofNat']
      show (97 + (n - 10) % 256) % 256 = _
      omega
    have := HexDigit.letter (0x61 + UInt8.ofNat (n - 10)) (by omega) (by omega)
    rwa [e, show 87 + n - 97 + 10 = n by omega] at this

theorem hex2_spec (b : UInt8) : HexNumber (hex2 0x61 b) b.toNat := by
  have hb := b.toNat_lt
  have := HexNumber.digit _ _ _ _ (HexNumber.digit _ _ _ _ .none (hexDigit_lower (b.toNat / 16) (by omega)))
    (hexDigit_lower (b.toNat % 16) (by omega))
  rw [show 16 * (16 * 0 + b.toNat / 16) + b.toNat % 16 = b.toNat by omega] at this
  exact this

theorem boolText_spec (p : Prop) [Decidable p] : Word p (boolText (decide p)) := by
  constructor
  · intro h
    rw [boolText, if_pos (decide_eq_true h)]
  · intro h
    rw [boolText, if_neg (by simpa using h)]

namespace Sim
variable {W : Type}

theorem headerLine_spec (type flags : UInt8) (n : Nat) : HeaderLine type flags n
    (b!"received frame header: type: " ++ decimal type.toNat ++ b!", flag: 0x" ++ hex2 0x61 flags ++ b!", length: " ++ decimal n) :=
  ⟨_, _, _, decimal_spec _, hex2_spec _, rfl, decimal_spec _, rfl⟩

theorem readSettingsLoop_length (n : Nat) : ∀ (data : Bytes) (l : List Setting),
    (FrameReader.readSettingsLoop n data : Outcome FrameError _) = .ok l → l.length = n := by
  induction n with
  | zero => intro data l h; cases h; rfl
  | succ n ih =>
    intro data l h
    rw [FrameReader.readSettingsLoop] at h
    obtain ⟨x, -, h⟩ := Outcome.bind_eq_ok.mp h
    obtain ⟨xs, h1, h⟩ := Outcome.bind_eq_ok.mp h
    cases h
    simp [ih _ _ h1]

theorem readSettings_count {f : FrameReader} {l : List Setting} (h : f.readSettings = .ok l) :
    l.length = f.payload.length / 6 := by
  unfold FrameReader.readSettings at h
  split at h
  · cases h
  · exact readSettingsLoop_length _ _ _ h

theorem readWindowUpdate_value {f : FrameReader} {w : WindowUpdate} (h : (f.readWindowUpdate : Outcome Stop _) = .ok w) :
    4 ≤ f.payload.length ∧ w.increment.toNat = be (f.payload.take 4) % 2 ^ 31 := by
  unfold FrameReader.readWindowUpdate WindowUpdate.parse at h
  split at h
  · rename_i a b c d rest hp
    cases h
    rw [hp]
    refine ⟨by simp, ?_⟩
    show _ = be [a, b, c, d] % 2 ^ 31
    rw [be_four, ← loadU32_toNat]
    exact and_31 _
  · cases h

/-- The lines about a frame that is acted on. -/
theorem frameLines_announced {cfg : Cfg W} (app : AppLog W) {s s' : Sim W} {f : FrameReader}
    (hlen : f.header.length.toNat = f.payload.length) (h : s.processFrame cfg f = .ok s') :
    Announced (asFrame f) (s.frameLines cfg app f) := by
  cases processFrame_ok h with
  | settingsAck ht hf =>
    rw [frameLines, if_pos ht, if_pos (by simpa [FrameReader.hasFlag] using hf)]
    exact .ack _ _ ht hf (decimal_spec _) (decimal_spec _)
  | settings l ht hf hl =>
    rw [frameLines, if_pos ht, if_neg (by simpa [FrameReader.hasFlag] using hf), hl]
    exact .settings _ _ _ ht hf (readSettings_len hl) (decimal_spec _) (decimal_spec _)
      (by show IsDecimal (f.payload.length / 6) _; rw [← readSettings_count hl]; exact decimal_spec _)
  | badSettings e ht hf hl =>
    rw [frameLines, if_pos ht, if_neg (by simpa [FrameReader.hasFlag] using hf), hl]
    exact .badSettings _ _ _ ht hf (readSettings_err hl) (decimal_spec _) (decimal_spec _)
  | badHeaders block e dec' ht hb hd =>
    rw [frameLines, if_neg (by rw [ht]; decide), if_pos ht, hlen]
    exact .headers _ _ _ _ _ ht (decimal_spec _) (boolText_spec _) (boolText_spec _) (decimal_spec _)
  | request data hs dec' resp evs w' block enc' ht hb hd hr he =>
    rw [frameLines, if_neg (by rw [ht]; decide), if_pos ht, hlen]
    exact .headers _ _ _ _ _ ht (decimal_spec _) (boolText_spec _) (boolText_spec _) (decimal_spec _)
  | windowUpdate w ht hw =>
    obtain ⟨h1, h2⟩ := readWindowUpdate_value hw
    rw [frameLines, if_neg (by rw [ht]; decide), if_neg (by rw [ht]; decide), if_pos ht, hw]
    exact .windowUpdate _ _ ht h1 (decimal_spec _) (by
      rw [show (asFrame f).payload = f.payload from rfl, ← h2]; exact decimal_spec _)
  | goaway ht =>
    rw [frameLines, if_neg (by rw [ht]; decide), if_neg (by rw [ht]; decide), if_neg (by rw [ht]; decide), if_pos ht]
    exact .goaway _ _ ht (decimal_spec _)
  | other h1 h4 h7 h8 =>
    rw [frameLines, if_neg h4, if_neg h1, if_neg h8, if_neg h7]
    exact .other _ h1 h4 h7 h8 (decimal_spec _)

/-- C168, what holds: what an attempt to read a frame leaves in the log. If a frame is taken, a line with its type, its
flags and its length, then lines that are true of it; else a line that says what is missing or wrong, after one about
the header if that is there. -/
theorem C168_told_partial {cfg : Cfg W} (app : AppLog W) {s s' : Sim W} {again : Bool}
    (h : s.tryReadFrame cfg = .ok (again, s')) :
    (∃ f new head lines, s'.trace = s.trace ++ .frame f :: new ∧ s.tryReadLines cfg app = (.debug, head) :: lines ∧
      HeaderLine f.header.type f.header.flags f.payload.length head ∧ Announced (asFrame f) lines) ∨
    (s'.trace = s.trace ∧ Attempt s.rbuf (s.tryReadLines cfg app)) := by
  simp only [tryReadFrame] at h
  simp only [tryReadLines]
  split at h
  · rename_i hl
    cases h
    rw [if_pos hl]
    exact .inr ⟨rfl, .short _ hl (decimal_spec _)⟩
  · rename_i hl
    rw [if_neg hl]
    obtain ⟨header, hp, h⟩ := Outcome.bind_eq_ok.mp h
    rw [hp]
    simp only
    obtain ⟨x, y, z, t, fl, s0, s1, s2, s3, rest, hrb, hh⟩ := (show HasHeader s.rbuf header from ⟨by omega, hp⟩).split
    have hbe : be [x, y, z] = header.length.toNat := by rw [be_three, ← loadU24_toNat, hh]
    have hlr : s.rbuf.length = 9 + rest.length := by rw [hrb]; simp; omega
    split at h
    · rename_i hb
      cases h
      rw [if_pos hb]
      have h16 : b!", max: 16384)" = b!", max: " ++ decimal maxFrameSize ++ b!")" := by decide +kernel
      have := Attempt.big (rbuf := s.rbuf) [x, y, z] [s0, s1, s2, s3] rest _ (decimal header.length.toNat) t fl
        (s.stateLines .protocolError) hrb rfl rfl (by rw [hbe]; exact hb) (headerLine_spec _ _ _)
        (by rw [hbe]; exact decimal_spec _)
      rw [hbe, h16] at this
      refine .inr ⟨rfl, ?_⟩
      rw [hh] at this ⊢
      simpa only [List.append_assoc] using this
    · rename_i hb
      rw [if_neg hb]
      split at h
      · rename_i ht
        cases h
        rw [if_pos ht]
        have := Attempt.part (rbuf := s.rbuf) [x, y, z] [s0, s1, s2, s3] rest _ (decimal s.rbuf.length)
          (decimal (9 + header.length.toNat)) t fl hrb rfl rfl (by rw [hbe]; exact Nat.le_of_not_lt hb)
          (by rw [hbe]; omega) (headerLine_spec _ _ _) (decimal_spec _) (by rw [hbe]; exact decimal_spec _)
        rw [hbe] at this
        refine .inr ⟨rfl, ?_⟩
        rw [hh] at this ⊢
        exact this
      · rename_i ht
        obtain ⟨s1, h1, h⟩ := Outcome.bind_eq_ok.mp h
        cases h
        rw [if_neg ht]
        have hlen : header.length.toNat = ((s.rbuf.drop 9).take header.length.toNat).length := by
          rw [List.length_take, List.length_drop]; omega
        obtain ⟨new, hn⟩ : ∃ new, s1.trace = (s.emit (.frame ⟨header, (s.rbuf.drop 9).take header.length.toNat⟩)).trace ++ new := by
          cases processFrame_ok h1 with
          | settings l ht hf hl' => exact ⟨_, rfl⟩
          | request => exact ⟨_, rfl⟩
          | _ => exact ⟨[], by simp⟩
        refine .inl ⟨_, new, _, _, hn.trans (List.append_cons _ _ _).symm, rfl, ?_, frameLines_announced app hlen h1⟩
        show HeaderLine header.type header.flags ((s.rbuf.drop 9).take header.length.toNat).length _
        rw [← hlen]
        exact headerLine_spec header.type header.flags header.length.toNat

/-- C168, refuted: the header of a frame whose payload has not arrived is logged, and the frame is not taken; it is
logged again when there is more. -/
theorem C168_refuted : ¬ ToldOnce exCfg (silent : AppLog Nat) := by
  intro h
  obtain ⟨f, new, hn⟩ := h { exWaiting with rbuf := [0, 0, 8, 6, 0, 0, 0, 0, 0] }
    { exWaiting with rbuf := [0, 0, 8, 6, 0, 0, 0, 0, 0] } false 6 0 8 _ rfl rfl (headerLine_spec _ _ _)
    (by decide +kernel)
  have := congrArg List.length hn
  simp at this

set_option maxRecDepth 100000 in
/-- The same PING three times in the log. -/
example :
    tryReadLines exCfg silent { exWaiting with rbuf := [0, 0, 8, 6, 0x1f, 0, 0, 0, 0] } =
      [(.debug, b!"received frame header: type: 6, flag: 0x1f, length: 8"),
       (.trace, b!"not enough data for whole frame (9 < 17)")] ∧
    tryReadLines exCfg silent { exWaiting with rbuf := [0, 0, 8, 6, 0x1f, 0, 0, 0, 0, 1, 2, 3] } =
      [(.debug, b!"received frame header: type: 6, flag: 0x1f, length: 8"),
       (.trace, b!"not enough data for whole frame (12 < 17)")] ∧
    tryReadLines exCfg silent { exWaiting with rbuf := [0, 0, 8, 6, 0x1f, 0, 0, 0, 0, 1, 2, 3, 4, 5, 6, 7, 8] } =
      [(.debug, b!"received frame header: type: 6, flag: 0x1f, length: 8"), (.debug, b!"received unknown frame type: 6")] := by
  decide +kernel

/-- C168: the fields of a request that is answered are logged in their order. -/
theorem C168_request {cfg : Cfg W} (app : AppLog W) {s s' : Sim W} {f : FrameReader} {new : List Ev} {hs : List Header}
    {status : UInt16} {size : Nat} (h : s.processFrame cfg f = .ok s') (hn : s'.trace = s.trace ++ new)
    (hl : logs new = [(hs, status, size)]) :
    ∃ pre post, s.frameLines cfg app f =
      pre ++ (hs.map fun x => (.debug, b!" - request header: " ++ x.name ++ b!": " ++ x.value)) ++ post := by
  cases processFrame_ok h with
  | request data hs' dec' resp evs w' block enc' ht hb hd hr he =>
    have hl2 : logs evs = [] := by cases hr <;> rfl
    have e2 : logs (answerEvs evs f.header.streamId hs' resp block) = [(hs', resp.status, resp.body.length)] := by
      simp [answerEvs, logs_append, logs, hl2]
    rw [← List.append_cancel_left hn, e2] at hl
    obtain ⟨rfl, -, -⟩ : hs' = hs ∧ resp.status = status ∧ resp.body.length = size := by simpa using hl
    rw [frameLines, if_neg (by rw [ht]; decide), if_pos ht, hb]
    simp only [hd, answerLines]
    simp only [← List.append_assoc]
    rw [List.append_assoc (_ ++ blockLines s.dec data ++ _), List.append_assoc (_ ++ blockLines s.dec data)]
    exact ⟨_, _, List.append_assoc .. |>.symm⟩
  | settings l ht hf hl' => rw [← List.append_cancel_left (as := s.trace) hn, logs_chunks] at hl; cases hl
  | _ => rw [List.self_eq_append_right.mp hn] at hl; cases hl

set_option maxRecDepth 100000 in
/-- A request, SETTINGS with one parameter, WINDOW_UPDATE, GOAWAY. -/
example :
    ((tryReadLines exCfg silent { exWaiting with rbuf := [0, 0, 2, 1, 5, 0, 0, 0, 3, 0x82, 0x84] }).filter fun l =>
        decide (l.1 = .debug) && !(b!"d".isPrefixOf l.2 || b!"e".isPrefixOf l.2 || b!" - (".isPrefixOf l.2)).map Prod.snd =
      [b!"received frame header: type: 1, flag: 0x05, length: 2", b!"received HEADERS frame for stream 3",
       b!" - end headers: true, end stream: true, length: 2", b!" - request header: :method: GET",
       b!" - request header: :path: /"] ∧
    tryReadLines exCfg silent { exWaiting with rbuf := [0, 0, 6, 4, 0, 0, 0, 0, 0, 0, 3, 0, 0, 0, 9] } =
      [(.debug, b!"received frame header: type: 4, flag: 0x00, length: 6"),
       (.debug, b!"received SETTINGS frame (stream=0 flags=0)"), (.debug, b!"read 1 settings, sending ACK")] ∧
    tryReadLines exCfg silent { exWaiting with rbuf := [0, 0, 4, 8, 0, 0, 0, 0, 7, 0x80, 0, 1, 0] } =
      [(.debug, b!"received frame header: type: 8, flag: 0x00, length: 4"),
       (.debug, b!"received WINDOW_UPDATE frame for stream 7"), (.debug, b!"window size increment = 256")] ∧
    tryReadLines exCfg silent { exWaiting with rbuf := [0, 0, 0, 7, 0, 0, 0, 0, 0] } =
      [(.debug, b!"received frame header: type: 7, flag: 0x00, length: 0"),
       (.debug, b!"received GOAWAY frame (stream 0)"),
       (.debug, b!"connection state changed from AwaitingFrame to ClientClosed")] := by
  decide +kernel

end Sim
end Ion
