import Verif.Props.ConnFlags

/-!
# The settings of the client (C159)
-/

namespace Ion.Spec

/-- RFC 9113 section 6.5.2: values a setting can have. ENABLE_PUSH (2) is 0 or 1, INITIAL_WINDOW_SIZE (4) at most
2^31 - 1, MAX_FRAME_SIZE (5) from 2^14 to 2^24 - 1; the others can be anything. -/
def SettingInRange (x : Nat × Nat) : Prop :=
  (x.1 = 2 → x.2 ≤ 1) ∧ (x.1 = 4 → x.2 < 2 ^ 31) ∧ (x.1 = 5 → 2 ^ 14 ≤ x.2 ∧ x.2 < 2 ^ 24)

instance (x : Nat × Nat) : Decidable (SettingInRange x) := inferInstanceAs (Decidable (_ ∧ _))

/-- Section 3.4: the first frame of a client is a SETTINGS frame (not an acknowledgement). -/
def StartsWithSettings (fs : List Frame) : Prop := ∀ f, fs.head? = some f → f.type = 4 ∧ f.flags &&& 1 = 0

/-- Section 6.5.2: all settings of the client are in range. -/
def SettingsInRange (fs : List Frame) : Prop :=
  ∀ f ∈ fs, f.type = 4 → f.flags &&& 1 = 0 → ∀ l, SettingsPayload l f.payload → ∀ x ∈ l, SettingInRange x

/-- The HEADERS frames among these. -/
def headersOnly (fs : List Frame) : List Frame := fs.filter fun f => f.type == 1

end Ion.Spec

namespace Ion.Sim
open Spec
variable {W : Type}

/-- C159 as one would expect it: a connection that goes on waiting for input has received SETTINGS first, and only
settings that are in range. -/
def ChecksSettings (cfg : Cfg W) : Prop :=
  ∀ w now s, Called cfg w now .wantRead s →
    StartsWithSettings ((frames s.trace).map asFrame) ∧ SettingsInRange ((frames s.trace).map asFrame)

/-- The second connection has done all that the first has, and maybe more. -/
structure WorkBehind (s t : Sim W) : Prop where
  handled : handled s.trace <+: handled t.trace
  responses : responses s.trace <+: responses t.trace
  logs : logs s.trace <+: logs t.trace

/-- HEADERS frames. -/
def isHeaders (f : FrameReader) : Bool := f.header.type == 1

/-- Only HEADERS frames make a connection do something for the application. -/
theorem Served.headers {cfg : Cfg W} {w0 : W} {fs : List FrameReader} {d e : DynTable} {w : W} {v : List Ev}
    (h : Served cfg w0 fs d e w v) : ∃ v', Served cfg w0 (fs.filter isHeaders) d e w v' ∧
      handled v' = handled v ∧ responses v' = responses v ∧ logs v' = logs v := by
  induction h with
  | nil => exact ⟨[], .nil, rfl, rfl, rfl⟩
  | snoc fs f dec enc w evs s' h ha ih =>
    obtain ⟨v', k1, k2, k3, k4⟩ := ih
    rw [List.filter_append]
    by_cases hk : isHeaders f = true
    · rw [List.filter_cons_of_pos hk, List.filter_nil]
      exact ⟨_, .snoc _ f dec enc w v' s' k1 ha, by simp [handled_append, k2], by simp [responses_append, k3],
        by simp [logs_append, k4]⟩
    · rw [List.filter_cons_of_neg hk, List.filter_nil, List.append_nil]
      have skip : s'.dec = dec → s'.enc = enc → s'.world = w → Sim.handled s'.trace = [] →
          Sim.responses s'.trace = [] → Sim.logs s'.trace = [] →
          ∃ v', Served cfg w0 (fs.filter isHeaders) s'.dec s'.enc s'.world v' ∧
            Sim.handled v' = Sim.handled (evs ++ s'.trace) ∧ Sim.responses v' = Sim.responses (evs ++ s'.trace) ∧
            Sim.logs v' = Sim.logs (evs ++ s'.trace) := by
        intro e1 e2 e3 e4 e5 e6
        rw [e1, e2, e3, handled_append, responses_append, logs_append, e4, e5, e6]
        exact ⟨v', k1, by simpa using k2, by simpa using k3, by simpa using k4⟩
      cases ha with
      | badHeaders b e d ht => simp [isHeaders, ht] at hk
      | request a b c d e f g h ht => simp [isHeaders, ht] at hk
      | _ => exact skip rfl rfl rfl rfl rfl rfl

theorem reader_inj {f g : FrameReader} (hf : f.header.length.toNat = f.payload.length)
    (hg : g.header.length.toNat = g.payload.length) (h : asFrame f = asFrame g) : f = g := by
  obtain ⟨⟨l, t, fl, i⟩, p⟩ := f
  obtain ⟨⟨l', t', fl', i'⟩, p'⟩ := g
  simp only [asFrame, Frame.mk.injEq] at h hf hg
  obtain ⟨rfl, rfl, h3, rfl⟩ := h
  cases UInt32.toNat_inj.mp h3
  cases UInt32.toNat_inj.mp (hf.trans hg.symm)
  rfl

theorem headersOnly_frames (fs : List FrameReader) :
    headersOnly (fs.map asFrame) = (fs.filter isHeaders).map asFrame := by
  unfold headersOnly
  rw [List.filter_map]
  rfl

theorem InvAt.headers {cfg : Cfg W} {w0 : W} {c1 c2 p1 p2 : Bool} {v1 v2 : List Ev} {q1 q2 : Bytes}
    {s1 s2 : Sim W} (i1 : InvAt cfg w0 c1 p1 v1 q1 s1) (i2 : InvAt cfg w0 c2 p2 v2 q2 s2)
    (h : headersOnly ((Sim.frames s1.trace).map asFrame) <+: headersOnly ((Sim.frames s2.trace).map asFrame)) :
    WorkBehind s1 s2 ∧ (headersOnly ((Sim.frames s1.trace).map asFrame) =
      headersOnly ((Sim.frames s2.trace).map asFrame) → s1.world = s2.world) := by
  rw [headersOnly_frames, headersOnly_frames] at h ⊢
  have z1 : ∀ f ∈ (Sim.frames s1.trace).filter isHeaders, f.header.length.toNat = f.payload.length :=
    fun f hf => (i1.sizes f (List.mem_filter.mp hf).1).2
  have z2 : ∀ f ∈ (Sim.frames s2.trace).filter isHeaders, f.header.length.toNat = f.payload.length :=
    fun f hf => (i2.sizes f (List.mem_filter.mp hf).1).2
  obtain ⟨u1, k1, a1, a2, a3⟩ := i1.served.headers
  obtain ⟨u2, k2, b1, b2, b3⟩ := i2.served.headers
  generalize (Sim.frames s1.trace).filter isHeaders = fs at *
  generalize (Sim.frames s2.trace).filter isHeaders = gs at *
  have hp : fs <+: gs := by
    have hle : fs.length ≤ gs.length := by simpa using h.length_le
    refine List.prefix_iff_eq_take.mpr (List.ext_getElem (by simp [hle]) fun k a b => ?_)
    rw [List.getElem_take]
    refine reader_inj (z1 _ (List.getElem_mem _)) (z2 _ (List.getElem_mem _)) ?_
    have := h.getElem (i := k) (by simpa using a)
    simpa using this
  have hv := k2.behind k1 hp
  refine ⟨⟨?_, ?_, ?_⟩, ?_⟩
  · rw [i1.handled, i2.handled, ← a1, ← b1]
    exact prefix_map _ handled_append hv
  · rw [i1.responses, i2.responses, ← a2, ← b2]
    exact prefix_map _ responses_append hv
  · rw [i1.logs, i2.logs, ← a3, ← b3]
    exact prefix_map _ logs_append hv
  · intro hl
    have hl := congrArg List.length hl
    rw [List.length_map, List.length_map] at hl
    cases hp.eq_of_length hl
    exact (k1.det k2).2.2.1

/-- A request, and then SETTINGS with ENABLE_PUSH 2, INITIAL_WINDOW_SIZE 2^32 - 1 and MAX_FRAME_SIZE 1. -/
def exWildSettings : Bytes :=
  [0, 0, 18, 4, 0, 0, 0, 0, 0, 0, 2, 0, 0, 0, 2, 0, 4, 255, 255, 255, 255, 0, 5, 0, 0, 0, 1]

/-- C159 is false: a client is served whose first frame is a HEADERS frame and who then sends three settings that are
all out of range. They are acknowledged. -/
theorem C159_refuted : ¬ ChecksSettings exCfg ∧ ∃ s f l, Called exCfg 0 0 .wantRead s ∧
    (frames s.trace).map asFrame = [⟨1, 5, 1, [0x82, 0x84]⟩, f] ∧ f.type = 4 ∧ f.flags = 0 ∧
    SettingsPayload l f.payload ∧ l = [(2, 2), (4, 2 ^ 32 - 1), (5, 1)] ∧ (∀ x ∈ l, ¬ SettingInRange x) ∧
    ∃ before, produced s.trace = before ++ [0, 0, 0, 4, 1, 0, 0, 0, 0] := by
  obtain ⟨r, s, h, k⟩ : ∃ r s, Called exCfg 0 0 r s ∧ (r == .wantRead &&
      (frames s.trace).map asFrame == [⟨1, 5, 1, [0x82, 0x84]⟩,
        ⟨4, 0, 0, [0, 2, 0, 0, 0, 2, 0, 4, 255, 255, 255, 255, 0, 5, 0, 0, 0, 1]⟩] &&
      (produced s.trace).drop 71 == [0, 0, 0, 4, 1, 0, 0, 0, 0]) = true :=
    Shows.called (e := exEnv (clientPreface ++ (exGet ++ exWildSettings)) [71, 9]) (es := []) (by decide +kernel)
  simp only [Bool.and_eq_true, beq_iff_eq] at k
  obtain ⟨⟨rfl, k2⟩, k3⟩ := k
  refine ⟨fun hn => ?_, s, _, [(2, 2), (4, 2 ^ 32 - 1), (5, 1)], h, k2, rfl, rfl, ?_, rfl, by decide,
    (produced s.trace).take 71, ?_⟩
  · have := (hn 0 0 s h).1
    rw [k2] at this
    exact absurd (this _ rfl).1 (by decide)
  · exact .cons _ _ _ [0, 2] [0, 0, 0, 2] _ rfl rfl (by decide) (by decide)
      (.cons _ _ _ [0, 4] [255, 255, 255, 255] _ rfl rfl (by decide) (by decide)
        (.cons _ _ _ [0, 5] [0, 0, 0, 1] _ rfl rfl (by decide) (by decide) .nil))
  · exact (List.take_append_drop 71 _).symm.trans (by rw [k3])

/-- C159, what holds: settings cannot do harm, and cannot do anything else. If two clients send the same HEADERS
frames, then whatever settings (and other frames) they send between, before or instead, the one connection has done
exactly the first things the other has: calls of handlers, responses on the same streams with the same octets, log
entries. Missing: that settings are checked, and that they are applied. -/
theorem C159_settings_partial {cfg : Cfg W} {w : W} {now1 now2 : Nat} {r1 r2 : ProcRes} {s1 s2 : Sim W}
    (h1 : Called cfg w now1 r1 s1) (h2 : Called cfg w now2 r2 s2) {fs1 fs2 : List Frame} {x1 x2 : Bytes}
    (hx1 : FramesWire fs1 x1) (hx2 : FramesWire fs2 x2)
    (hr1 : received s1.trace <+: Spec.preface ++ x1) (hr2 : received s2.trace <+: Spec.preface ++ x2)
    (hfs : headersOnly fs1 = headersOnly fs2) :
    (WorkBehind s1 s2 ∨ WorkBehind s2 s1) ∧
    (headersOnly ((frames s1.trace).map asFrame) = headersOnly ((frames s2.trace).map asFrame) →
      WorkBehind s1 s2 ∧ WorkBehind s2 s1 ∧ s1.world = s2.world) := by
  obtain ⟨p1, v1, q1, i1⟩ := h1.inv
  obtain ⟨p2, v2, q2, i2⟩ := h2.inv
  have f1 : headersOnly _ <+: headersOnly fs1 := (i1.first hx1 hr1).filter _
  have f2 : headersOnly _ <+: headersOnly fs2 := (i2.first hx2 hr2).filter _
  rw [← hfs] at f2
  refine ⟨?_, ?_⟩
  · rcases List.prefix_or_prefix_of_prefix f1 f2 with h | h
    · exact .inl (i1.headers i2 h).1
    · exact .inr (i2.headers i1 h).1
  · intro h
    have k := i1.headers i2 (h ▸ List.prefix_refl _)
    exact ⟨k.1, (i2.headers i1 (h ▸ List.prefix_refl _)).1, k.2 h⟩

/-- The client above, and one that only makes the request. -/
example : headersOnly [⟨1, 5, 1, [0x82, 0x84]⟩, ⟨4, 0, 0, [0, 2, 0, 0, 0, 2]⟩] =
      headersOnly [⟨1, 5, 1, [0x82, 0x84]⟩] ∧
    (∃ r s, Called exCfg 0 0 r s ∧ ((handled s.trace).length == 1 && (frames s.trace).length == 2 &&
      received s.trace == clientPreface ++ (exGet ++ exWildSettings)) = true) ∧
    ∃ r s, Called exCfg 0 0 r s ∧ ((handled s.trace).length == 1 && (frames s.trace).length == 1 &&
      received s.trace == clientPreface ++ exGet) = true :=
  ⟨by decide,
    Shows.called (e := exEnv (clientPreface ++ (exGet ++ exWildSettings)) [71, 9]) (es := []) (by decide +kernel),
    Shows.called (e := exEnv (clientPreface ++ exGet) [71]) (es := []) (by decide +kernel)⟩

end Ion.Sim
