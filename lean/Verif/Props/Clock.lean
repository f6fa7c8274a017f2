import Verif.Model.Clock
import Verif.Props.AccessLog

/-! # Time stamps and client addresses in the access log (C102) -/

namespace Ion.Spec

/-- `bs` is the number `n` written with `w` decimal digits. -/
def Digits (w n : Nat) (bs : Bytes) : Prop :=
  bs.length = w ∧ (∀ b ∈ bs, 48 ≤ b.toNat ∧ b.toNat ≤ 57) ∧
    bs.foldl (fun v b => v * 10 + (b.toNat - 48)) 0 = n

/-- The names of the months. -/
def monthText : Bytes := b!"JanFebMarAprMayJunJulAugSepOctNovDec"

/-- The time stamp of the Common Log Format, `[day/month/year:hour:minute:second zone]`. The offset from UTC
is given in hours and minutes; what it has in seconds is not shown. -/
def ClfTime (tm : Tm) (text : Bytes) : Prop :=
  ∃ (day year hour min sec : Bytes) (sign : UInt8) (zh zm : Bytes) (oh om os : Nat),
    Digits 2 tm.mday day ∧ Digits 4 tm.year year ∧ Digits 2 tm.hour hour ∧ Digits 2 tm.min min ∧
    Digits 2 tm.sec sec ∧ Digits 2 oh zh ∧ Digits 2 om zm ∧
    (sign = 0x2b ∧ tm.gmtoff = oh * 3600 + om * 60 + os ∨
      sign = 0x2d ∧ tm.gmtoff = -(oh * 3600 + om * 60 + os) ∧ tm.gmtoff ≠ 0) ∧ om < 60 ∧ os < 60 ∧
    text = [0x5b] ++ day ++ [0x2f] ++ (monthText.drop (3 * tm.mon)).take 3 ++
      [0x2f] ++ year ++ [0x3a] ++ hour ++ [0x3a] ++ min ++ [0x3a] ++ sec ++ [0x20, sign] ++ zh ++ zm ++ [0x5d]

end Ion.Spec

namespace Ion.Props
open Ion.Spec Ion.Sim

theorem neat_of_all {l : Bytes} (h : l.all (fun b => b != 0x0a && b != 0x22) = true) :
    ∀ b ∈ l, b ≠ 0x0a ∧ b ≠ 0x22 := by simpa using h

theorem Digits.decimal_iff {w n : Nat} {bs : Bytes} (h : IsDecimal n bs) (hw : bs.length = w) : Digits w n bs :=
  ⟨hw, h.2.1, h.2.2.1⟩

theorem decimal_length2 {n : Nat} (h : 10 ≤ n) (h2 : n < 100) : (decimal n).length = 2 := by
  rw [decimal, if_neg (by omega), decimal, if_pos (by omega)]
  rfl

theorem decimal_length4 {n : Nat} (h : 1000 ≤ n) (h2 : n < 10000) : (decimal n).length = 4 := by
  rw [decimal, if_neg (by omega), decimal, if_neg (by omega)]
  simp only [List.length_append, List.length_cons, List.length_nil]
  rw [decimal_length2 (by omega) (by omega)]

theorem pad2_spec {n : Nat} (h : n < 100) : Digits 2 n (pad2 n) := by
  have hd := decimal_spec n
  rw [pad2]
  split
  · rename_i h1
    have hl : decimal n = [UInt8.ofNat (48 + n)] := by rw [decimal, if_pos h1]
    have hb : (b!"0" : Bytes) = [48] := by decide
    rw [hb]
    refine ⟨by rw [hl]; rfl, ?_, ?_⟩
    · intro b hb
      simp only [List.cons_append, List.nil_append, List.mem_cons] at hb
      rcases hb with rfl | hb
      · decide
      · exact hd.2.1 b hb
    · have := hd.2.2.1
      simpa using this
  · exact Digits.decimal_iff hd (decimal_length2 (by omega) h)

theorem pad4_split {h m : Nat} (hh : h < 100) (hm : m < 100) : pad4 (h * 100 + m) = pad2 h ++ pad2 m := by
  have h0 : (b!"0" : Bytes) = [48] := by decide
  have h00 : (b!"00" : Bytes) = [48, 48] := by decide
  have d1 : ∀ n, n < 10 → decimal n = [UInt8.ofNat (48 + n)] := fun n hn => by rw [decimal, if_pos hn]
  have d2 : ∀ n, 10 ≤ n → n < 100 → decimal n = [UInt8.ofNat (48 + n / 10), UInt8.ofNat (48 + n % 10)] := by
    intro n hn hn2
    rw [decimal, if_neg (by omega), d1 _ (by omega)]
    rfl
  have p2 : ∀ n, n < 100 → pad2 n = [UInt8.ofNat (48 + n / 10), UInt8.ofNat (48 + n % 10)] := by
    intro n hn
    rw [pad2]
    split
    · rename_i hn'
      rw [d1 _ hn', h0]
      have h1 : n / 10 = 0 := by omega
      have h2 : n % 10 = n := by omega
      rw [h1, h2]
      rfl
    · exact d2 n (by omega) hn
  rw [p2 h hh, p2 m hm, pad4]
  have e1 : (h * 100 + m) % 10 = m % 10 := by omega
  have e2 : (h * 100 + m) / 10 % 10 = m / 10 := by omega
  have e3 : (h * 100 + m) / 10 / 10 = h := by omega
  split
  · have : h = 0 := by omega
    subst this
    rw [h00]
    simp only [Nat.zero_mul, Nat.zero_add]
    rw [p2 m hm]
    rfl
  · split
    · have : h / 10 = 0 := by omega
      have h' : h % 10 = h := by omega
      rw [decimal, if_neg (by omega), decimal, if_neg (by omega), e1, e2, e3, d1 h (by omega), h0, this, h']
      rfl
    · rw [decimal, if_neg (by omega), decimal, if_neg (by omega), e1, e2, e3, d2 h (by omega) hh]
      rfl

/-- C102: the time stamp is the time in the Common Log Format, 28 octets long, for every time of a year with
four digits. -/
theorem C102_timestamp (tm : Tm) (h : tm.Valid) (hy : 1000 ≤ tm.year ∧ tm.year < 10000) :
    ClfTime tm (clfTimestamp tm) ∧ (clfTimestamp tm).length = 28 := by
  obtain ⟨h1, h2, h3, h4, h5, h6, h7, h8⟩ := h
  have hmin : tm.gmtoff.natAbs / 60 / 60 < 100 := by omega
  have hz := pad4_split hmin (show tm.gmtoff.natAbs / 60 % 60 < 100 by omega)
  have pday := pad2_spec (show tm.mday < 100 by omega)
  have phour := pad2_spec (show tm.hour < 100 by omega)
  have pminu := pad2_spec (show tm.min < 100 by omega)
  have psec := pad2_spec (show tm.sec < 100 by omega)
  have pzh := pad2_spec hmin
  have pzm := pad2_spec (show tm.gmtoff.natAbs / 60 % 60 < 100 by omega)
  have pyear := Digits.decimal_iff (decimal_spec tm.year) (decimal_length4 hy.1 hy.2)
  have hmon : monthNames.getD tm.mon b!"?" =
      (monthText.drop (3 * tm.mon)).take 3 := by
    have : ∀ m : Fin 12, monthNames.getD m.val b!"?" =
      (monthText.drop (3 * m.val)).take 3 := by decide +kernel
    exact this ⟨tm.mon, h6⟩
  have hmlen : (monthNames.getD tm.mon b!"?").length = 3 := by
    have : ∀ m : Fin 12, (monthNames.getD m.val b!"?").length = 3 := by decide +kernel
    exact this ⟨tm.mon, h6⟩
  have hsign : (if tm.gmtoff < 0 then b!"-" else b!"+") = [if tm.gmtoff < 0 then 0x2d else 0x2b] := by
    split <;> decide
  have htext : strftimeClf tm = [0x5b] ++ pad2 tm.mday ++ [0x2f] ++
      (monthText.drop (3 * tm.mon)).take 3 ++
      [0x2f] ++ decimal tm.year ++ [0x3a] ++ pad2 tm.hour ++ [0x3a] ++ pad2 tm.min ++ [0x3a] ++ pad2 tm.sec ++
      [0x20, if tm.gmtoff < 0 then 0x2d else 0x2b] ++ pad2 (tm.gmtoff.natAbs / 60 / 60) ++
      pad2 (tm.gmtoff.natAbs / 60 % 60) ++ [0x5d] := by
    have c1 : (b!"[" : Bytes) = [0x5b] := by decide
    have c2 : (b!"/" : Bytes) = [0x2f] := by decide
    have c3 : (b!":" : Bytes) = [0x3a] := by decide
    have c4 : (b!" " : Bytes) = [0x20] := by decide
    have c5 : (b!"]" : Bytes) = [0x5d] := by decide
    rw [strftimeClf, zoneText, hmon, c1, c2, c3, c4, c5]
    simp only [hsign, hz, List.append_assoc, List.cons_append, List.nil_append]
  have hlen : (strftimeClf tm).length = 28 := by
    rw [htext, ← hmon]
    simp only [List.length_append, List.length_cons, List.length_nil, pday.1, phour.1, pminu.1, psec.1, pzh.1,
      pzm.1, pyear.1, hmlen]
  have hts : clfTimestamp tm = strftimeClf tm := by
    simp only [clfTimestamp, hlen]
    rw [if_pos (by omega), ← hlen, List.take_length]
  rw [hts]
  refine ⟨⟨_, _, _, _, _, _, _, _, _, _, tm.gmtoff.natAbs % 60, pday, pyear, phour, pminu, psec, pzh, pzm, ?_,
    by omega, by omega, htext⟩, hlen⟩
  split
  · right; refine ⟨rfl, ?_, by omega⟩; omega
  · left; refine ⟨rfl, ?_⟩; omega

/-- One o'clock on 16 November 2026, in Newfoundland. -/
example : Tm.Valid ⟨21, 9, 1, 16, 10, 2026, -12600⟩ ∧
    clfTimestamp ⟨21, 9, 1, 16, 10, 2026, -12600⟩ = b!"[16/Nov/2026:01:09:21 -0330]" := by
  refine ⟨by simp [Tm.Valid], by decide +kernel⟩

/-- A time stamp has one reading: times in the Common Log Format that are the same text are the same, but for
the seconds of the offset. -/
theorem C102_reading {tm tm' : Tm} {text : Bytes} (hm : tm.mon < 12) (hm' : tm'.mon < 12) (h : ClfTime tm text)
    (h' : ClfTime tm' text) :
    tm.sec = tm'.sec ∧ tm.min = tm'.min ∧ tm.hour = tm'.hour ∧ tm.mday = tm'.mday ∧ tm.mon = tm'.mon ∧
      tm.year = tm'.year ∧ -60 < tm.gmtoff - tm'.gmtoff ∧ tm.gmtoff - tm'.gmtoff < 60 := by
  obtain ⟨d, y, h, m, s, sg, zh, zm, oh, om, os, p1, p2, p3, p4, p5, p6, p7, p8, p9, p10, rfl⟩ := h
  obtain ⟨d', y', k, m', s', sg', zh', zm', oh', om', os', q1, q2, q3, q4, q5, q6, q7, q8, q9, q10, e⟩ := h'
  have hmlen : ∀ n, n < 12 → ((monthText.drop (3 * n)).take 3).length = 3 := by
    have : ∀ m : Fin 12,
      ((monthText.drop (3 * m.val)).take 3).length = 3 := by decide +kernel
    exact fun n hn => this ⟨n, hn⟩
  have hminj : ∀ n n', n < 12 → n' < 12 → (monthText.drop (3 * n)).take 3 =
      (monthText.drop (3 * n')).take 3 → n = n' := by
    have : ∀ m m' : Fin 12, (monthText.drop (3 * m.val)).take 3 =
      (monthText.drop (3 * m'.val)).take 3 → m.val = m'.val := by decide +kernel
    exact fun n n' hn hn' => this ⟨n, hn⟩ ⟨n', hn'⟩
  generalize hM : (monthText.drop (3 * tm.mon)).take 3 = M at e
  generalize hM' : (monthText.drop (3 * tm'.mon)).take 3 = M' at e
  have l1 : M.length = 3 := by rw [← hM]; exact hmlen _ hm
  have l2 : M'.length = 3 := by rw [← hM']; exact hmlen _ hm'
  simp only [List.append_assoc, List.cons_append, List.nil_append, List.cons.injEq, true_and] at e
  obtain ⟨e1, e⟩ := List.append_inj e (by rw [p1.1, q1.1])
  simp only [List.cons.injEq, true_and] at e
  obtain ⟨e2, e⟩ := List.append_inj e (by rw [l1, l2])
  simp only [List.cons.injEq, true_and] at e
  obtain ⟨e3, e⟩ := List.append_inj e (by rw [p2.1, q2.1])
  simp only [List.cons.injEq, true_and] at e
  obtain ⟨e4, e⟩ := List.append_inj e (by rw [p3.1, q3.1])
  simp only [List.cons.injEq, true_and] at e
  obtain ⟨e5, e⟩ := List.append_inj e (by rw [p4.1, q4.1])
  simp only [List.cons.injEq, true_and] at e
  obtain ⟨e6, e⟩ := List.append_inj e (by rw [p5.1, q5.1])
  simp only [List.cons.injEq, true_and] at e
  obtain ⟨e7, e⟩ := e
  obtain ⟨e8, e⟩ := List.append_inj e (by rw [p6.1, q6.1])
  obtain ⟨e9, -⟩ := List.append_inj e (by rw [p7.1, q7.1])
  subst e1 e2 e3 e4 e5 e6 e7 e8 e9
  have v : ∀ {w n n' bs}, Digits w n bs → Digits w n' bs → n = n' := fun a b => a.2.2.symm.trans b.2.2
  have voh := v p6 q6
  have vom := v p7 q7
  refine ⟨v p5 q5, v p4 q4, v p3 q3, v p1 q1, hminj _ _ hm hm' (hM.trans hM'.symm), v p2 q2, ?_, ?_⟩
  all_goals
    rcases p8 with ⟨rfl, p8⟩ | ⟨rfl, p8, -⟩ <;> rcases q8 with ⟨hs, q8⟩ | ⟨hs, q8, -⟩ <;>
      first | omega | (exfalso; revert hs; decide)

theorem dot_split {x x' r r' : Bytes} (hx : (0x2e : UInt8) ∉ x) (hx' : (0x2e : UInt8) ∉ x')
    (h : x ++ 0x2e :: r = x' ++ 0x2e :: r') : x = x' ∧ r = r' := by
  induction x generalizing x' with
  | nil =>
    cases x' with
    | nil => simpa using h
    | cons b x' =>
      simp only [List.nil_append, List.cons_append, List.cons.injEq] at h
      exact absurd (by simp [← h.1]) hx'
  | cons a x ih =>
    cases x' with
    | nil =>
      simp only [List.nil_append, List.cons_append, List.cons.injEq] at h
      exact absurd (by simp [h.1]) hx
    | cons b x' =>
      simp only [List.cons_append, List.cons.injEq] at h
      have := ih (x' := x') (fun hm => hx (by simp [hm])) (fun hm => hx' (by simp [hm])) h.2
      exact ⟨by rw [h.1, this.1], this.2⟩

/-- C102: a client's address is given in dotted decimal notation, and different clients get different texts;
an IPv6 address is taken as the system writes it; a client whose address is not known gets none. -/
theorem C102_address (a b c d : UInt8) :
    (∃ ta tb tc td, IsDecimal a.toNat ta ∧ IsDecimal b.toNat tb ∧ IsDecimal c.toNat tc ∧ IsDecimal d.toNat td ∧
      PeerName.connIp (.inet a b c d) = ta ++ [0x2e] ++ tb ++ [0x2e] ++ tc ++ [0x2e] ++ td) ∧
    (∀ a' b' c' d', PeerName.connIp (.inet a' b' c' d') = PeerName.connIp (.inet a b c d) →
      a' = a ∧ b' = b ∧ c' = c ∧ d' = d) ∧
    (∀ text, PeerName.connIp (.inet6 text) = text) ∧
    PeerName.connIp .failed = [] ∧ PeerName.connIp .unknown = [] := by
  have hdot : (b!"." : Bytes) = [0x2e] := by decide
  have hs : ∀ a b c d, PeerName.connIp (.inet a b c d) = decimal a.toNat ++ [0x2e] ++ decimal b.toNat ++ [0x2e] ++
      decimal c.toNat ++ [0x2e] ++ decimal d.toNat := by
    intro a b c d
    rw [← hdot]
    rfl
  have hn : ∀ n, (0x2e : UInt8) ∉ decimal n := by
    intro n hm
    have := (decimal_spec n).2.1 _ hm
    revert this; decide
  have hi : ∀ x y : UInt8, decimal x.toNat = decimal y.toNat → x = y := by
    intro x y e
    have h1 := (decimal_spec x.toNat).2.2.1
    have h2 := (decimal_spec y.toNat).2.2.1
    rw [e] at h1
    exact UInt8.toNat_inj.mp (h1.symm.trans h2)
  refine ⟨⟨_, _, _, _, decimal_spec _, decimal_spec _, decimal_spec _, decimal_spec _, hs a b c d⟩, ?_,
    fun _ => rfl, rfl, rfl⟩
  intro a' b' c' d' e
  rw [hs, hs] at e
  simp only [List.append_assoc, List.cons_append, List.nil_append] at e
  obtain ⟨e1, e⟩ := dot_split (hn _) (hn _) e
  obtain ⟨e2, e⟩ := dot_split (hn _) (hn _) e
  obtain ⟨e3, e4⟩ := dot_split (hn _) (hn _) e
  exact ⟨hi _ _ e1, hi _ _ e2, hi _ _ e3, hi _ _ e4⟩

example : PeerName.connIp (.inet 127 0 0 1) = b!"127.0.0.1" := by decide +kernel

/-- Neither line feeds nor quotation marks. -/
def Neat (l : Bytes) : Prop := ∀ b ∈ l, b ≠ 0x0a ∧ b ≠ 0x22

theorem Neat.append {l m : Bytes} (h : Neat l) (k : Neat m) : Neat (l ++ m) := by
  intro b hb
  rw [List.mem_append] at hb
  exact hb.elim (h b) (k b)

theorem Neat.decimal (n : Nat) : Neat (decimal n) := by
  intro b hb
  have := (decimal_spec n).2.1 _ hb
  constructor <;> (rintro rfl; revert this; decide)

theorem Neat.pad2 (n : Nat) : Neat (pad2 n) := by
  rw [Ion.pad2]
  split
  · exact .append (neat_of_all (by decide)) (.decimal n)
  · exact .decimal n

theorem Neat.pad4 (n : Nat) : Neat (pad4 n) := by
  rw [Ion.pad4]
  split
  · exact .append (neat_of_all (by decide)) (.pad2 n)
  · split
    · exact .append (neat_of_all (by decide)) (.decimal n)
    · exact .decimal n

theorem Neat.timestamp (tm : Tm) (h : tm.mon < 12) : Neat (clfTimestamp tm) := by
  have hmon : Neat (monthNames.getD tm.mon b!"?") := by
    have : ∀ m : Fin 12, (monthNames.getD m.val b!"?").all (fun b => b != 0x0a && b != 0x22) = true := by
      decide +kernel
    exact neat_of_all (this ⟨tm.mon, h⟩)
  have hz : Neat (zoneText tm.gmtoff) := by
    refine .append ?_ (.pad4 _)
    split <;> exact neat_of_all (by decide)
  suffices hs : Neat (strftimeClf tm) from fun b hb => hs b (List.mem_of_mem_take hb)
  have lit : ∀ {l : Bytes}, l.all (fun b => b != 0x0a && b != 0x22) = true → Neat l := neat_of_all
  exact ((((((((((((((lit (by decide)).append (.pad2 _)).append (lit (by decide))).append hmon).append
    (lit (by decide))).append (.decimal _)).append (lit (by decide))).append (.pad2 _)).append
    (lit (by decide))).append (.pad2 _)).append (lit (by decide))).append (.pad2 _)).append
    (lit (by decide))).append hz).append (lit (by decide))

theorem Neat.address (p : PeerName) (hp : ∀ text, p ≠ .inet6 text) : Neat p.connIp := by
  have lit : Neat b!"." := neat_of_all (by decide)
  cases p with
  | inet a b c d =>
    exact ((((((Neat.decimal _).append lit).append (.decimal _)).append lit).append (.decimal _)).append
      lit).append (.decimal _)
  | inet6 text => exact absurd rfl (hp text)
  | failed => exact fun b hb => nomatch hb
  | unknown => exact fun b hb => nomatch hb

/-- C102: an entry for a client with an IPv4 address, or with none that is known, is one line unless the
client's own header fields contain a line feed. -/
theorem C102_line (headers : List Header) (status : UInt16) (n : Nat) (peer : PeerName) (tm : Tm)
    (hp : ∀ text, peer ≠ .inet6 text) (ht : tm.mon < 12) (hh : ∀ x ∈ headers, 0x0a ∉ x.value) :
    0x0a ∉ accessEntry headers status n peer tm := by
  have app : ∀ {l m : Bytes}, 0x0a ∉ l → 0x0a ∉ m → 0x0a ∉ l ++ m := by
    intro l m h k hm
    rw [List.mem_append] at hm
    exact hm.elim h k
  have neat : ∀ {l : Bytes}, Neat l → 0x0a ∉ l := fun h hm => (h _ hm).1 rfl
  have hl : ∀ name, (0x0a : UInt8) ∉ lastHeader name headers b!"-" :=
    fun name => Sim.lastHeader_mem (fun v => 0x0a ∉ v) name b!"-" headers (by decide) hh
  have hip : (0x0a : UInt8) ∉ (if peer.connIp = [] then b!"-" else peer.connIp) := by
    split
    · decide
    · exact neat (.address peer hp)
  exact app (app (app (app (app (app (app (app (app (app (app (app (app (app (app hip (by decide))
    (neat (.timestamp tm ht))) (by decide)) (hl _)) (by decide)) (hl _)) (by decide)) (neat (.decimal _)))
    (by decide)) (neat (.decimal _))) (by decide)) (hl _)) (by decide)) (hl _)) (by decide)

example : accessEntry [⟨b!":method", b!"GET"⟩, ⟨b!":path", b!"/"⟩] 200 5 (.inet 10 0 0 7)
    ⟨21, 9, 1, 16, 10, 2026, 3600⟩ =
    b!"10.0.0.7 - - [16/Nov/2026:01:09:21 +0100] \"GET / HTTP/2\" 200 5 \"-\" \"-\"" := by decide +kernel

end Ion.Props
