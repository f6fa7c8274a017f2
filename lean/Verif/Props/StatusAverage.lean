import Verif.Model.Average
import Verif.Props.Status
import Verif.Props.StatusPage

/-! # The average latency on the status page (C143) -/

namespace Ion
namespace Props

theorem roundEven_near (a : Nat) {b : Nat} (hb : 0 < b) :
    2 * (roundEven a b * b) ≤ 2 * a + b ∧ 2 * a ≤ 2 * (roundEven a b * b) + b := by
  have h := Nat.div_add_mod a b
  have hr := Nat.mod_lt a hb
  rw [Nat.mul_comm] at h
  simp only [roundEven]
  generalize a / b = q at *
  generalize a % b = r at *
  split
  · omega
  · split
    · rw [Nat.add_mul]; omega
    · rw [Nat.add_mul]
      rcases Nat.mod_two_eq_zero_or_one q with e | e <;> rw [e] <;> omega

theorem toDouble_den (a b : Nat) : 0 < (toDouble a b).den := by
  simp only [toDouble]
  split
  · exact Nat.one_pos
  · split <;> exact Nat.two_pow_pos _

/-- A double is within one part in 2^53 of what it stands for. -/
theorem toDouble_near (a : Nat) {b : Nat} (hb : 0 < b) :
    (toDouble a b).num * b * 2 ^ 53 ≤ a * (toDouble a b).den * (2 ^ 53 + 1) ∧
    a * (toDouble a b).den * (2 ^ 53 - 1) ≤ (toDouble a b).num * b * 2 ^ 53 := by
  simp only [toDouble]
  by_cases ha : a = 0
  · simp [ha]
  rw [if_neg ha]
  have la := Nat.log2_self_le ha
  have lb := Nat.lt_log2_self (n := b)
  have key : 2 ^ 52 * (b * 2 ^ (a.log2 - (53 + b.log2))) ≤ a * 2 ^ (53 + b.log2 - a.log2) := by
    have e : a.log2 + (53 + b.log2 - a.log2) = 52 + (b.log2 + 1 + (a.log2 - (53 + b.log2))) := by omega
    calc 2 ^ 52 * (b * 2 ^ (a.log2 - (53 + b.log2)))
        ≤ 2 ^ 52 * (2 ^ (b.log2 + 1) * 2 ^ (a.log2 - (53 + b.log2))) :=
          Nat.mul_le_mul_left _ (Nat.mul_le_mul_right _ (Nat.le_of_lt lb))
      _ = 2 ^ a.log2 * 2 ^ (53 + b.log2 - a.log2) := by
          rw [← Nat.pow_add, ← Nat.pow_add, ← Nat.pow_add, e]
      _ ≤ a * 2 ^ (53 + b.log2 - a.log2) := Nat.mul_le_mul_right _ la
  have hd : 0 < 2 ^ (a.log2 - (53 + b.log2)) := Nat.two_pow_pos _
  generalize 2 ^ (a.log2 - (53 + b.log2)) = down at *
  generalize 2 ^ (53 + b.log2 - a.log2) = up at *
  split
  · have h := roundEven_near (a * up) (Nat.mul_pos hb hd)
    have e : roundEven (a * up) (b * down) * down * b = roundEven (a * up) (b * down) * (b * down) := by
      rw [Nat.mul_assoc, Nat.mul_comm down b]
    simp only
    rw [e]
    generalize roundEven (a * up) (b * down) * (b * down) = m at *
    generalize b * down = b' at *
    generalize a * up = a' at *
    omega
  · have h := roundEven_near (a * up) (Nat.mul_pos Nat.two_pos (Nat.mul_pos hb hd))
    have e : roundEven (a * up) (2 * (b * down)) * (2 * down) * b =
        roundEven (a * up) (2 * (b * down)) * (2 * (b * down)) := by
      rw [Nat.mul_assoc, Nat.mul_assoc 2 down b, Nat.mul_comm down b]
    simp only
    rw [e]
    generalize roundEven (a * up) (2 * (b * down)) * (2 * (b * down)) = m at *
    generalize b * down = b' at *
    generalize a * up = a' at *
    omega

theorem roundEven_exact (a : Nat) {b : Nat} (hb : 0 < b) : roundEven (a * b) b = a := by
  simp [roundEven, Nat.mul_div_cancel _ hb, hb]

/-- Numbers of at most 53 bits are doubles. -/
theorem toDouble_exact {a : Nat} (ha : a < 2 ^ 53) : (toDouble a 1).num = a * (toDouble a 1).den := by
  simp only [toDouble]
  by_cases h0 : a = 0
  · simp [h0]
  rw [if_neg h0]
  have hl : a.log2 < 53 := (Nat.log2_lt h0).mpr ha
  have l1 : Nat.log2 1 = 0 := by decide
  rw [l1]
  obtain ⟨k, hk⟩ : ∃ k, 53 + 0 - a.log2 = k + 1 := ⟨52 - a.log2, by omega⟩
  have hd : a.log2 - (53 + 0) = 0 := by omega
  rw [hk, hd]
  split
  · simp only [Nat.pow_zero, Nat.mul_one]
    have := roundEven_exact (a * 2 ^ (k + 1)) Nat.one_pos
    rwa [Nat.mul_one] at this
  · simp only [Nat.pow_zero, Nat.mul_one]
    rw [Nat.pow_succ, ← Nat.mul_assoc, roundEven_exact _ Nat.two_pos]

/-- The number shown, for times of less than 2^44 microseconds (half a year) and less than 2^53 requests: it is the
time divided by the number of requests, in milliseconds, to the nearest hundredth. -/
theorem C143_hundredths {d t : Nat} (hd : d < 2 ^ 44) (ht : t < 2 ^ 53) (h0 : 0 < t) :
    let h := hundredths (averageMs d t)
    h * (1000 * t) ≤ 100 * d + 500 * t ∧ 100 * d ≤ h * (1000 * t) + 500 * t := by
  have ed := toDouble_exact (a := d) (by omega)
  have et := toDouble_exact ht
  have em := toDouble_exact (a := 1000) (by decide)
  have pd := toDouble_den d 1
  have pt := toDouble_den t 1
  have pm := toDouble_den 1000 1
  simp only [hundredths, averageMs, Frac.div]
  generalize toDouble d 1 = x at *
  generalize toDouble t 1 = y at *
  generalize toDouble 1000 1 = z at *
  obtain ⟨xn, xd⟩ := x
  obtain ⟨yn, yd⟩ := y
  obtain ⟨zn, zd⟩ := z
  simp only at ed et em pd pt pm ⊢
  subst ed et em
  have n1 := toDouble_near (d * xd * yd) (b := xd * (t * yd)) (Nat.mul_pos pd (Nat.mul_pos h0 pt))
  have p1 := toDouble_den (d * xd * yd) (xd * (t * yd))
  generalize toDouble (d * xd * yd) (xd * (t * yd)) = q at *
  obtain ⟨qn, qd⟩ := q
  simp only at n1 p1 ⊢
  have n2 := toDouble_near (qn * zd) (b := qd * (1000 * zd)) (Nat.mul_pos p1 (Nat.mul_pos (by decide) pm))
  have p2 := toDouble_den (qn * zd) (qd * (1000 * zd))
  generalize toDouble (qn * zd) (qd * (1000 * zd)) = r at *
  obtain ⟨rn, rd⟩ := r
  simp only at n2 p2 ⊢
  have n3 := roundEven_near (rn * 100) p2
  generalize roundEven (rn * 100) rd = h at *
  -- the first division
  have hx : 0 < xd * yd := Nat.mul_pos pd pt
  have a1 : qn * t * 2 ^ 53 ≤ d * qd * (2 ^ 53 + 1) := by
    refine Nat.le_of_mul_le_mul_right (c := xd * yd) ?_ hx
    have := n1.1
    grind
  have a2 : d * qd * (2 ^ 53 - 1) ≤ qn * t * 2 ^ 53 := by
    refine Nat.le_of_mul_le_mul_right (c := xd * yd) ?_ hx
    have := n1.2
    grind
  -- the second
  have b1 : rn * (qd * 1000) * 2 ^ 53 ≤ qn * rd * (2 ^ 53 + 1) := by
    refine Nat.le_of_mul_le_mul_right (c := zd) ?_ pm
    have := n2.1
    grind
  have b2 : qn * rd * (2 ^ 53 - 1) ≤ rn * (qd * 1000) * 2 ^ 53 := by
    refine Nat.le_of_mul_le_mul_right (c := zd) ?_ pm
    have := n2.2
    grind
  -- both
  have c1 : rn * (1000 * t) * (2 ^ 53 * 2 ^ 53) ≤ d * rd * ((2 ^ 53 + 1) * (2 ^ 53 + 1)) := by
    refine Nat.le_of_mul_le_mul_right (c := qd) ?_ p1
    have u := Nat.mul_le_mul_right (t * 2 ^ 53) b1
    have v := Nat.mul_le_mul_right (rd * (2 ^ 53 + 1)) a1
    grind
  have c2 : d * rd * ((2 ^ 53 - 1) * (2 ^ 53 - 1)) ≤ rn * (1000 * t) * (2 ^ 53 * 2 ^ 53) := by
    refine Nat.le_of_mul_le_mul_right (c := qd) ?_ p1
    have u := Nat.mul_le_mul_right (t * 2 ^ 53) b2
    have v := Nat.mul_le_mul_right (rd * (2 ^ 53 - 1)) a2
    grind
  -- and the rounding to hundredths
  have hD : d * rd ≤ (2 ^ 44 - 1) * rd := Nat.mul_le_mul_right _ (by omega)
  have d1 := Nat.mul_le_mul_right (1000 * t) n3.1
  have d2 := Nat.mul_le_mul_right (1000 * t) n3.2
  have e1 : 2 * (h * rd) * (1000 * t) = 2 * (h * (1000 * t) * rd) := by grind
  have e2 : (2 * (rn * 100) + rd) * (1000 * t) = 200 * (rn * (1000 * t)) + 1000 * (t * rd) := by grind
  have e3 : (2 * (h * rd) + rd) * (1000 * t) = 2 * (h * (1000 * t) * rd) + 1000 * (t * rd) := by grind
  have e4 : 2 * (rn * 100) * (1000 * t) = 200 * (rn * (1000 * t)) := by grind
  rw [e1, e2] at d1
  rw [e3, e4] at d2
  have f1 : h * (1000 * t) * rd < (100 * d + 500 * t + 1) * rd := by
    have g : (100 * d + 500 * t + 1) * rd = 100 * (d * rd) + 500 * (t * rd) + rd := by grind
    rw [g]
    generalize h * (1000 * t) * rd = H at *
    generalize rn * (1000 * t) = R at *
    generalize d * rd = D at *
    generalize t * rd = T at *
    omega
  have f2 : 100 * d * rd < (h * (1000 * t) + 500 * t + 1) * rd := by
    have g : (h * (1000 * t) + 500 * t + 1) * rd = h * (1000 * t) * rd + 500 * (t * rd) + rd := by grind
    have g' : 100 * d * rd = 100 * (d * rd) := by grind
    rw [g, g']
    generalize h * (1000 * t) * rd = H at *
    generalize rn * (1000 * t) = R at *
    generalize d * rd = D at *
    generalize t * rd = T at *
    omega
  exact ⟨Nat.le_of_lt_succ (Nat.lt_of_mul_lt_mul_right f1), Nat.le_of_lt_succ (Nat.lt_of_mul_lt_mul_right f2)⟩

theorem digit_text (n : Nat) : [UInt8.ofNat (48 + n % 10)] = decimal (n % 10) := by
  rw [decimal, if_pos (Nat.mod_lt _ (by decide))]

/-- Two decimals, as text. -/
theorem fixed2_text (n : Nat) : fixed2 n = decimal (n / 100) ++ b!"." ++ decimal (n / 10 % 10) ++ decimal (n % 10) := by
  rw [← digit_text n, ← digit_text (n / 10)]
  simp only [fixed2, List.append_assoc]
  rfl

theorem average_no_lt (d : Int) (t : UInt64) : lt ∉ averageText d t := by
  have h : ∀ n, lt ∉ fixed2 n := by
    intro n hm
    rw [fixed2_text] at hm
    simp only [List.mem_append] at hm
    rcases hm with ((hm | hm) | hm) | hm
    · exact decimal_no_lt _ hm
    · revert hm; decide
    · exact decimal_no_lt _ hm
    · exact decimal_no_lt _ hm
  intro hm
  simp only [averageText] at hm
  split at hm
  · rcases List.mem_append.mp hm with hm | hm
    · split at hm
      · revert hm; decide
      · cases hm
    · exact h _ hm
  · exact h _ hm

/-- C126 for the page with the text of the average the program makes. -/
theorem C126_readable_average (text : PageText) (u u' : UInt64) (total total' : UInt64) (d d' : Int)
    (codes codes' : List (UInt16 × UInt64))
    (h : renderPage text averageText (formatDuration u) total d codes =
      renderPage text averageText (formatDuration u') total' d' codes') :
    u = u' ∧ total = total' ∧ averageText d total = averageText d' total' ∧ codes = codes' :=
  C126_readable text averageText average_no_lt u u' total total' d d' codes codes' h

/-- The page says that the average latency is `h` hundredths of a millisecond. -/
def ShowsAverage (body : Bytes) (h : Nat) : Prop :=
  ∃ pre post, body = pre ++ b!"<span class=\"label\">Avg Latency</span><span class=\"value\">" ++
    (decimal (h / 100) ++ b!"." ++ decimal (h / 10 % 10) ++ decimal (h % 10)) ++ b!"ms</span>" ++ post

/-- `h` is an integer nearest to `100 * us / (1000 * n)`: hundredths of a millisecond nearest to the average of `n`
durations of `us` microseconds together. -/
def NearestAverage (h : Nat) (us : Int) (n : Nat) : Prop :=
  (h * (1000 * n) : Int) ≤ 100 * us + 500 * n ∧ 100 * us ≤ h * (1000 * n) + 500 * n

/-- C143, what is true of it: after any requests that took less than 2^44 microseconds together, the status page shows
that time divided by the number of requests and one, to the nearest hundredth of a millisecond: the request for the
page itself is among those divided by but its time is not among those added. -/
theorem C143_average_partial (text : PageText) (a : Args) (hp : a.statusPage = true) (qs : List HttpRequest)
    (w : World) (t0 : Nat) (hw : w.stats = { startTime := t0 }) (req : HttpRequest)
    (hn : qs.length + 1 < 2 ^ 53) :
    let h := a.getHandler (renderPage text averageText)
    0 ≤ handlerTime h qs w → handlerTime h qs w < 2 ^ 44 →
    ∃ r w' n, h b!"/_ion/status" b!"GET" req (serve h qs w).2 = (.resp r, w') ∧
      ShowsAverage r.body n ∧ NearestAverage n (handlerTime h qs w) (qs.length + 1) := by
  intro h h0 h1
  obtain ⟨r, w', secs, codes, e1, -, -, e2, -⟩ := C92_status (renderPage text averageText) a hp qs w t0 hw req
  refine ⟨r, w', hundredths (averageMs (handlerTime h qs w).natAbs (qs.length + 1)), e1, ?_, ?_⟩
  · rw [e2]
    simp only [ShowsAverage, ← fixed2_text]
    have ht : (UInt64.ofNat (qs.length + 1)).toNat = qs.length + 1 := by
      rw [UInt64.toNat_ofNat', Nat.mod_eq_of_lt (by omega)]
    have hpos : UInt64.ofNat (qs.length + 1) > 0 := by
      rw [gt_iff_lt, UInt64.lt_iff_toNat_lt, ht]
      exact Nat.succ_pos _
    have ha : averageText (handlerTime h qs w) (UInt64.ofNat (qs.length + 1)) =
        fixed2 (hundredths (averageMs (handlerTime h qs w).natAbs (qs.length + 1))) := by
      rw [averageText, if_pos hpos, if_neg (by omega), ht, List.nil_append]
    refine ⟨text.head ++ formatDuration secs ++
      b!"</span></div>\n            <div class=\"stat-item\"><span class=\"label\">Requests</span><span class=\"value\">" ++
      decimal (UInt64.ofNat (qs.length + 1)).toNat ++ b!"</span></div>\n            <div class=\"stat-item\">",
      b!"</div>\n        </div>\n\n        <h3>HTTP Status Codes</h3>\n        <div class=\"code-list\">" ++
      badges codes ++
      b!"\n        </div>\n    </div>\n    <div class=\"footer\">\n        powered by <a href=\"https://github.com/rhargreaves/ion\">ion</a> v" ++
      text.version ++ b!" " ++ text.bullet ++ b!" instance id: " ++ text.instanceId ++
      b!"\n    </div>\n</body>\n</html>\n", ?_⟩
    rw [← ha]
    have s1 : ∀ x : Bytes, b!"</span></div>\n            <div class=\"stat-item\"><span class=\"label\">Avg Latency</span><span class=\"value\">" ++ x =
        b!"</span></div>\n            <div class=\"stat-item\">" ++
          (b!"<span class=\"label\">Avg Latency</span><span class=\"value\">" ++ x) := fun x => rfl
    have s2 : ∀ x : Bytes, b!"ms</span></div>\n        </div>\n\n        <h3>HTTP Status Codes</h3>\n        <div class=\"code-list\">" ++ x =
        b!"ms</span>" ++ (b!"</div>\n        </div>\n\n        <h3>HTTP Status Codes</h3>\n        <div class=\"code-list\">" ++ x) :=
      fun x => rfl
    simp only [renderPage, List.append_assoc]
    rw [s1, s2]
  · have := C143_hundredths (d := (handlerTime h qs w).natAbs) (t := qs.length + 1) (by omega) hn (by omega)
    simp only at this
    generalize hundredths (averageMs (handlerTime h qs w).natAbs (qs.length + 1)) = x at *
    have e : (x * (1000 * ((qs.length + 1 : Nat) : Int)) : Int) = ((x * (1000 * (qs.length + 1)) : Nat) : Int) := by
      rw [Int.natCast_mul, Int.natCast_mul 1000]
      rfl
    rw [NearestAverage, e]
    generalize x * (1000 * (qs.length + 1)) = y at *
    omega

/-- One request that took 10 ms, and then the status page. -/
def exAverage : World := { exWorld with clock := fun i => i * 10000 }

/-- C143, the negation: one request was answered and took 10 ms; the page shows an average of 5 ms. -/
theorem C143_refuted : ∃ (a : Args) (qs : List HttpRequest) (w : World) (req : HttpRequest) (r : HttpResponse)
    (w' : World),
    let h := a.getHandler (renderPage ⟨[], [], [], []⟩ averageText)
    a.statusPage = true ∧ w.stats = { startTime := 0 } ∧ qs.length = 1 ∧
      (serve h qs w).1.length = 1 ∧ handlerTime h qs w = 10000 ∧
      h b!"/_ion/status" b!"GET" req (serve h qs w).2 = (.resp r, w') ∧
      ShowsAverage r.body 500 ∧ ¬ NearestAverage 500 (handlerTime h qs w) qs.length ∧
      NearestAverage 1000 (handlerTime h qs w) qs.length := by
  let h := exArgs.getHandler (renderPage ⟨[], [], [], []⟩ averageText)
  let qs : List HttpRequest := [⟨b!"GET", b!"/static/home", []⟩]
  have ht : handlerTime h qs exAverage = 10000 := by decide +kernel
  obtain ⟨r, w', n, e1, e2, e3⟩ := C143_average_partial ⟨[], [], [], []⟩ exArgs rfl qs exAverage 0 rfl
    ⟨b!"GET", b!"/_ion/status", []⟩ (by decide) (by rw [ht]; decide) (by rw [ht]; decide)
  rw [ht] at e3
  refine ⟨exArgs, qs, exAverage, ⟨b!"GET", b!"/_ion/status", []⟩, r, w', rfl, rfl, rfl, by decide +kernel, ht, e1, ?_, ?_, ?_⟩
  · have : n = 500 := by
      simp only [NearestAverage, qs, List.length_cons, List.length_nil] at e3
      omega
    rw [← this]
    exact e2
  · rw [ht]; simp only [NearestAverage, qs]; decide
  · rw [ht]; simp only [NearestAverage, qs]; decide

/-- Averages: exact, rounded up and down, of nothing, below zero, a tie in decimal that is none in binary
(0.145 is a little less as a double, 0.125 is exact). -/
example : averageText 10000 2 = b!"5.00" ∧ averageText 2 3 = b!"0.00" ∧ averageText 123456 7 = b!"17.64" ∧
    averageText 0 0 = b!"0.00" ∧ averageText (-5000) 1 = b!"-5.00" ∧ averageText 145 1 = b!"0.14" ∧
    averageText 155 1 = b!"0.15" ∧ averageText 125 1 = b!"0.12" ∧ averageText 375 1 = b!"0.38" := by
  decide +kernel

end Props
end Ion
