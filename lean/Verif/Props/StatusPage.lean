import Verif.Model.StatusPage
import Verif.Lemmas.ConnServe
import Verif.Props.App

/-!
# The HTML of the status page (C126)
-/

namespace Ion.Props
open Ion Spec

/-- The octet `<`. -/
abbrev lt : UInt8 := 0x3c

theorem cut {c : UInt8} {a b p x y : Bytes} (hp : p.head? = some c) (ha : c ∉ a) (hb : c ∉ b)
    (h : a ++ (p ++ x) = b ++ (p ++ y)) : a = b ∧ x = y := by
  cases p with
  | nil => cases hp
  | cons c' p =>
    injection hp with hp
    subst hp
    induction a generalizing b with
    | nil =>
      cases b with
      | nil =>
        simp only [List.nil_append] at h
        exact ⟨rfl, List.append_cancel_left h⟩
      | cons d b =>
        simp only [List.nil_append, List.cons_append] at h
        injection h with h1 h2
        subst h1
        simp at hb
    | cons d a ih =>
      cases b with
      | nil =>
        simp only [List.nil_append, List.cons_append] at h
        injection h with h1 h2
        subst h1
        simp at ha
      | cons e b =>
        simp only [List.cons_append] at h
        injection h with h1 h2
        subst h1
        obtain ⟨rfl, rfl⟩ := ih (b := b) (by simpa using h2) (fun hm => ha (by simp [hm]))
          (fun hm => hb (by simp [hm]))
        exact ⟨rfl, rfl⟩

theorem decimal_no_lt (n : Nat) : lt ∉ decimal n := by
  intro h
  have := (Sim.decimal_spec n).2.1 _ h
  revert this
  decide

theorem decimal_inj {m n : Nat} (h : decimal m = decimal n) : m = n := by
  have h1 := (Sim.decimal_spec m).2.2.1
  have h2 := (Sim.decimal_spec n).2.2.1
  rw [h] at h1
  exact h1.symm.trans h2

theorem duration_no_lt (t : UInt64) : lt ∉ formatDuration t := by
  obtain ⟨d, h, m, s, -, -, -, -, hf⟩ := C69_parts t
  rw [hf]
  have hd := decimal_no_lt d
  have hh := decimal_no_lt h
  have hm := decimal_no_lt m
  have hs := decimal_no_lt s
  have k : lt ∉ b!"d " ∧ lt ∉ b!"h " ∧ lt ∉ b!"m " ∧ lt ∉ b!"s" := by decide
  simp only [List.mem_append, not_or]
  refine ⟨⟨⟨⟨?_, ?_⟩, ?_⟩, hs⟩, k.2.2.2⟩
  all_goals
    split
    · simp
    · simp only [List.mem_append, not_or]
      first
        | exact ⟨hd, k.1⟩
        | exact ⟨hh, k.2.1⟩
        | exact ⟨hm, k.2.2.1⟩

/-- What follows the list of codes begins with a line feed. -/
theorem badges_inj {c c' : List (UInt16 × UInt64)} {x y : Bytes}
    (h : (c.map badge).flatten ++ 0x0a :: x = (c'.map badge).flatten ++ 0x0a :: y) : c = c' ∧ x = y := by
  induction c generalizing c' with
  | nil =>
    cases c' with
    | nil => exact ⟨rfl, by simpa using h⟩
    | cons e c' =>
      simp only [List.map_nil, List.flatten_nil, List.nil_append, List.map_cons, List.flatten_cons, badge,
        List.append_assoc, List.cons_append] at h
      injection h with h1 h2
      exact absurd h1 (by decide)
  | cons e c ih =>
    cases c' with
    | nil =>
      simp only [List.map_nil, List.flatten_nil, List.nil_append, List.map_cons, List.flatten_cons, badge,
        List.append_assoc, List.cons_append] at h
      injection h with h1 h2
      exact absurd h1 (by decide)
    | cons e' c' =>
      simp only [List.map_cons, List.flatten_cons, badge, List.append_assoc] at h
      have h := List.append_cancel_left h
      obtain ⟨h1, h⟩ := cut (c := lt) (by rfl) (decimal_no_lt _) (decimal_no_lt _) h
      obtain ⟨h2, h⟩ := cut (c := lt) (by rfl) (decimal_no_lt _) (decimal_no_lt _) h
      obtain ⟨h3, h4⟩ := ih h
      refine ⟨?_, h4⟩
      rw [h3]
      congr 1
      exact Prod.ext (UInt16.toNat_inj.mp (decimal_inj h1)) (UInt64.toNat_inj.mp (decimal_inj h2))

/-- C126: what the page shows can be read off it: two pages that are alike show the same uptime, number of requests,
average latency and counts per status code, if the text of an average contains no `<`. -/
theorem C126_readable (text : PageText) (avg : Int → UInt64 → Bytes) (ha : ∀ d t, lt ∉ avg d t) (u u' : UInt64)
    (total total' : UInt64) (d d' : Int) (codes codes' : List (UInt16 × UInt64))
    (h : renderPage text avg (formatDuration u) total d codes = renderPage text avg (formatDuration u') total' d' codes') :
    u = u' ∧ total = total' ∧ avg d total = avg d' total' ∧ codes = codes' := by
  simp only [renderPage, List.append_assoc] at h
  have h := List.append_cancel_left h
  obtain ⟨h1, h⟩ := cut (c := lt) (by rfl) (duration_no_lt _) (duration_no_lt _) h
  obtain ⟨h2, h⟩ := cut (c := lt) (by rfl) (decimal_no_lt _) (decimal_no_lt _) h
  have hms : ∀ d t, lt ∉ avg d t ++ b!"ms" := by
    intro d t hm
    rcases List.mem_append.mp hm with hm | hm
    · exact ha _ _ hm
    · revert hm; decide
  have split : ∀ x : Bytes, b!"ms</span></div>\n        </div>\n\n        <h3>HTTP Status Codes</h3>\n        <div class=\"code-list\">" ++ x =
      b!"ms" ++ (b!"</span></div>\n        </div>\n\n        <h3>HTTP Status Codes</h3>\n        <div class=\"code-list\">" ++ x) := fun x => rfl
  rw [split, split, ← List.append_assoc, ← List.append_assoc (avg d' total')] at h
  obtain ⟨h3, h⟩ := cut (c := lt) (by rfl) (hms _ _) (hms _ _) h
  refine ⟨C69_injective _ _ h1, UInt64.toNat_inj.mp (decimal_inj h2), List.append_cancel_right h3, ?_⟩
  simp only [badges] at h
  by_cases e : codes = []
  · by_cases e' : codes' = []
    · rw [e, e']
    · rw [if_pos e, if_neg e'] at h
      cases codes' with
      | nil => exact absurd rfl e'
      | cons x xs =>
        simp only [List.map_cons, List.flatten_cons, badge, List.append_assoc, List.cons_append] at h
        injection h with _ h
        injection h with h _
        exact absurd h (by decide)
  · by_cases e' : codes' = []
    · rw [if_neg e, if_pos e'] at h
      cases codes with
      | nil => exact absurd rfl e
      | cons x xs =>
        simp only [List.map_cons, List.flatten_cons, badge, List.append_assoc, List.cons_append] at h
        injection h with _ h
        injection h with h _
        exact absurd h (by decide)
    · rw [if_neg e, if_neg e'] at h
      simp only [List.cons_append] at h
      exact (badges_inj h).1

/-- Pages of a server that has been up for a minute, without and with requests. -/
example : (renderPage ⟨b!"", b!"-", b!"1.0", instanceId 0xbeef⟩ (fun _ _ => b!"0.12") (formatDuration 60) 3 360
      [(200, 2), (404, 1)] : Bytes) =
    b!"1m 0s</span></div>\n            <div class=\"stat-item\"><span class=\"label\">Requests</span><span class=\"value\">3</span></div>\n            <div class=\"stat-item\"><span class=\"label\">Avg Latency</span><span class=\"value\">0.12ms</span></div>\n        </div>\n\n        <h3>HTTP Status Codes</h3>\n        <div class=\"code-list\"><div class='code-badge'><span class='code-num'>200</span>2</div><div class='code-badge'><span class='code-num'>404</span>1</div>\n        </div>\n    </div>\n    <div class=\"footer\">\n        powered by <a href=\"https://github.com/rhargreaves/ion\">ion</a> v1.0 - instance id: 0000beef\n    </div>\n</body>\n</html>\n" := by
  decide +kernel

end Ion.Props
