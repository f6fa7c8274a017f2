import Verif.Props.StatusAverage

/-! # Do the numbers on the status page agree? (C144) -/

namespace Ion
namespace Props

theorem sum_keys (os : List HOut) (keys : List UInt16) (hn : keys.Pairwise (· < ·))
    (hk : ∀ k, withStatus k os ≠ 0 → k ∈ keys) : (keys.map fun k => withStatus k os).sum = completed os := by
  have one : ∀ (s : UInt16) (keys : List UInt16), keys.Pairwise (· < ·) → s ∈ keys →
      (keys.map fun k => if s = k then 1 else 0).sum = 1 := by
    intro s keys
    induction keys with
    | nil => intro _ h; cases h
    | cons j js ih =>
      intro hp hm
      obtain ⟨h1, h2⟩ := List.pairwise_cons.mp hp
      have zero : ∀ js : List UInt16, s ∉ js → (js.map fun k => if s = k then 1 else 0).sum = 0 := by
        intro js
        induction js with
        | nil => intro _; rfl
        | cons i is ih =>
          intro h
          simp only [List.mem_cons, not_or] at h
          rw [List.map_cons, List.sum_cons, if_neg h.1, ih h.2]
      rw [List.map_cons, List.sum_cons]
      rcases List.mem_cons.mp hm with e | hm'
      · subst e
        rw [if_pos rfl, zero js (fun h => absurd (h1 _ h) (UInt16.lt_irrefl _))]
      · have : s ≠ j := by
          rintro rfl
          exact absurd (h1 _ hm') (UInt16.lt_irrefl _)
        rw [if_neg this, ih h2 hm']
  have add : ∀ (f g : UInt16 → Nat) (l : List UInt16),
      (l.map fun k => f k + g k).sum = (l.map f).sum + (l.map g).sum := by
    intro f g l
    induction l with
    | nil => rfl
    | cons x l ih => simp only [List.map_cons, List.sum_cons, ih]; omega
  have const : ∀ l : List UInt16, (l.map fun _ => 0).sum = 0 := by
    intro l
    induction l with
    | nil => rfl
    | cons x l ih => rw [List.map_cons, List.sum_cons, ih]
  induction os with
  | nil => exact const keys
  | cons o os ih =>
    cases o with
    | resp r =>
      simp only [withStatus, completed]
      rw [add, one r.status keys hn (hk _ (by simp [withStatus])), ih (fun k h => hk k (by simp only [withStatus]; omega))]
    | stdExn => exact ih hk
    | otherExn => exact ih hk

theorem sum_ofNat (l : List Nat) : (l.map UInt64.ofNat).sum = UInt64.ofNat l.sum := by
  induction l with
  | nil => rfl
  | cons x l ih => rw [List.map_cons, List.sum_cons, List.sum_cons, ih, UInt64.ofNat_add]

theorem serve_length (h : Bytes → Bytes → Handler World) (qs : List HttpRequest) : ∀ w, (serve h qs w).1.length = qs.length := by
  induction qs with
  | nil => intro w; rfl
  | cons q qs ih => intro w; simp only [serve, List.length_cons, ih]

/-- C144, what is true of it: after any requests, the page shows one request more than its counts add up to, and one
more for each request whose handler threw. (Numbers of 64 bits.) -/
theorem C144_agree_partial (page : Page) (a : Args) (hp : a.statusPage = true) (qs : List HttpRequest) (w : World)
    (t0 : Nat) (hw : w.stats = { startTime := t0 }) (req : HttpRequest) :
    let h := a.getHandler page
    let res := serve h qs w
    ∃ r w' uptime time total codes, h b!"/_ion/status" b!"GET" req res.2 = (.resp r, w') ∧
      r.body = page uptime total time codes ∧
      total = (codes.map (·.2)).sum + 1 + UInt64.ofNat (res.1.length - completed res.1) := by
  intro h res
  obtain ⟨r, w', secs, codes, e1, -, -, e2, -, e3, e4, e5⟩ := C92_status page a hp qs w t0 hw req
  refine ⟨r, w', _, _, _, codes, e1, e2, ?_⟩
  have hm : codes.map (·.2) = (codes.map (·.1)).map (fun k => UInt64.ofNat (withStatus k res.1)) := by
    rw [List.map_map]
    apply List.map_congr_left
    intro e he
    exact e5 e.1 e.2 he
  have hs : (codes.map (·.2)).sum = UInt64.ofNat (completed res.1) := by
    have hk := sum_keys res.1 (codes.map (·.1)) (List.pairwise_map.mpr e3) (by
      intro k hk
      obtain ⟨n, hn⟩ := (e4 k).mpr hk
      exact List.mem_map.mpr ⟨_, hn, rfl⟩)
    rw [hm, ← hk, ← sum_ofNat]
    simp only [List.map_map]
    rfl
  have hl : res.1.length = qs.length := serve_length h qs w
  have hc : completed res.1 ≤ res.1.length := by
    generalize res.1 = os
    induction os with
    | nil => exact Nat.le_refl _
    | cons o os ih => cases o <;> simp only [completed, List.length_cons] <;> omega
  rw [hs, show qs.length + 1 = completed res.1 + 1 + (res.1.length - completed res.1) by omega, UInt64.ofNat_add,
    UInt64.ofNat_add]
  rfl

/-- C144, the negation: the first page shows one request, and says that there are none yet. -/
theorem C144_refuted : ∃ (a : Args) (w : World) (req : HttpRequest) (r : HttpResponse) (w' : World),
    a.statusPage = true ∧ w.stats = { startTime := 0 } ∧
    a.getHandler (fun _ total _ codes => decimal total.toNat ++ b!" requests: " ++ badges codes)
      b!"/_ion/status" b!"GET" req w = (.resp r, w') ∧
    r.body = b!"1 requests: <em>No requests yet</em>" :=
  ⟨exArgs, exWorld, ⟨b!"GET", b!"/_ion/status", []⟩, _, _, rfl, rfl, rfl, by decide +kernel⟩

/-- Three requests, of which two are answered 200 and one 404; a page for them. -/
example :
    let page : Page := fun _ n _ codes => decimal n.toNat ++ b!":" ++ (codes.map fun e => decimal e.2.toNat).flatten
    (respOf ((exArgs.getHandler page b!"/_ion/status" b!"GET" ⟨b!"GET", b!"/_ion/status", []⟩)
      (serve (exArgs.getHandler page) [⟨b!"GET", b!"/static/home", []⟩, ⟨b!"GET", b!"/x", []⟩,
        ⟨b!"GET", b!"/_ion/status", []⟩] exWorld).2)).map (·.body) = some b!"4:21" := by
  decide +kernel

end Props
end Ion
