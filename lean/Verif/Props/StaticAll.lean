import Verif.Props.StaticExact

/-!
# Which targets are served, with '..' (C134)

The whole answer to the question of C134: which file is served for a target of any kind. If the operating system finds
something under the target, it is that. Otherwise names decide: the longest beginning of the path that exists is
resolved, and in what follows '.' and '..' are cancelled without looking (`std::filesystem::weakly_canonical`).
-/

namespace Ion
namespace Props

open FS FileReader StaticFileHandler Files

/-- One '.' or '..' is taken out of the names of an absolute path, by names alone: '..' takes the name before it with
it, if there is one. -/
inductive Cancel : List Name → List Name → Prop
  | dot (pre post) : Cancel (pre ++ b!"." :: post) (pre ++ post)
  | up (pre c post) : c ≠ b!"." → c ≠ b!".." → Cancel (pre ++ c :: b!".." :: post) (pre ++ post)
  | top (post) : Cancel (b!".." :: post) post

/-- All of them are taken out, in any order. -/
inductive Cancelled : List Name → List Name → Prop
  | done {a} : b!"." ∉ a → b!".." ∉ a → Cancelled a a
  | step {a b c} : Cancel a b → Cancelled b c → Cancelled a c

/-- The path that is opened for the absolute path `p`. -/
inductive OpensAs (fs : FS) (p : FPath) : FPath → Prop
  /-- What the operating system finds. -/
  | found {loc} : fs.stat p = .ok loc → OpensAs fs p ⟨true, loc, false⟩
  /-- Nothing is found: the longest beginning that exists is resolved; the rest follows by its names. A separator, '.' or
  '..' at the end is kept as a separator. -/
  | named {e P Q l full} : fs.stat p = .error e → e.absent = true → p.comps = P ++ Q →
      fs.stat ⟨true, P, false⟩ = .ok l →
      (∀ Q1 q Q2, Q = Q1 ++ q :: Q2 → ∃ e : Errno, e.absent = true ∧ fs.stat ⟨true, P ++ (Q1 ++ [q]), false⟩ = .error e) →
      Cancelled (l ++ Q) full →
      OpensAs fs p ⟨true, full, decide (full ≠ []) &&
        (p.trail || p.comps.getLast? = some b!"." || p.comps.getLast? = some b!"..")⟩

/-! ## Cancelling is `lexically_normal` -/

theorem normalize_append (a : List Name) : ∀ stack, ∃ stack', ∀ b, normalize stack (a ++ b) = normalize stack' b := by
  induction a with
  | nil => exact fun stack => ⟨stack, fun b => rfl⟩
  | cons c cs ih =>
    intro stack
    by_cases h1 : c = b!"."
    · obtain ⟨s', hs⟩ := ih stack
      exact ⟨s', fun b => by rw [List.cons_append, normalize, if_pos h1, hs]⟩
    · by_cases h2 : c = b!".."
      · obtain ⟨s', hs⟩ := ih stack.tail
        exact ⟨s', fun b => by rw [List.cons_append, normalize, if_neg h1, if_pos h2, hs]⟩
      · obtain ⟨s', hs⟩ := ih (c :: stack)
        exact ⟨s', fun b => by rw [List.cons_append, normalize, if_neg h1, if_neg h2, hs]⟩

theorem Cancel.normalize {a b : List Name} (h : Cancel a b) : normalize [] a = normalize [] b := by
  cases h with
  | dot pre post =>
    obtain ⟨s, hs⟩ := normalize_append pre []
    rw [hs, hs, FS.normalize, if_pos rfl]
  | up pre c post h1 h2 =>
    obtain ⟨s, hs⟩ := normalize_append pre []
    rw [hs, hs, FS.normalize, if_neg h1, if_neg h2, FS.normalize, if_neg (by decide +kernel), if_pos rfl]
    rfl
  | top =>
    rw [FS.normalize, if_neg (by decide +kernel), if_pos rfl]
    rfl

theorem Cancelled.normalize {a b : List Name} (h : Cancelled a b) : normalize [] a = b := by
  induction h with
  | @done a h1 h2 =>
    rw [normalize_plain a [] h2]
    simp only [List.reverse_nil, List.nil_append]
    refine List.filter_eq_self.mpr fun c hc => ?_
    simp only [decide_eq_true_eq]
    exact fun h => h1 (h ▸ hc)
  | step h _ ih => rw [h.normalize, ih]

theorem cancelled_stack : ∀ (cs stack : List Name), b!"." ∉ stack → b!".." ∉ stack →
    Cancelled (stack.reverse ++ cs) (normalize stack cs)
  | [], stack, h1, h2 => by
    rw [FS.normalize, List.append_nil]
    exact .done (by simpa using h1) (by simpa using h2)
  | c :: cs, stack, h1, h2 => by
    by_cases e1 : c = b!"."
    · rw [FS.normalize, if_pos e1, e1]
      exact .step (.dot _ _) (cancelled_stack cs stack h1 h2)
    · by_cases e2 : c = b!".."
      · rw [FS.normalize, if_neg e1, if_pos e2, e2]
        cases stack with
        | nil => exact .step (.top _) (cancelled_stack cs [] h1 h2)
        | cons d ds =>
          simp only [List.mem_cons, not_or] at h1 h2
          rw [List.reverse_cons, List.append_assoc]
          exact .step (.up _ d _ (Ne.symm h1.1) (Ne.symm h2.1)) (cancelled_stack cs ds h1.2 h2.2)
      · rw [FS.normalize, if_neg e1, if_neg e2]
        have := cancelled_stack cs (c :: stack) (by simp [h1, Ne.symm e1]) (by simp [h2, Ne.symm e2])
        simpa using this

/-! ## The longest beginning that exists -/

theorem existing_all (fs : FS) : ∀ (rev dne l d : List Name), fs.existingPrefix rev dne = .ok (l, d) →
    ∃ P Q, rev.reverse = P ++ Q ∧ d = Q ++ dne ∧ fs.stat ⟨true, P, false⟩ = .ok l ∧
      ∀ Q1 q Q2, Q = Q1 ++ q :: Q2 → ∃ e : Errno, e.absent = true ∧ fs.stat ⟨true, P ++ (Q1 ++ [q]), false⟩ = .error e := by
  intro rev
  induction rev with
  | nil =>
    intro dne l d h
    simp only [existingPrefix, Except.ok.injEq, Prod.mk.injEq] at h
    obtain ⟨rfl, rfl⟩ := h
    refine ⟨[], [], rfl, rfl, by rw [stat_abs fs rfl]; simp [stepsOf, cutNul, resolve_eq, walk_nil], ?_⟩
    intro Q1 q Q2 h
    simp at h
  | cons c rev ih =>
    intro dne l d h
    rw [existingPrefix] at h
    split at h
    · rename_i l' hl
      simp only [Except.ok.injEq, Prod.mk.injEq] at h
      obtain ⟨rfl, rfl⟩ := h
      refine ⟨(c :: rev).reverse, [], by simp, rfl, hl, ?_⟩
      intro Q1 q Q2 h
      simp at h
    · rename_i e he2
      split at h
      case isFalse => cases h
      rename_i he1
      obtain ⟨P, Q, h1, h2, h3, h4⟩ := ih _ _ _ h
      refine ⟨P, Q ++ [c], by simp [h1], by simp [h2], h3, ?_⟩
      intro Q1 q Q2 hq
      rcases List.append_eq_append_iff.mp hq with ⟨a, ha, hb⟩ | ⟨a, ha, hb⟩
      · -- `Q1` reaches the end of `Q`
        cases a with
        | nil =>
          simp only [List.append_nil, List.nil_append, List.cons.injEq] at ha hb
          refine ⟨e, he1, ?_⟩
          rw [ha, ← hb.1, ← List.append_assoc, ← h1, ← List.reverse_cons]
          exact he2
        | cons x xs =>
          simp only [List.cons_append, List.cons.injEq] at hb
          have := congrArg List.length hb.2
          simp at this
      · cases a with
        | nil =>
          simp only [List.append_nil, List.nil_append, List.cons.injEq] at ha hb
          refine ⟨e, he1, ?_⟩
          rw [← ha, hb.1, ← List.append_assoc, ← h1, ← List.reverse_cons]
          exact he2
        | cons x xs =>
          simp only [List.cons_append, List.cons.injEq] at hb
          exact h4 Q1 q xs (by rw [ha, hb.1])

theorem existing_of (fs : FS) {P l : List Name} (hP : fs.stat ⟨true, P, false⟩ = .ok l) : ∀ (n : Nat) (Q dne : List Name),
    Q.length = n → (∀ Q1 q Q2, Q = Q1 ++ q :: Q2 → ∃ e : Errno, e.absent = true ∧ fs.stat ⟨true, P ++ (Q1 ++ [q]), false⟩ = .error e) →
    fs.existingPrefix (P ++ Q).reverse dne = .ok (l, Q ++ dne)
  | 0, Q, dne, hn, _ => by
    obtain rfl := List.length_eq_zero_iff.mp hn
    rw [List.append_nil, List.nil_append]
    cases hr : P.reverse with
    | nil =>
      obtain rfl := List.reverse_eq_nil_iff.mp hr
      rw [stat_abs fs rfl] at hP
      simp [stepsOf, cutNul, resolve_eq, walk_nil] at hP
      rw [existingPrefix, ← hP]
    | cons c rev =>
      rw [existingPrefix, ← hr, List.reverse_reverse, hP]
  | n + 1, Q, dne, hn, hQ => by
    obtain ⟨Q', q, rfl⟩ : ∃ Q' q, Q = Q' ++ [q] :=
      ⟨Q.dropLast, Q.getLast (by intro h; simp [h] at hn), (List.dropLast_concat_getLast _).symm⟩
    obtain ⟨e, he, hs⟩ := hQ Q' q [] rfl
    have hr : (P ++ (Q' ++ [q])).reverse = q :: (P ++ Q').reverse := by simp
    rw [hr, existingPrefix, ← hr, List.reverse_reverse, hs]
    simp only
    rw [if_pos he]
    have := existing_of fs hP n Q' (q :: dne) (by simpa using hn) fun Q1 q' Q2 h => by
      refine hQ Q1 q' (Q2 ++ [q]) ?_
      rw [h]; simp
    rw [this]; simp

/-- `weakly_canonical` gives exactly the path that is opened. -/
theorem weaklyCanonical_iff {fs : FS} {p q : FPath} (hp : p.abs = true) :
    fs.weaklyCanonical p = .ok q ↔ OpensAs fs p q := by
  have hlast : ∀ {P Q l : List Name}, p.comps = P ++ Q → fs.stat ⟨true, P, false⟩ = .ok l →
      (∃ e, fs.stat p = .error e) →
      (p.trail || (l ++ Q).getLast? = some b!"." || (l ++ Q).getLast? = some b!"..") =
      (p.trail || p.comps.getLast? = some b!"." || p.comps.getLast? = some b!"..") := by
    intro P Q l hc hl he
    by_cases hQ : Q = []
    · subst hQ
      have : p.trail = true := by
        cases htr : p.trail with
        | true => rfl
        | false =>
          obtain ⟨e, he⟩ := he
          have : p = ⟨true, P, false⟩ := by
            obtain ⟨a, c, t⟩ := p
            simp only [List.append_nil] at hp hc htr
            rw [hp, hc, htr]
          rw [this, hl] at he
          cases he
      rw [this]; rfl
    · have h1 : ∀ x : List Name, (x ++ Q).getLast? = Q.getLast? := by
        intro x
        rw [List.getLast?_append]
        cases h : Q.getLast? with
        | none => exact absurd (List.getLast?_eq_none_iff.mp h) hQ
        | some y => rfl
      rw [hc, h1, h1]
  constructor
  · intro h
    rw [weaklyCanonical] at h
    split at h
    · rename_i loc hl
      obtain rfl : FPath.mk true loc false = q := by simpa using h
      exact .found hl
    · rename_i e he2
      split at h
      case isFalse => cases h
      rename_i he1
      split at h
      · cases h
      · rename_i l d hx
        obtain ⟨P, Q, h1, h2, h3, h4⟩ := existing_all fs _ _ _ _ hx
        simp only [List.reverse_reverse, List.append_nil] at h1 h2
        subst h2
        obtain rfl : lexicallyNormal ⟨true, l ++ d, p.trail⟩ = q := by simpa using h
        have hn : Cancelled (l ++ d) (normalize [] (l ++ d)) := cancelled_stack (l ++ d) [] (by simp) (by simp)
        have := OpensAs.named he2 he1 h1 h3 h4 hn
        rw [← hlast h1 h3 ⟨e, he2⟩] at this
        exact this
  · intro h
    cases h with
    | found h => rw [weaklyCanonical, h]
    | @named e P Q l full h1 h2 h3 h4 h5 h6 =>
      have hx := existing_of fs h4 Q.length Q [] rfl h5
      rw [← h3, List.append_nil] at hx
      rw [weaklyCanonical, h1, hx]
      have h7 := h6.normalize
      have h8 := hlast h3 h4 ⟨e, h1⟩
      simp only
      rw [if_pos h2]
      simp only [lexicallyNormal]; rw [h7, h8]

/-- The file a target is opened as is served. -/
theorem sanitize_opens {fs : FS} (hwf : fs.WF) {root rest content : Bytes} {base loc : List Name} {p q : FPath}
    (hbase : fs.stat (parsePath root) = .ok base) (hdir : fs.look base = some .dir) (hp : StandsFor base rest p)
    (hq : OpensAs fs p q) (hin : base <+: q.comps) (hloc : fs.stat q = .ok loc)
    (hc : fs.look loc = some (.file content true)) :
    sanitizePath fs root rest = some q.render ∧ Opens fs q.render content := by
  obtain rfl := hp.combined
  have habs := combinedPath_abs base rest
  have hb : ∀ c ∈ base, PathElem c := fun c hc => (hwf.names _ _ hdir c hc).elem
  have hw0 : fs.weaklyCanonical (fs.absolute (parsePath root)) = .ok ⟨true, base, false⟩ := by
    rw [weaklyCanonical, stat_absolute hwf _ (parsePath_trail _), hbase]
  have hw := (weaklyCanonical_iff habs).mpr hq
  obtain ⟨ha, ht, he⟩ := weaklyCanonical_elems hwf habs (combinedPath_elems hb _) hw
  refine ⟨?_, loc, ?_, hc⟩
  · rw [sanitizePath]
    simp only
    rw [stat_absolute hwf _ (parsePath_trail _), hbase]
    simp only
    rw [if_neg (by simp [hdir]), hw0]
    simp only
    rw [combinedPath] at hw
    rw [hw]
    simp only
    rw [if_pos (prefix_within ?_)]
    simp only [FPath.elems, ha, if_true, List.cons_append, List.nil_append, List.cons_prefix_cons,
      true_and, Bool.false_eq_true, if_false, List.append_nil]
    exact hin.trans (List.prefix_append _ _)
  · rw [statString_render ha ht (fun x hx => (he x hx).1), ← stat_abs fs ha]
    exact hloc

/-- C134 for all targets, also with '..': a target is answered with 200 exactly if the path it is opened as lies, by its
names, in the directory, and the operating system finds a readable regular file under it; and with that file. -/
theorem C134_exact {fs : FS} (hwf : fs.WF) (h : StaticFileHandler) (path : Bytes) (head : Bool)
    {base : List Name} (hbase : fs.stat (parsePath h.filesystemRoot) = .ok base) (hdir : fs.look base = some .dir)
    {p : FPath} (hp : StandsFor base (h.getRelativePath path) p) :
    ((h.handle fs path head).status = 200 ↔ ∃ q loc c, OpensAs fs p q ∧ base <+: q.comps ∧
      fs.stat q = .ok loc ∧ fs.look loc = some (.file c true)) ∧
    ∀ q loc c, OpensAs fs p q → base <+: q.comps → fs.stat q = .ok loc → fs.look loc = some (.file c true) →
      head = false → (h.handle fs path head).body = c := by
  refine ⟨⟨?_, ?_⟩, ?_⟩
  · intro hok
    obtain rfl := hp.combined
    have habs := combinedPath_abs base (h.getRelativePath path)
    have hb : ∀ c ∈ base, PathElem c := fun c hc => (hwf.names _ _ hdir c hc).elem
    obtain ⟨s, c, hs, hopen⟩ := (C56_codes h fs path head).2.2.mp hok
    obtain ⟨base', full, h1, h2, h3, h4, h5, rfl⟩ := sanitizePath_spec hwf hs
    rw [stat_absolute hwf _ (parsePath_trail _), hbase] at h1
    obtain rfl : base = base' := by simpa using h1
    obtain ⟨ha, ht, he⟩ := weaklyCanonical_elems hwf habs (combinedPath_elems hb (h.getRelativePath path)) h3
    obtain ⟨loc, hl1, hl2⟩ := hopen
    rw [statString_render ha ht (fun x hx => (he x hx).1), ← stat_abs fs ha] at hl1
    exact ⟨full, loc, c, (weaklyCanonical_iff habs).mp h3, h5, hl1, hl2⟩
  · rintro ⟨q, loc, c, h1, h2, h3, h4⟩
    obtain ⟨hs, ho⟩ := sanitize_opens hwf hbase hdir hp h1 h2 h3 h4
    exact (C56_codes h fs path head).2.2.mpr ⟨_, c, hs, ho⟩
  · intro q loc c h1 h2 h3 h4 hh
    obtain ⟨hs, ho⟩ := sanitize_opens hwf hbase hdir hp h1 h2 h3 h4
    subst hh
    rw [((C56_status h fs path).2 _ hs).2 c ho]

/-- Without '..' the path opened leads where the operating system is led, and nowhere if it finds nothing. -/
theorem OpensAs.plain {fs : FS} (hwf : fs.WF) {base : List Name} (hdir : fs.look base = some .dir) {rest : Bytes}
    {p : FPath} (hp : StandsFor base rest p) (hup : b!".." ∉ (parsePath rest).comps) (loc : List Name) :
    (∃ q, OpensAs fs p q ∧ base <+: q.comps ∧ fs.stat q = .ok loc) ↔ fs.stat p = .ok loc ∧ base <+: loc := by
  obtain rfl := hp.combined
  have habs := combinedPath_abs base rest
  have hreal : ∀ l, fs.stat (combinedPath base rest) = .ok l → fs.stat ⟨true, l, false⟩ = .ok l := by
    intro l hl
    rw [stat_abs fs habs] at hl
    have hr := resolve_real hwf _ _ _ _ (Real.root fs) hl
    obtain ⟨nd, hnd⟩ := hr.some
    rw [stat_abs fs rfl]
    simp only [stepsOf, Bool.false_eq_true, if_false, List.append_nil]
    rw [cutNul_id fun c hc => (hwf.names _ _ hnd c hc).noNul, resolve_root hwf _ hr]
  constructor
  · rintro ⟨q, hq, hin, hloc⟩
    rcases weaklyCanonical_spec fs ((weaklyCanonical_iff habs).mpr hq) with
      ⟨l, hl, rfl⟩ | ⟨e, P, Q, l, hloop, hst, hPQ, hP, hQ, rfl⟩
    · rw [hreal l hl] at hloc
      obtain rfl : l = loc := by simpa using hloc
      exact ⟨hl, hin⟩
    · exfalso
      refine normal_fails hwf habs hst hloop hPQ hP hQ ?_ loc (by rw [← stat_abs fs rfl]; exact hloc)
      intro hm
      have hm' : b!".." ∈ (combinedPath base rest).comps := by rw [hPQ]; simp [hm]
      rw [combinedPath] at hm'
      split at hm'
      · exact hup hm'
      · simp only [FPath.append, List.mem_append] at hm'
        rcases hm' with hm' | hm'
        · exact (hwf.names _ _ hdir _ hm').notDotDot rfl
        · exact hup hm'
  · rintro ⟨hl, hin⟩
    exact ⟨_, .found hl, hin, hreal loc hl⟩

/-- `/static/x/../home`, where there is no `x`: opened as `/srv/www/home`. -/
example : OpensAs site (parsePath b!"/srv/www/x/../home") ⟨true, [b!"srv", b!"www", b!"home"], false⟩ ∧
    (handler.handle site b!"/static/x/../home" false).body = b!"hello" := by
  refine ⟨?_, by decide +kernel⟩
  have := @OpensAs.named site (parsePath b!"/srv/www/x/../home") .noEnt [b!"srv", b!"www"] [b!"x", b!"..", b!"home"]
    [b!"srv", b!"www"] [b!"srv", b!"www", b!"home"] (by decide +kernel) rfl (by decide +kernel) (by decide +kernel)
    ?_ (.step (.up [b!"srv", b!"www"] b!"x" [b!"home"] (by decide +kernel) (by decide +kernel))
      (.done (by decide +kernel) (by decide +kernel)))
  · exact this
  · intro Q1 q Q2 h
    match Q1, h with
    | [], h => simp only [List.nil_append, List.cons.injEq] at h; rw [← h.1]; exact ⟨.noEnt, rfl, by decide +kernel⟩
    | [_], h =>
      simp only [List.cons_append, List.nil_append, List.cons.injEq] at h
      rw [← h.1, ← h.2.1]; exact ⟨.noEnt, rfl, by decide +kernel⟩
    | [_, _], h =>
      simp only [List.cons_append, List.nil_append, List.cons.injEq] at h
      rw [← h.1, ← h.2.1, ← h.2.2.1]; exact ⟨.noEnt, rfl, by decide +kernel⟩
    | _ :: _ :: _ :: _, h => simp at h

end Props
end Ion
