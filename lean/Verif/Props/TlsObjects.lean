import Verif.Lemmas.Assoc
import Verif.Model.TlsObjects

/-! # Who frees OpenSSL's objects (C109) -/

namespace Ion.Props

/-- What a program can do with `TlsTransport` objects at addresses `a`, `b`. -/
inductive TlsOp where
  | construct (a : Nat) (sslNew setFd : Bool)
  | moveConstruct (a b : Nat)
  | moveAssign (a b : Nat)
  | destroy (a : Nat)
deriving DecidableEq, Repr

/-- What the code does. -/
def TlsOp.run (s : TlsHeap) : TlsOp → TlsHeap
  | .construct a n f => s.construct a n f
  | .moveConstruct a b => s.moveConstruct a b
  | .moveAssign a b => s.moveAssign a b
  | .destroy a => s.destroy a

/-- Only live objects are used, and objects are created where there is none. -/
def TlsOp.Allowed (s : TlsHeap) : TlsOp → Prop
  | .construct a _ _ => s.objs.get a = none
  | .moveConstruct a b => s.objs.get a = none ∧ s.objs.get b ≠ none
  | .moveAssign a b => s.objs.get a ≠ none ∧ s.objs.get b ≠ none
  | .destroy a => s.objs.get a ≠ none

instance (s : TlsHeap) (op : TlsOp) : Decidable (op.Allowed s) := by
  cases op <;> unfold TlsOp.Allowed <;> infer_instance

/-- A history and the state it leads to. -/
inductive TlsHist : List TlsOp → TlsHeap → Prop
  | nil : TlsHist [] {}
  | snoc (ops : List TlsOp) (s : TlsHeap) (op : TlsOp) (h : TlsHist ops s) (ha : op.Allowed s) :
      TlsHist (ops ++ [op]) (op.run s)

/-- How many `SSL` objects the constructors in a history made. -/
def sslMade (ops : List TlsOp) : Nat :=
  (ops.filter fun | .construct _ n _ => n | _ => false).length

/-- The `SSL` object with number `p` was made by a constructor whose `SSL_set_fd` failed. -/
def Unbound (ops : List TlsOp) (p : Nat) : Prop :=
  ∃ pre a post, ops = pre ++ .construct a true false :: post ∧ sslMade pre = p

/-- Invariant; `u` are the objects of failed constructors. -/
structure TlsInv (u : Nat → Prop) (s : TlsHeap) : Prop where
  held : ∀ a p, s.objs.get a = some (some p) → p < s.made ∧ p ∉ s.freed
  uniq : ∀ a b p, s.objs.get a = some (some p) → s.objs.get b = some (some p) → a = b
  nodup : s.freed.Nodup
  lt : ∀ p ∈ s.freed, p < s.made
  owned : ∀ p, p < s.made → p ∉ s.freed → (∃ a, s.objs.get a = some (some p)) ∨ u p
  leaked : ∀ p, u p → p < s.made ∧ p ∉ s.freed ∧ ∀ a, s.objs.get a ≠ some (some p)

theorem TlsInv.free {u : Nat → Prop} {s : TlsHeap} (h : TlsInv u s) (a : Nat) (ha : s.objs.get a ≠ none) :
    TlsInv u (s.free a) ∧ (s.free a).objs.get a = some none ∧ (s.free a).made = s.made ∧
      ∀ b, b ≠ a → (s.free a).objs.get b = s.objs.get b := by
  rw [TlsHeap.free]
  rcases hg : s.objs.get a with _ | _ | p
  · exact absurd hg ha
  · exact ⟨h, hg, rfl, fun _ _ => rfl⟩
  · obtain ⟨h1, h2, h3, h4, h5, h6⟩ := h
    refine ⟨⟨?_, ?_, ?_, ?_, ?_, ?_⟩, by simp, rfl, fun b hb => by simp [Assoc.get_put_ne _ _ hb]⟩
    · intro b q hb
      simp only [Assoc.get_put] at hb
      grind
    · intro b c q hb hc
      simp only [Assoc.get_put] at hb hc
      grind
    · simp only [List.nodup_cons]
      exact ⟨(h1 a p hg).2, h3⟩
    · intro q hq
      simp only [List.mem_cons] at hq
      grind
    · intro q hq hf
      simp only [List.mem_cons, not_or] at hf
      rcases h5 q hq hf.2 with ⟨b, hb⟩ | hu
      · refine .inl ⟨b, ?_⟩
        simp only [Assoc.get_put]
        grind
      · exact .inr hu
    · intro q hq
      obtain ⟨k1, k2, k3⟩ := h6 q hq
      refine ⟨k1, ?_, fun b => ?_⟩
      · simp only [List.mem_cons]
        grind
      · simp only [Assoc.get_put]
        grind

theorem TlsInv.transfer {u : Nat → Prop} {s : TlsHeap} (h : TlsInv u s) (a b : Nat) (hab : a ≠ b)
    (ha : ∀ p, s.objs.get a ≠ some (some p)) :
    TlsInv u { s with objs := (s.objs.put a ((s.objs.get b).getD none)).put b none } := by
  obtain ⟨h1, h2, h3, h4, h5, h6⟩ := h
  have key : ∀ x p, Assoc.get ((s.objs.put a ((s.objs.get b).getD none)).put b none) x = some (some p) ↔
      (x = a ∧ s.objs.get b = some (some p)) ∨ (x ≠ a ∧ x ≠ b ∧ s.objs.get x = some (some p)) := by
    intro x p
    simp only [Assoc.get_put]
    rcases s.objs.get b with _ | _ | _ <;> grind
  refine ⟨?_, ?_, h3, h4, ?_, ?_⟩
  · intro x p hx
    rw [key] at hx
    grind
  · intro x y p hx hy
    rw [key] at hx hy
    grind
  · intro p hp hf
    rcases h5 p hp hf with ⟨x, hx⟩ | hu
    · refine .inl ?_
      by_cases hxb : x = b
      · exact ⟨a, (key a p).mpr (by grind)⟩
      · exact ⟨x, (key x p).mpr (by grind)⟩
    · exact .inr hu
  · intro p hu
    obtain ⟨k1, k2, k3⟩ := h6 p hu
    refine ⟨k1, k2, fun x => ?_⟩
    rw [ne_eq, key]
    grind

theorem TlsInv.del {u : Nat → Prop} {s : TlsHeap} (h : TlsInv u s) (a : Nat)
    (ha : ∀ p, s.objs.get a ≠ some (some p)) : TlsInv u { s with objs := s.objs.del a } := by
  obtain ⟨h1, h2, h3, h4, h5, h6⟩ := h
  have key : ∀ x p, Assoc.get (s.objs.del a) x = some (some p) ↔ s.objs.get x = some (some p) := by
    intro x p
    simp only [Assoc.get_del]
    grind
  refine ⟨?_, ?_, h3, h4, ?_, ?_⟩
  · intro x p hx
    exact h1 x p ((key x p).mp hx)
  · intro x y p hx hy
    exact h2 x y p ((key x p).mp hx) ((key y p).mp hy)
  · intro p hp hf
    rcases h5 p hp hf with ⟨x, hx⟩ | hu
    · exact .inl ⟨x, (key x p).mpr hx⟩
    · exact .inr hu
  · intro p hu
    obtain ⟨k1, k2, k3⟩ := h6 p hu
    exact ⟨k1, k2, fun x hx => k3 x ((key x p).mp hx)⟩

theorem unbound_snoc (ops : List TlsOp) (op : TlsOp) (p : Nat) :
    Unbound (ops ++ [op]) p ↔ Unbound ops p ∨ (∃ a, op = .construct a true false) ∧ p = sslMade ops := by
  constructor
  · rintro ⟨pre, a, post, e, h⟩
    rcases List.eq_nil_or_concat post with rfl | ⟨post, y, rfl⟩
    · obtain ⟨rfl, e2⟩ := List.append_inj' e rfl
      cases e2
      exact .inr ⟨⟨a, rfl⟩, h.symm⟩
    · have e' : ops ++ [op] = (pre ++ TlsOp.construct a true false :: post) ++ [y] := by rw [e]; simp
      obtain ⟨rfl, -⟩ := List.append_inj' e' rfl
      exact .inl ⟨pre, a, post, rfl, h⟩
  · rintro (⟨pre, a, post, rfl, h⟩ | ⟨⟨a, rfl⟩, rfl⟩)
    · exact ⟨pre, a, post ++ [op], by simp, h⟩
    · exact ⟨ops, a, [], rfl, rfl⟩

theorem TlsHist.inv {ops : List TlsOp} {s : TlsHeap} (h : TlsHist ops s) :
    TlsInv (Unbound ops) s ∧ s.made = sslMade ops := by
  induction h with
  | nil =>
    refine ⟨⟨by simp [Assoc.get], by simp [Assoc.get], by simp, by simp, by simp, ?_⟩, rfl⟩
    rintro p ⟨pre, a, post, e, -⟩
    simp at e
  | snoc ops s op h ha ih =>
    obtain ⟨hi, hm⟩ := ih
    cases op with
    | construct a n f =>
      simp only [TlsOp.Allowed] at ha
      rcases n with _ | _
      · have hu : Unbound (ops ++ [.construct a false f]) = Unbound ops := by
          funext p
          rw [unbound_snoc]
          simp
        rw [hu]
        refine ⟨hi, ?_⟩
        rw [sslMade, List.filter_append, List.length_append]
        exact hm
      · have hmade : s.made + 1 = sslMade (ops ++ [.construct a true f]) := by
          rw [sslMade, List.filter_append, List.length_append, hm]
          rfl
        obtain ⟨h1, h2, h3, h4, h5, h6⟩ := hi
        rcases f with _ | _
        · refine ⟨⟨?_, h2, h3, ?_, ?_, ?_⟩, hmade⟩
          · intro x p hx
            have := h1 x p hx
            exact ⟨Nat.lt_succ_of_lt this.1, this.2⟩
          · intro p hp
            exact Nat.lt_succ_of_lt (h4 p hp)
          · intro p hp hf
            rw [unbound_snoc]
            rcases Nat.lt_or_ge p s.made with hlt | hge
            · rcases h5 p hlt hf with hx | hx
              · exact .inl hx
              · exact .inr (.inl hx)
            · refine .inr (.inr ⟨⟨a, rfl⟩, ?_⟩)
              have : p < s.made + 1 := hp
              omega
          · intro p hp
            rw [unbound_snoc] at hp
            rcases hp with hp | ⟨-, hp⟩
            · obtain ⟨k1, k2, k3⟩ := h6 p hp
              exact ⟨Nat.lt_succ_of_lt k1, k2, k3⟩
            · rw [← hm] at hp
              subst hp
              refine ⟨Nat.lt_succ_self _, fun hf => Nat.lt_irrefl _ (h4 _ hf), fun x hx => ?_⟩
              exact Nat.lt_irrefl _ (h1 x _ hx).1
        · have hu : Unbound (ops ++ [.construct a true true]) = Unbound ops := by
            funext p
            rw [unbound_snoc]
            simp
          rw [hu]
          have key : ∀ x p, Assoc.get (s.objs.put a (some s.made)) x = some (some p) ↔
              (x = a ∧ p = s.made) ∨ (x ≠ a ∧ s.objs.get x = some (some p)) := by
            intro x p
            simp only [Assoc.get_put]
            grind
          refine ⟨⟨?_, ?_, h3, ?_, ?_, ?_⟩, hmade⟩
          · intro x p hx
            rcases (key x p).mp hx with ⟨-, rfl⟩ | ⟨-, hx⟩
            · exact ⟨Nat.lt_succ_self _, fun hf => Nat.lt_irrefl _ (h4 _ hf)⟩
            · exact ⟨Nat.lt_succ_of_lt (h1 x p hx).1, (h1 x p hx).2⟩
          · intro x y p hx hy
            rcases (key x p).mp hx with ⟨e1, e⟩ | ⟨-, hx⟩ <;> rcases (key y p).mp hy with ⟨e2, e'⟩ | ⟨-, hy⟩
            · rw [e1, e2]
            · exact absurd (h1 _ _ hy).1 (by omega)
            · exact absurd (h1 _ _ hx).1 (by omega)
            · exact h2 x y p hx hy
          · intro p hp
            exact Nat.lt_succ_of_lt (h4 p hp)
          · intro p hp hf
            rcases Nat.lt_or_ge p s.made with hlt | hge
            · rcases h5 p hlt hf with ⟨x, hx⟩ | hx
              · exact .inl ⟨x, (key x p).mpr (.inr ⟨fun e => (by rw [e, ha] at hx; cases hx), hx⟩)⟩
              · exact .inr hx
            · have : p < s.made + 1 := hp
              exact .inl ⟨a, (key a p).mpr (.inl ⟨rfl, by omega⟩)⟩
          · intro p hp
            obtain ⟨k1, k2, k3⟩ := h6 p hp
            refine ⟨Nat.lt_succ_of_lt k1, k2, fun x hx => ?_⟩
            rcases (key x p).mp hx with ⟨-, rfl⟩ | ⟨-, hx⟩
            · exact Nat.lt_irrefl _ k1
            · exact k3 x hx
    | moveConstruct a b =>
      have hu : Unbound (ops ++ [.moveConstruct a b]) = Unbound ops := by
        funext p; rw [unbound_snoc]; simp
      rw [hu]
      obtain ⟨ha, hb⟩ := ha
      refine ⟨hi.transfer a b (fun e => hb (e ▸ ha)) (fun p hp => by rw [ha] at hp; cases hp), ?_⟩
      rw [sslMade, List.filter_append, List.length_append]
      exact hm
    | moveAssign a b =>
      have hu : Unbound (ops ++ [.moveAssign a b]) = Unbound ops := by
        funext p; rw [unbound_snoc]; simp
      rw [hu]
      obtain ⟨ha, hb⟩ := ha
      have hmade : sslMade (ops ++ [.moveAssign a b]) = sslMade ops := by
        rw [sslMade, List.filter_append, List.length_append]
        rfl
      rw [hmade, TlsOp.run, TlsHeap.moveAssign]
      by_cases hab : a = b
      · rw [if_pos hab]
        exact ⟨hi, hm⟩
      · rw [if_neg hab]
        obtain ⟨k1, k2, k3, -⟩ := hi.free a ha
        exact ⟨k1.transfer a b hab (fun p hp => by rw [k2] at hp; cases hp), by rw [← hm, ← k3]⟩
    | destroy a =>
      have hu : Unbound (ops ++ [.destroy a]) = Unbound ops := by
        funext p; rw [unbound_snoc]; simp
      rw [hu]
      have hmade : sslMade (ops ++ [.destroy a]) = sslMade ops := by
        rw [sslMade, List.filter_append, List.length_append]
        rfl
      obtain ⟨k1, k2, k3, -⟩ := hi.free a ha
      rw [hmade, TlsOp.run, TlsHeap.destroy]
      exact ⟨k1.del a (fun p hp => by rw [k2] at hp; cases hp), by rw [← hm, ← k3]⟩

/-- C109, "every `SSL` object is freed exactly once, and none is left when its transport is gone", refuted: if
`SSL_set_fd` fails the constructor throws; there is no object whose destructor would free it. -/
theorem C109_refuted : ∃ ops s, TlsHist ops s ∧ s.objs = [] ∧ s.made = 1 ∧ s.freed = [] :=
  ⟨[.construct 0 true false], _, .snoc [] {} _ .nil rfl, rfl, rfl, rfl⟩

/-- C109, what holds: no `SSL` object is freed twice; those that transports hold have not been freed, and no two
transports hold the same; those that are neither freed nor held are those of constructors whose `SSL_set_fd`
failed, which are never freed. -/
theorem C109_owned_partial (ops : List TlsOp) (s : TlsHeap) (h : TlsHist ops s) :
    s.freed.Nodup ∧
    (∀ a p, s.objs.get a = some (some p) → p < sslMade ops ∧ p ∉ s.freed) ∧
    (∀ a b p, s.objs.get a = some (some p) → s.objs.get b = some (some p) → a = b) ∧
    (∀ p, p ∈ s.freed ∨ (∃ a, s.objs.get a = some (some p)) ∨ Unbound ops p ↔ p < sslMade ops) ∧
    (∀ p, Unbound ops p → p ∉ s.freed ∧ ∀ a, s.objs.get a ≠ some (some p)) := by
  obtain ⟨hi, hm⟩ := h.inv
  rw [← hm]
  refine ⟨hi.nodup, hi.held, hi.uniq, fun p => ⟨?_, fun hp => ?_⟩, fun p hp => (hi.leaked p hp).2⟩
  · rintro (h | ⟨a, h⟩ | h)
    · exact hi.lt p h
    · exact (hi.held a p h).1
    · exact (hi.leaked p h).1
  · by_cases hf : p ∈ s.freed
    · exact .inl hf
    · exact .inr (hi.owned p hp hf)

/-- Transports that are moved and assigned to. -/
example : ∃ s, TlsHist [.construct 0 true true, .construct 1 true true, .moveConstruct 2 0, .moveAssign 1 2,
    .destroy 0, .destroy 1] s ∧ s.freed = [0, 1] ∧ s.objs = [(2, none)] := by
  refine ⟨_, .snoc _ _ _ (.snoc _ _ _ (.snoc _ _ _ (.snoc _ _ _ (.snoc _ _ _ (.snoc [] _ _ .nil ?_) ?_) ?_) ?_) ?_) ?_,
    ?_, ?_⟩ <;> decide

/-- C109, contexts: the constructor fails as `tlsContext` says; the `SSL_CTX`, if one is made, is freed once, and
after it was made. -/
theorem C109_context (fs : FS) (ssl : SslFiles) (cert key : Bytes) :
    (tlsContextEvents fs ssl cert key).1 = tlsContext fs ssl cert key ∧
    (tlsContextLife fs ssl cert key = [] ∨ tlsContextLife fs ssl cert key = [.made, .freed]) ∧
    (tlsContext fs ssl cert key = .ok () → CtxEvent.freed ∉ (tlsContextEvents fs ssl cert key).2) := by
  unfold tlsContextLife tlsContextEvents tlsContext
  cases fs.exists cert <;> cases fs.exists key <;> cases ssl.ctxNew <;> cases ssl.useCertificate cert <;>
    cases ssl.usePrivateKey key <;> cases ssl.keyMatches cert key <;> simp

end Ion.Props
