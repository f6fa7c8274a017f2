import Verif.Lemmas.Assoc
import Verif.Model.SocketFd

/-! # Socket ownership (C65) -/

namespace Ion.Props

/-- What a program can do with `SocketFd` objects at addresses `a`, `b`. -/
inductive SockOp where
  | construct (a : Nat) (fd : Option Nat)
  | moveConstruct (a b : Nat)
  | moveAssign (a b : Nat)
  | close (a : Nat)
  | destroy (a : Nat)
deriving DecidableEq, Repr

/-- What the code does. -/
def SockOp.run (s : Sockets) : SockOp → Sockets
  | .construct a fd => s.construct a fd
  | .moveConstruct a b => s.moveConstruct a b
  | .moveAssign a b => s.moveAssign a b
  | .close a => s.close a
  | .destroy a => s.destroy a

/-- Operations C++ and the kernel allow: only live objects are used, objects are created where there is
none, and a descriptor handed out is not in use. -/
def SockOp.Allowed (s : Sockets) : SockOp → Prop
  | .construct a fd => s.objs.get a = none ∧ ∀ n, fd = some n → s.os.files.get n = none
  | .moveConstruct a b => s.objs.get a = none ∧ s.objs.get b ≠ none
  | .moveAssign a b => s.objs.get a ≠ none ∧ s.objs.get b ≠ none
  | .close a => s.objs.get a ≠ none
  | .destroy a => s.objs.get a ≠ none

/-- A history and the state it leads to. -/
inductive SockHist : List SockOp → Sockets → Prop
  | nil : SockHist [] {}
  | snoc (ops : List SockOp) (s : Sockets) (op : SockOp) (h : SockHist ops s) (ha : op.Allowed s) :
      SockHist (ops ++ [op]) (op.run s)

/-! Specification: objects own files (not descriptor numbers). -/

/-- Which object owns which file (`none`: there is no such object; `some none`: it owns nothing), how many
files there have been, how often each has been closed. -/
structure Owners where
  owns : Nat → Option (Option Nat) := fun _ => none
  made : Nat := 0
  closes : Nat → Nat := fun _ => 0

/-- Changes a function at one point. -/
def upd {α : Type} (f : Nat → α) (k : Nat) (v : α) : Nat → α := fun x => if x = k then v else f x

/-- The file of an object, if any, is closed. -/
def Owners.closeOf (o : Owners) (a : Nat) : Nat → Nat :=
  match o.owns a with
  | some (some f) => upd o.closes f (o.closes f + 1)
  | _ => o.closes

/-- What ownership semantics asks of each operation: moves transfer, overwriting, closing and destroying
close what was owned. -/
def Owners.step (o : Owners) : SockOp → Owners
  | .construct a none => { o with owns := upd o.owns a (some none) }
  | .construct a (some _) => { o with owns := upd o.owns a (some (some o.made)), made := o.made + 1 }
  | .moveConstruct a b => { o with owns := upd (upd o.owns a (o.owns b)) b (some none) }
  | .moveAssign a b =>
    if a = b then o
    else
      { o with owns := upd (upd o.owns a (o.owns b)) b (some none), closes := o.closeOf a }
  | .close a => { o with owns := upd o.owns a (some none), closes := o.closeOf a }
  | .destroy a => { o with owns := upd o.owns a none, closes := o.closeOf a }

/-- The ownership after a history. -/
def owners (ops : List SockOp) : Owners := ops.foldl Owners.step {}

/-- The file an object's descriptor refers to. -/
def Sockets.fileOf (s : Sockets) (a : Nat) : Option (Option Nat) :=
  match s.objs.get a with
  | none => none
  | some none => some none
  | some (some fd) => some (s.os.files.get fd)

/-- Invariant. -/
structure SockInv (s : Sockets) (o : Owners) : Prop where
  owns : ∀ a, match s.objs.get a with
    | none => o.owns a = none
    | some none => o.owns a = some none
    | some (some fd) => ∃ f, s.os.files.get fd = some f ∧ o.owns a = some (some f)
  uniq : ∀ a b fd, s.objs.get a = some (some fd) → s.objs.get b = some (some fd) → a = b
  owned : ∀ fd f, s.os.files.get fd = some f → ∃ a, s.objs.get a = some (some fd)
  bad : s.os.bad = 0
  next : s.os.next = o.made
  lt : ∀ fd f, s.os.files.get fd = some f → f < s.os.next
  inj : ∀ fd fd' f, s.os.files.get fd = some f → s.os.files.get fd' = some f → fd = fd'
  closes : ∀ f, s.os.closed.count f = o.closes f
  held : ∀ fd f, s.os.files.get fd = some f → o.closes f = 0
  gone : ∀ f, f < s.os.next → (∀ fd, s.os.files.get fd ≠ some f) → o.closes f = 1
  fresh : ∀ f, s.os.next ≤ f → o.closes f = 0

theorem SockInv.close {s : Sockets} {o : Owners} (h : SockInv s o) (a : Nat)
    (ha : s.objs.get a ≠ none) :
    SockInv (s.close a) { o with owns := upd o.owns a (some none), closes := o.closeOf a } := by
  rw [Sockets.close]
  rcases hg : s.objs.get a with _ | _ | fd
  · exact absurd hg ha
  · have ho := h.owns a
    simp only [hg] at ho
    have e1 : upd o.owns a (some none) = o.owns := by
      funext x
      simp only [upd]
      split
      · rename_i hx; rw [hx, ho]
      · rfl
    have e2 : o.closeOf a = o.closes := by simp [Owners.closeOf, ho]
    rw [e1, e2]
    exact h
  · have ho := h.owns a
    simp only [hg] at ho
    obtain ⟨f, hf, ho⟩ := ho
    have e2 : o.closeOf a = upd o.closes f (o.closes f + 1) := by simp [Owners.closeOf, ho]
    rw [e2]
    simp only [Os.close, hf]
    have hz : o.closes f = 0 := h.held fd f hf
    refine ⟨?_, ?_, ?_, h.bad, h.next, ?_, ?_, ?_, ?_, ?_, ?_⟩
    · intro b
      simp only [Assoc.get_put]
      by_cases hb : b = a
      · simp [hb, upd]
      · have := h.owns b
        simp only [hb, if_false, upd]
        rcases hg' : s.objs.get b with _ | _ | fd'
        · simpa [hg'] using this
        · simpa [hg'] using this
        · simp only [hg'] at this ⊢
          obtain ⟨f', h1, h2⟩ := this
          have hne : fd' ≠ fd := by
            rintro rfl
            exact hb (h.uniq _ _ _ hg' hg)
          exact ⟨f', by rw [Assoc.get_del_ne _ hne]; exact h1, h2⟩
    · intro b c fd' hb hc
      simp only [Assoc.get_put] at hb hc
      split at hb
      · cases hb
      · split at hc
        · cases hc
        · exact h.uniq _ _ _ hb hc
    · intro fd' f' hf'
      simp only [Assoc.get_del] at hf'
      split at hf'
      · cases hf'
      · rename_i hne
        obtain ⟨b, hb⟩ := h.owned _ _ hf'
        refine ⟨b, ?_⟩
        simp only [Assoc.get_put]
        rw [if_neg]
        · exact hb
        · rintro rfl
          rw [hg] at hb
          cases hb
          exact hne rfl
    · intro fd' f' hf'
      simp only [Assoc.get_del] at hf'
      split at hf'
      · cases hf'
      · exact h.lt _ _ hf'
    · intro fd' fd'' f' h1 h2
      simp only [Assoc.get_del] at h1 h2
      split at h1
      · cases h1
      · split at h2
        · cases h2
        · exact h.inj _ _ _ h1 h2
    · intro f'
      simp only [List.count_cons, upd, h.closes]
      by_cases he : f' = f
      · simp [he]
      · have : (f == f') = false := by simp; exact fun x => he x.symm
        simp [he, this]
    · intro fd' f' hf'
      simp only [Assoc.get_del] at hf'
      split at hf'
      · cases hf'
      · rename_i hne
        simp only [upd]
        rw [if_neg]
        · exact h.held _ _ hf'
        · rintro rfl
          exact hne (h.inj _ _ _ hf' hf)
    · intro f' h1 h2
      simp only [upd]
      by_cases he : f' = f
      · rw [if_pos he, hz]
      · rw [if_neg he]
        refine h.gone f' h1 fun fd' hx => ?_
        have := h2 fd'
        simp only [Assoc.get_del] at this
        split at this
        · rename_i hfd
          rw [hfd, hf] at hx
          exact he (Option.some.inj hx).symm
        · exact this hx
    · intro f' h1
      simp only [upd]
      rw [if_neg]
      · exact h.fresh f' h1
      · rintro rfl
        have := h.lt _ _ hf
        simp only at h1
        omega

/-- Transfer of what `b` holds to `a`, which holds nothing. -/
theorem SockInv.transfer {s : Sockets} {o : Owners} (h : SockInv s o) {a b : Nat} (hab : a ≠ b)
    (hb : s.objs.get b ≠ none) (ha : s.objs.get a = none ∨ s.objs.get a = some none) :
    SockInv { s with objs := (s.objs.put a ((s.objs.get b).getD none)).put b none }
      { o with owns := upd (upd o.owns a (o.owns b)) b (some none) } := by
  obtain ⟨v, hv⟩ : ∃ v, s.objs.get b = some v := by
    rcases hx : s.objs.get b with _ | v
    · exact absurd hx hb
    · exact ⟨v, rfl⟩
  have hget : ∀ x, ((s.objs.put a v).put b none).get x =
      if x = b then some none else if x = a then some v else s.objs.get x := by
    intro x
    rw [Assoc.get_put, Assoc.get_put]
  simp only [hv, Option.getD_some]
  refine ⟨?_, ?_, ?_, h.bad, h.next, h.lt, h.inj, h.closes, h.held, h.gone, h.fresh⟩
  · intro x
    simp only [hget, upd]
    by_cases hxb : x = b
    · simp [hxb]
    · by_cases hxa : x = a
      · have := h.owns b
        simp only [hv] at this
        simp only [hxa, hab, if_false, if_true]
        rcases v with _ | fd
        · exact this
        · exact this
      · have := h.owns x
        simp only [hxa, hxb, if_false]
        exact this
  · have hnot : ∀ x fd, s.objs.get x = some (some fd) → x ≠ a := by
      rintro x fd hx rfl
      rcases ha with ha | ha <;> rw [ha] at hx <;> cases hx
    intro x y fd hx hy
    simp only [hget] at hx hy
    split at hx
    · cases hx
    · split at hy
      · cases hy
      · rename_i hxb hyb
        split at hx
        · rename_i hxa
          split at hy
          · rename_i hya
            rw [hxa, hya]
          · have := h.uniq b y fd (by rw [hv, Option.some.inj hx]) hy
            exact absurd this.symm hyb
        · split at hy
          · have := h.uniq b x fd (by rw [hv, Option.some.inj hy]) hx
            exact absurd this.symm hxb
          · exact h.uniq _ _ _ hx hy
  · intro fd f hf
    obtain ⟨c, hc⟩ := h.owned _ _ hf
    by_cases hcb : c = b
    · refine ⟨a, ?_⟩
      simp only [hget]
      rw [if_neg hab]
      simp only [if_true]
      rw [← hc, hcb, hv]
    · refine ⟨c, ?_⟩
      have hca : c ≠ a := by
        rintro rfl
        rcases ha with ha | ha <;> rw [ha] at hc <;> cases hc
      simp only [hget]
      rw [if_neg hcb, if_neg hca, hc]

theorem SockInv.step {s : Sockets} {o : Owners} (h : SockInv s o) {op : SockOp}
    (ha : op.Allowed s) : SockInv (op.run s) (o.step op) := by
  cases op with
  | construct a fd =>
    obtain ⟨hn, hfd⟩ := ha
    have hno := h.owns a
    simp only [hn] at hno
    cases fd with
    | none =>
      simp only [SockOp.run, Sockets.construct, Owners.step]
      refine ⟨?_, ?_, ?_, h.bad, h.next, h.lt, h.inj, h.closes, h.held, h.gone, h.fresh⟩
      · intro x
        simp only [Assoc.get_put, upd]
        by_cases hx : x = a
        · simp [hx]
        · simp only [hx, if_false]
          exact h.owns x
      · intro x y fd hx hy
        simp only [Assoc.get_put] at hx hy
        split at hx
        · cases hx
        · split at hy
          · cases hy
          · exact h.uniq _ _ _ hx hy
      · intro fd f hf
        obtain ⟨c, hc⟩ := h.owned _ _ hf
        refine ⟨c, ?_⟩
        simp only [Assoc.get_put]
        rw [if_neg]
        · exact hc
        · rintro rfl
          rw [hn] at hc
          cases hc
    | some n =>
      have hfree := hfd n rfl
      simp only [SockOp.run, Sockets.construct, Owners.step, Os.install]
      refine ⟨?_, ?_, ?_, h.bad, by simp [h.next], ?_, ?_, h.closes, ?_, ?_, ?_⟩
      · intro x
        simp only [Assoc.get_put, upd]
        by_cases hx : x = a
        · simp [hx, h.next]
        · simp only [hx, if_false]
          have := h.owns x
          rcases hg : s.objs.get x with _ | _ | fd
          · simpa [hg] using this
          · simpa [hg] using this
          · simp only [hg] at this ⊢
            obtain ⟨f, h1, h2⟩ := this
            refine ⟨f, ?_, h2⟩
            rw [if_neg]
            · exact h1
            · rintro rfl
              rw [hfree] at h1
              cases h1
      · have hx' : ∀ x fd, s.objs.get x = some (some fd) → fd ≠ n := by
          rintro x fd hx rfl
          have := h.owns x
          simp only [hx] at this
          obtain ⟨f, h1, _⟩ := this
          rw [hfree] at h1
          cases h1
        intro x y fd hx hy
        simp only [Assoc.get_put] at hx hy
        split at hx
        · rename_i hxa
          split at hy
          · rename_i hya
            rw [hxa, hya]
          · cases hx
            exact absurd rfl (hx' _ _ hy)
        · split at hy
          · cases hy
            exact absurd rfl (hx' _ _ hx)
          · exact h.uniq _ _ _ hx hy
      · intro fd f hf
        simp only [Assoc.get_put] at hf
        split at hf
        · rename_i hfn
          exact ⟨a, by simp [hfn]⟩
        · obtain ⟨c, hc⟩ := h.owned _ _ hf
          refine ⟨c, ?_⟩
          simp only [Assoc.get_put]
          rw [if_neg]
          · exact hc
          · rintro rfl
            rw [hn] at hc
            cases hc
      · intro fd f hf
        simp only [Assoc.get_put] at hf
        split at hf
        · cases hf
          simp
        · have := h.lt _ _ hf
          simp only
          omega
      · intro fd fd' f h1 h2
        simp only [Assoc.get_put] at h1 h2
        split at h1
        · split at h2
          · simp_all
          · cases h1
            have := h.lt _ _ h2
            omega
        · split at h2
          · cases h2
            have := h.lt _ _ h1
            omega
          · exact h.inj _ _ _ h1 h2
      · intro fd f hf
        simp only [Assoc.get_put] at hf
        split at hf
        · cases hf
          exact h.fresh _ (Nat.le_refl _)
        · exact h.held _ _ hf
      · intro f h1 h2
        simp only at h1
        have hne : f ≠ s.os.next := by
          rintro rfl
          exact h2 n (by simp)
        refine h.gone f (by omega) fun fd hx => ?_
        apply h2 fd
        simp only
        rw [Assoc.get_put, if_neg]
        · exact hx
        · rintro rfl
          rw [hfree] at hx
          cases hx
      · intro f h1
        simp only at h1
        exact h.fresh f (by omega)
  | moveConstruct a b =>
    obtain ⟨h1, h2⟩ := ha
    have hab : a ≠ b := by
      rintro rfl
      exact h2 h1
    exact h.transfer hab h2 (.inl h1)
  | moveAssign a b =>
    obtain ⟨h1, h2⟩ := ha
    simp only [SockOp.run, Sockets.moveAssign, Owners.step]
    by_cases hab : a = b
    · simp [hab, h]
    · rw [if_pos hab, if_neg hab]
      have hc := h.close a h1
      have hgb : (s.close a).objs.get b = s.objs.get b := by
        rw [Sockets.close]
        split
        · simp only
          rw [Assoc.get_put_ne]
          exact fun x => hab x.symm
        · rfl
      have hga : (s.close a).objs.get a = some none := by
        rw [Sockets.close]
        split
        · simp
        · rename_i hx
          rcases hg : s.objs.get a with _ | _ | fd
          · exact absurd hg h1
          · rfl
          · exact absurd hg (hx fd)
      have ht := hc.transfer hab (by rw [hgb]; exact h2) (.inr hga)
      have hu : upd o.owns a (some none) b = o.owns b := by
        simp only [upd]
        rw [if_neg (fun x => hab x.symm)]
      simp only [hu] at ht
      have he : upd (upd (upd o.owns a (some none)) a (o.owns b)) b (some none) =
          upd (upd o.owns a (o.owns b)) b (some none) := by
        funext x
        simp only [upd]
        split
        · rfl
        · split <;> simp_all
      rw [he] at ht
      exact ht
  | close a => exact h.close a ha
  | destroy a =>
    have hc := h.close a ha
    simp only [SockOp.run, Sockets.destroy, Owners.step]
    have hga : (s.close a).objs.get a = some none := by
      rw [Sockets.close]
      split
      · simp
      · rename_i hx
        rcases hg : s.objs.get a with _ | _ | fd
        · exact absurd hg ha
        · rfl
        · exact absurd hg (hx fd)
    refine ⟨?_, ?_, ?_, hc.bad, hc.next, hc.lt, hc.inj, hc.closes, hc.held, hc.gone, hc.fresh⟩
    · intro x
      simp only [Assoc.get_del, upd]
      by_cases hx : x = a
      · simp [hx]
      · simp only [hx, if_false]
        have := hc.owns x
        simp only [upd, hx, if_false] at this
        exact this
    · intro x y fd hx hy
      simp only [Assoc.get_del] at hx hy
      split at hx
      · cases hx
      · split at hy
        · cases hy
        · exact hc.uniq _ _ _ hx hy
    · intro fd f hf
      obtain ⟨c, hcc⟩ := hc.owned _ _ hf
      refine ⟨c, ?_⟩
      simp only [Assoc.get_del]
      rw [if_neg]
      · exact hcc
      · rintro rfl
        rw [hga] at hcc
        cases hcc

theorem SockHist.inv {ops : List SockOp} {s : Sockets} (h : SockHist ops s) :
    SockInv s (owners ops) := by
  induction h with
  | nil =>
    refine ⟨fun a => ?_, ?_, ?_, rfl, rfl, ?_, ?_, fun f => rfl, ?_, ?_, ?_⟩ <;>
      simp [Assoc.get, owners]
  | snoc ops s op _ ha ih =>
    rw [owners, List.foldl_append]
    exact ih.step ha

/-- C65: after any history of construction, move construction, move assignment (self-assignment too),
closing and destruction: every object's descriptor refers to exactly the file that ownership semantics
says it owns, even if descriptor numbers were reused; no descriptor was closed that was not open; each
file was closed exactly as often as ownership semantics says, which is once if no live object owns it and
never otherwise. -/
theorem C65_ownership {ops : List SockOp} {s : Sockets} (h : SockHist ops s) :
    (∀ a, Sockets.fileOf s a = (owners ops).owns a) ∧ s.os.bad = 0 ∧
    (∀ f, s.os.closed.count f = (owners ops).closes f) ∧
    ∀ f, f < (owners ops).made →
      ((∃ a, (owners ops).owns a = some (some f)) → s.os.closed.count f = 0) ∧
      ((¬∃ a, (owners ops).owns a = some (some f)) → s.os.closed.count f = 1) := by
  have hi := h.inv
  have hown : ∀ a, Sockets.fileOf s a = (owners ops).owns a := by
    intro a
    have := hi.owns a
    rw [Sockets.fileOf]
    rcases hg : s.objs.get a with _ | _ | fd
    · simp only [hg] at this
      exact this.symm
    · simp only [hg] at this
      exact this.symm
    · simp only [hg] at this
      obtain ⟨f, h1, h2⟩ := this
      simp [h1, h2]
  refine ⟨hown, hi.bad, hi.closes, fun f hf => ?_⟩
  rw [hi.closes]
  constructor
  · rintro ⟨a, ha⟩
    rw [← hown, Sockets.fileOf] at ha
    split at ha
    · cases ha
    · cases ha
    · exact hi.held _ _ (Option.some.inj ha)
  · intro hx
    refine hi.gone f (by rw [hi.next]; exact hf) fun fd hy => hx ?_
    obtain ⟨a, ha⟩ := hi.owned _ _ hy
    exact ⟨a, by rw [← hown, Sockets.fileOf, ha]; simp [hy]⟩

/-- When all objects are gone every file was closed, exactly once. -/
theorem C65_none_left {ops : List SockOp} {s : Sockets} (h : SockHist ops s)
    (hd : ∀ a, s.objs.get a = none) (f : Nat) (hf : f < (owners ops).made) :
    s.os.closed.count f = 1 := by
  refine ((C65_ownership h).2.2.2 f hf).2 ?_
  rintro ⟨a, ha⟩
  rw [← (C65_ownership h).1, Sockets.fileOf, hd] at ha
  cases ha

/-- A history in which a descriptor number is reused, an object is assigned over, moved from and
assigned to itself: three files, the first closed by the assignment. -/
def exSockOps : List SockOp :=
  [.construct 0 (some 5), .construct 1 (some 6), .moveAssign 0 1, .construct 2 (some 5),
   .moveConstruct 3 2, .moveAssign 3 3, .destroy 2]

theorem exSockHist : ∃ s, SockHist exSockOps s ∧ s.objs.get 3 = some (some 5) := by
  have h0 := SockHist.nil
  have h1 := SockHist.snoc _ _ (.construct 0 (some 5)) h0 (by
    constructor
    · decide
    · intro n _; rfl)
  have h2 := SockHist.snoc _ _ (.construct 1 (some 6)) h1 (by
    constructor
    · decide
    · intro n hn; cases hn; decide)
  have h3 := SockHist.snoc _ _ (.moveAssign 0 1) h2 (by constructor <;> decide)
  have h4 := SockHist.snoc _ _ (.construct 2 (some 5)) h3 (by
    constructor
    · decide
    · intro n hn; cases hn; decide)
  have h5 := SockHist.snoc _ _ (.moveConstruct 3 2) h4 (by constructor <;> decide)
  have h6 := SockHist.snoc _ _ (.moveAssign 3 3) h5 (by constructor <;> decide)
  have h7 := SockHist.snoc _ _ (.destroy 2) h6 (by simp only [SockOp.Allowed]; decide)
  exact ⟨_, h7, by decide⟩

/-- There the first file is closed, the other two are owned by objects 0 and 3. -/
example : ∃ s, SockHist exSockOps s ∧ s.os.closed.count 0 = 1 ∧ s.os.closed.count 1 = 0 ∧
    Sockets.fileOf s 3 = some (some 2) := by
  obtain ⟨s, h, _⟩ := exSockHist
  refine ⟨s, h, ?_, ?_, ?_⟩
  · rw [(C65_ownership h).2.2.1]; decide
  · rw [(C65_ownership h).2.2.1]; decide
  · rw [(C65_ownership h).1]; decide

end Ion.Props
