import Verif.Model.Connection

/-!
# Specification: responses
-/

namespace Ion.Spec

/-- `bs` is the decimal notation of `n`: ASCII digits with that value and no leading zero. -/
def IsDecimal (n : Nat) (bs : Bytes) : Prop :=
  bs ≠ [] ∧ (∀ b ∈ bs, 48 ≤ b.toNat ∧ b.toNat ≤ 57) ∧
    bs.foldl (fun v b => v * 10 + (b.toNat - 48)) 0 = n ∧ (bs.head? = some 48 → bs = [48])

/-- The header fields ion sends for a handler's response `r`: `:status`, the handler's fields,
`content-length` exactly when there is a body, `server`, `x-powered-by`. -/
def ResponseFields (r : HttpResponse) (fields : List Header) : Prop :=
  ∃ status len, IsDecimal r.status.toNat status ∧ IsDecimal r.body.length len ∧
    fields = ⟨b!":status", status⟩ :: r.headers ++
      (if r.body.length = 0 then [] else [⟨b!"content-length", len⟩]) ++
      [⟨b!"server", b!"ion"⟩, ⟨b!"x-powered-by", b!"ion"⟩]

/-- The application in which every handler that throws a `std::exception` returns an empty response
with status 500 instead. -/
def contained {W : Type} (cfg : Cfg W) : Cfg W :=
  { cfg with getHandler := fun path method req w =>
      match cfg.getHandler path method req w with
      | (.stdExn, w') => (.resp { status := 500 }, w')
      | x => x }

/-- How that application's handler calls look. -/
def containedEv : Ev → Ev
  | .handled q .stdExn => .handled q (.resp { status := 500 })
  | e => e

end Ion.Spec
