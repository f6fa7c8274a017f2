/-!
# Maps keyed by descriptor

`std::map<int, ...>` and `std::unordered_map<int, ...>` become lists of pairs in key order.
-/

namespace Ion

/-- A map with natural numbers (descriptors, addresses) as keys. -/
abbrev Assoc (V : Type) := List (Nat × V)

namespace Assoc
variable {V : Type}

/-- `find`. -/
def get : Assoc V → Nat → Option V
  | [], _ => none
  | (k', v) :: m, k => if k = k' then some v else get m k

/-- `contains`. -/
def has (m : Assoc V) (k : Nat) : Bool := (get m k).isSome

/-- `operator[]` with assignment. -/
def put (k : Nat) (v : V) : Assoc V → Assoc V
  | [] => [(k, v)]
  | (k', v') :: m =>
    if k < k' then (k, v) :: (k', v') :: m
    else if k = k' then (k, v) :: m
    else (k', v') :: put k v m

/-- `erase`. -/
def del (k : Nat) (m : Assoc V) : Assoc V := m.filter (fun e => e.1 ≠ k)

end Assoc
end Ion
