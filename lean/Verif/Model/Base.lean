/-!
# Shared vocabulary of the model

Bytes, byte strings, headers and outcomes.  Undefined behaviour of the C++ program is an
outcome of its own (`Outcome.ub`), so that "never undefined" is a statement the model can
express and refute.
-/

namespace Ion

/-- A byte buffer or a `std::string`; `std::span<const uint8_t>`, `std::vector<uint8_t>` and
`std::string` all become lists of octets. -/
abbrev Bytes := List UInt8

/-- `b!"text"` is the list of UTF-8 octets of a string literal, computed at elaboration time. -/
macro:max "b!" s:str : term => do
  let bytes := s.getString.toUTF8.toList
  let elems : Array (Lean.TSyntax `term) ← bytes.toArray.mapM fun b =>
    `(term| $(Lean.Syntax.mkNumLit (toString b.toNat)))
  `(([$elems,*] : List UInt8))

/-- `HttpHeader` (lib/http_header.h): name and value. -/
structure Header where
  name : Bytes
  value : Bytes
deriving DecidableEq, Repr

/-- Kinds of undefined behaviour that the model distinguishes. -/
inductive UB where
  /-- `operator*` on a `std::expected` holding an error. -/
  | derefError
  /-- `span::subspan` outside the span. -/
  | subspan
  /-- array or deque index out of range. -/
  | index
  /-- `back()` / `pop_back()` on an empty container. -/
  | emptyBack
  /-- member access through a null pointer. -/
  | nullDeref
  /-- use of an object whose lifetime has ended. -/
  | dangling
deriving DecidableEq, Repr

/-- Result of a C++ computation: value, reported error, or undefined behaviour. -/
inductive Outcome (ε α : Type) where
  | ok (a : α)
  | err (e : ε)
  | ub (u : UB)
deriving DecidableEq, Repr

deriving instance DecidableEq for Except

namespace Outcome

/-- Sequencing of computations; errors and undefined behaviour stop it. -/
def bind {ε α β : Type} (x : Outcome ε α) (f : α → Outcome ε β) : Outcome ε β :=
  match x with
  | ok a => f a
  | err e => err e
  | ub u => ub u

instance {ε : Type} : Monad (Outcome ε) where
  pure := ok
  bind := bind

@[simp] theorem bind_ok {ε α β : Type} (a : α) (f : α → Outcome ε β) :
    ((ok a : Outcome ε α) >>= f) = f a := rfl
@[simp] theorem bind_err {ε α β : Type} (e : ε) (f : α → Outcome ε β) :
    ((err e : Outcome ε α) >>= f) = err e := rfl
@[simp] theorem bind_ub {ε α β : Type} (u : UB) (f : α → Outcome ε β) :
    ((ub u : Outcome ε α) >>= f) = ub u := rfl
@[simp] theorem pure_eq {ε α : Type} (a : α) : (pure a : Outcome ε α) = ok a := rfl

theorem bind_eq_ok {ε α β : Type} {x : Outcome ε α} {f : α → Outcome ε β} {b : β} :
    (x >>= f) = ok b ↔ ∃ a, x = ok a ∧ f a = ok b := by
  cases x <;> simp

end Outcome

/-- `enum class FrameError` (lib/frame_error.h:3). -/
inductive FrameError where
  | invalidSettingsSize
  | unknownFrameType
  | protocolError
deriving DecidableEq, Repr

end Ion
