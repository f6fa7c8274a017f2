import Verif.Spec.Response

/-!
# Specification: log files in Combined Log Format

One line for each request: `client - - time "method target protocol" status length "referer" "user-agent"`, where
none of the quoted texts contains a quotation mark or the end of a line.
-/

namespace Ion.Spec

/-- What a line tells. -/
structure LogLine where
  client : Bytes
  time : Bytes
  method : Bytes
  path : Bytes
  status : Nat
  length : Nat
  referer : Bytes
  agent : Bytes
deriving DecidableEq, Repr

/-- The text of a line. -/
def LineText (e : LogLine) (text : Bytes) : Prop :=
  ∃ status length, IsDecimal e.status status ∧ IsDecimal e.length length ∧
    text = e.client ++ b!" - - " ++ e.time ++ b!" \"" ++ e.method ++ b!" " ++ e.path ++ b!" HTTP/2\" " ++ status ++
      b!" " ++ length ++ b!" \"" ++ e.referer ++ b!"\" \"" ++ e.agent ++ b!"\""

/-- What the format demands of the texts in a line. -/
structure LogLine.Proper (e : LogLine) : Prop where
  client : ∀ b ∈ e.client, b ≠ 0x0a ∧ b ≠ 0x22 ∧ b ≠ 0x20
  time : ∀ b ∈ e.time, b ≠ 0x0a ∧ b ≠ 0x22
  method : ∀ b ∈ e.method, b ≠ 0x0a ∧ b ≠ 0x22 ∧ b ≠ 0x20
  path : ∀ b ∈ e.path, b ≠ 0x0a ∧ b ≠ 0x22
  referer : ∀ b ∈ e.referer, b ≠ 0x0a ∧ b ≠ 0x22
  agent : ∀ b ∈ e.agent, b ≠ 0x0a ∧ b ≠ 0x22

/-- The file, read as these lines. -/
inductive LogFile : List LogLine → Bytes → Prop
  | nil : LogFile [] []
  | cons (e : LogLine) (es : List LogLine) (text rest : Bytes) (he : e.Proper) (ht : LineText e text)
      (h : LogFile es rest) : LogFile (e :: es) (text ++ [0x0a] ++ rest)

end Ion.Spec
