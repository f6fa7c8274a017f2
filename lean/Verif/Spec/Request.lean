import Verif.Spec.Serve

/-!
# Specification: well-formed requests (RFC 9113, sections 8.2 and 8.3)

A request that is not well-formed is malformed (section 8.1.1) and must not be acted on.
-/

namespace Ion.Spec

/-- Section 8.2.1: octets of a field name: visible ASCII except upper case letters and the colon. -/
def NameOctet (b : UInt8) : Prop := 0x21 ≤ b ∧ b ≤ 0x7e ∧ ¬ (0x41 ≤ b ∧ b ≤ 0x5a) ∧ b ≠ 0x3a

instance (b : UInt8) : Decidable (NameOctet b) := inferInstanceAs (Decidable (_ ∧ _))

/-- Section 8.2.1: the name of a field that is not a pseudo-header field. -/
def FieldName (name : Bytes) : Prop := name ≠ [] ∧ ∀ b ∈ name, NameOctet b

instance (n : Bytes) : Decidable (FieldName n) := inferInstanceAs (Decidable (_ ∧ _))

/-- Section 8.2.1: a value has no NUL, LF or CR, and does not begin or end with space or tab. -/
def FieldValue (value : Bytes) : Prop :=
  (∀ b ∈ value, b ≠ 0 ∧ b ≠ 0x0a ∧ b ≠ 0x0d) ∧
  (∀ b ∈ value.head?, b ≠ 0x20 ∧ b ≠ 0x09) ∧ ∀ b ∈ value.getLast?, b ≠ 0x20 ∧ b ≠ 0x09

instance (v : Bytes) : Decidable (FieldValue v) := inferInstanceAs (Decidable (_ ∧ _))

/-- Section 8.2.2: fields that belong to a connection of HTTP/1.1. -/
def ConnectionSpecific (h : Header) : Prop :=
  h.name ∈ [b!"connection", b!"proxy-connection", b!"keep-alive", b!"transfer-encoding", b!"upgrade"] ∨
  (h.name = b!"te" ∧ h.value ≠ b!"trailers")

instance (h : Header) : Decidable (ConnectionSpecific h) := inferInstanceAs (Decidable (_ ∨ _))

/-- The name begins with a colon. -/
def isPseudo (h : Header) : Bool := h.name.head? == some 0x3a

/-- Section 8.3.1, and 8.5 for CONNECT: the pseudo-header fields of a request: only those defined for
requests, none twice; `:method`, `:scheme` and a `:path` that is not empty, or for CONNECT `:method` and
`:authority` only. -/
def PseudoOk (pseudo : List Header) : Prop :=
  (∀ h ∈ pseudo, h.name ∈ [b!":method", b!":scheme", b!":authority", b!":path"]) ∧
  (pseudo.map Header.name).Nodup ∧
  b!":method" ∈ pseudo.map Header.name ∧
  (if ⟨b!":method", b!"CONNECT"⟩ ∈ pseudo then
    b!":scheme" ∉ pseudo.map Header.name ∧ b!":path" ∉ pseudo.map Header.name ∧
      b!":authority" ∈ pseudo.map Header.name
  else b!":scheme" ∈ pseudo.map Header.name ∧ b!":path" ∈ pseudo.map Header.name ∧
    ⟨b!":path", []⟩ ∉ pseudo)

instance (p : List Header) : Decidable (PseudoOk p) := inferInstanceAs (Decidable (_ ∧ _))

/-- A well-formed request: pseudo-header fields come first (section 8.3). -/
def WellFormed (fields : List Header) : Prop :=
  PseudoOk (fields.takeWhile isPseudo) ∧
  (∀ h ∈ fields.dropWhile isPseudo, FieldName h.name ∧ ¬ ConnectionSpecific h) ∧
  ∀ h ∈ fields, FieldValue h.value

instance (fields : List Header) : Decidable (WellFormed fields) := inferInstanceAs (Decidable (_ ∧ _))

/-- `GET / HTTP/2` with a user agent is well-formed. -/
example : WellFormed [⟨b!":method", b!"GET"⟩, ⟨b!":scheme", b!"https"⟩, ⟨b!":path", b!"/"⟩,
    ⟨b!"user-agent", b!"curl/8"⟩] := by decide +kernel

end Ion.Spec
