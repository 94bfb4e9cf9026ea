import Verif.Spec.Laws

/-
UTF-8, RFC 3629 section 3.
-/

namespace Idn2.Spec

/-- The bytes of one scalar value. -/
def utf8 (c : Nat) : List Nat :=
  if c < 0x80 then [c]
  else if c < 0x800 then [0xC0 + c / 64, 0x80 + c % 64]
  else if c < 0x10000 then [0xE0 + c / 4096, 0x80 + c / 64 % 64, 0x80 + c % 64]
  else [0xF0 + c / 262144, 0x80 + c / 4096 % 64, 0x80 + c / 64 % 64, 0x80 + c % 64]

/-- The bytes of a text. -/
def utf8s (u : List Nat) : List Nat := u.flatMap utf8

/-- `s` is well-formed UTF-8. -/
def WellFormed (s : List Nat) : Prop := ∃ u, (∀ c ∈ u, isScalar c) ∧ s = utf8s u

end Idn2.Spec
