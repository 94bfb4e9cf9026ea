import Verif.Spec.ToAscii

/-
Host names of RFC 952 and RFC 1123, with the labels RFC 5890 reserves (those with hyphens in the
third and fourth position).
-/

namespace Idn2.Spec

/-- A label of a host name, in lower case: letters, digits and hyphens, 1 to 63 of them, no hyphen at
the start or the end. -/
structure HostLabel (l : List Nat) : Prop where
  length : 1 ≤ l.length ∧ l.length ≤ 63
  chars : ∀ c ∈ l, isLowerLDH c
  start : l.head? ≠ some 0x2D
  last : l.getLast? ≠ some 0x2D

/-- A label of the form that RFC 5890 reserves. -/
def Reserved (l : List Nat) : Prop := l[2]? = some 0x2D ∧ l[3]? = some 0x2D

end Idn2.Spec
