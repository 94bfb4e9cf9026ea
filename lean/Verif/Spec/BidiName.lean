import Verif.Spec.Label

/-
RFC 5893, section 2: "a Bidi domain name is a domain name that contains at least one RTL label",
and "every label" of it must satisfy the Bidi rule.
-/

namespace Idn2.Spec

/-- A Bidi domain name, given by its labels. -/
def BidiName (U : Uni) (vs : List (List Nat)) : Prop := ∃ v ∈ vs, hasRtl U v

/-- RFC 5893 for whole names.  (The empty label, for the root, is exempt.) -/
def BidiNameRule (U : Uni) (vs : List (List Nat)) : Prop :=
  BidiName U vs → ∀ v ∈ vs, v ≠ [] → BidiRule U v

end Idn2.Spec
