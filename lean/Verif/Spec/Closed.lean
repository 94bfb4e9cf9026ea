import Verif.Spec.Tables

/-
The stability of the mapping table that UTS #46, section 5, promises: what a character is mapped
to is not mapped any further.
-/

namespace Idn2.Spec

/-- Mappings of mapped and deviation characters consist of valid characters; those of characters
that STD3 rules disallow may also hold ASCII characters which STD3 rules disallow. -/
structure Closed (D : Data) : Prop where
  mapped : ∀ c, D.status c = .mapped ∨ D.status c = .deviation →
    ∀ x ∈ D.mapping c, D.status x = .valid
  std3 : ∀ c, D.status c = .std3Mapped →
    ∀ x ∈ D.mapping c, D.status x = .valid ∨ D.status x = .std3Valid

end Idn2.Spec
