/-
The flags of lookup that exclude each other.
-/

namespace Idn2.Spec

/-- Conflicting flags, by bit numbers (2 TRANSITIONAL, 3 NONTRANSITIONAL, 6 NO_TR46,
1 ALABEL_ROUNDTRIP, 7 NO_ALABEL_ROUNDTRIP). -/
def Conflict (flags : Nat) : Prop :=
  (flags.testBit 2 = true ∧ flags.testBit 3 = true) ∨
  (flags.testBit 6 = true ∧ (flags.testBit 2 = true ∨ flags.testBit 3 = true)) ∨
  (flags.testBit 1 = true ∧ flags.testBit 7 = true)

instance (flags : Nat) : Decidable (Conflict flags) := by
  unfold Conflict; infer_instance

end Idn2.Spec
