import Verif.Spec.Flags

/-
When two words of flags ask for the same.
-/

namespace Idn2.Spec

/-- The two words of flags ask for the same: both conflict, or none does and they agree on NO_TR46
(bit 6), NO_ALABEL_ROUNDTRIP (7), with NO_TR46 on NFC_INPUT (0), and without it on TRANSITIONAL (2)
and USE_STD3_ASCII_RULES (5). -/
def SameFlags (a b : Nat) : Prop :=
  (Conflict a ∧ Conflict b) ∨
  (¬ Conflict a ∧ ¬ Conflict b ∧ a.testBit 6 = b.testBit 6 ∧ a.testBit 7 = b.testBit 7 ∧
    if a.testBit 6 then a.testBit 0 = b.testBit 0
    else a.testBit 2 = b.testBit 2 ∧ a.testBit 5 = b.testBit 5)

instance (a b : Nat) : Decidable (SameFlags a b) := by unfold SameFlags; infer_instance

/-- Neither TRANSITIONAL (bit 2) nor NO_TR46 (6): all flags of libidn. -/
def Modern (v : Nat) : Prop := v.testBit 2 = false ∧ v.testBit 6 = false

end Idn2.Spec
