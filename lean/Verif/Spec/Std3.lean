import Verif.Spec.ToAscii

/-
STD3 ASCII rules (UTS #46, section 4.1): characters that only some registries allow.
-/

namespace Idn2.Spec

/-- UTS #46 disallows the character when STD3 ASCII rules are in use: status
disallowed_STD3_valid or disallowed_STD3_mapped. -/
def Std3 (D : Data) (c : Nat) : Prop := D.status c = .std3Valid ∨ D.status c = .std3Mapped

instance (D : Data) (c : Nat) : Decidable (Std3 D c) := by unfold Std3; infer_instance

/-- No such character is in the name that comes out of UTS #46 processing, its A-labels being
replaced with the labels they stand for. -/
def Std3Free (D : Data) (U : Uni) (flags : Nat) (u : List Nat) : Prop :=
  ∀ x, Processed D U flags u x → ∀ l ∈ splitDot x, (¬ xn <+: l → ∀ c ∈ l, ¬ Std3 D c) ∧
    ∀ t w, l = xn ++ t → Decodes t w → ∀ c ∈ w, ¬ Std3 D c

end Idn2.Spec
