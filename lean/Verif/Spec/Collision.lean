import Verif.Spec.ToAsciiNfc

/-
What a name stands for: the labels in Unicode, whatever way it is written.
-/

namespace Idn2.Spec

/-- The label `l` stands for `v`: an A-label for the label it encodes, any other for itself. -/
inductive Denotes (l : List Nat) : List Nat → Prop
  | alabel (t v : List Nat) : l = xn ++ t → Decodes t v → Denotes l v
  | other : (∃ c ∈ l, 0x80 ≤ c) ∨ ¬ xn <+: l → Denotes l l

/-- The labels the name `u` stands for: those of the mapped and normalised name in UTS #46
processing; normalised, if possible, with NO_TR46 and NFC_INPUT. -/
def StandsFor (D : Data) (U : Uni) (flags : Nat) (u : List Nat) (vs : List (List Nat)) : Prop :=
  ∃ x ws, Processed D U flags u x ∧ Each Denotes (splitDot x) ws ∧
    if flags.testBit 0 ∧ flags.testBit 6 then Each (Norm D U) ws vs else vs = ws

end Idn2.Spec
