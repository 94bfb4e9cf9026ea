import Verif.Spec.ToAscii

/-
Names as IDNA2008 wants them, before any mapping.
-/

namespace Idn2.Spec

/-- IDNA2008 allows the code point, in some context at least. -/
def Idna2008 (D : Data) (c : Nat) : Prop :=
  D.prop c = .pvalid ∨ D.prop c = .contextj ∨ D.prop c = .contexto

instance (D : Data) (c : Nat) : Decidable (Idna2008 D c) := by unfold Idna2008; infer_instance

/-- No hyphen at the start and the end. -/
def NoEdgeHyphen (l : List Nat) : Prop := l.head? ≠ some 0x2D ∧ l.getLast? ≠ some 0x2D

instance (l : List Nat) : Decidable (NoEdgeHyphen l) := by unfold NoEdgeHyphen; infer_instance

/-- A label of allowed code points that keeps the general rules for labels: about hyphens, also in
the label that an A-label stands for, and about marks at the start. -/
structure Label2008 (D : Data) (U : Uni) (l : List Nat) : Prop where
  chars : ∀ c ∈ l, Idna2008 D c
  hyphen : NoEdgeHyphen l
  hyphens : ¬ xn <+: l → ¬ (l[2]? = some 0x2D ∧ l[3]? = some 0x2D)
  mark : ∀ c, l.head? = some c → U.isM c = false
  decoded : ∀ t v, l = xn ++ t → Decodes t v → NoEdgeHyphen v

end Idn2.Spec
