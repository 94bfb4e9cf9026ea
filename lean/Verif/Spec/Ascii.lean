/-
Small vocabulary about ASCII characters and canonical A-labels, used in the property
statements; independent of the model.
-/

namespace Idn2.Spec

/-- Letters, digits, hyphen, underscore. -/
def isLDHU (c : Nat) : Prop :=
  (0x61 ≤ c ∧ c ≤ 0x7A) ∨ (0x30 ≤ c ∧ c ≤ 0x39) ∨ (0x41 ≤ c ∧ c ≤ 0x5A) ∨ c = 0x2D ∨ c = 0x5F

/-- Lower-case letters, digits, hyphen. -/
def isLowerLDH (c : Nat) : Prop :=
  (0x61 ≤ c ∧ c ≤ 0x7A) ∨ (0x30 ≤ c ∧ c ≤ 0x39) ∨ c = 0x2D

/-- Canonical form of a Punycode digit: lower case, and `_` (read as digit 0 by the
decoder) as `a`. -/
def canonChar (c : Nat) : Nat :=
  if 0x41 ≤ c ∧ c ≤ 0x5A then c + 32 else if c = 0x5F then 0x61 else c

/-- Canonical form of a Punycode string: everything up to the last hyphen is kept, the
digits after it are put into canonical form. -/
def canonPuny : List Nat → List Nat
  | [] => []
  | c :: r => if 0x2D ∈ c :: r then c :: canonPuny r else (c :: r).map canonChar

/-- ASCII case folding. -/
def asciiLower (c : Nat) : Nat := if 0x41 ≤ c ∧ c ≤ 0x5A then c + 0x20 else c

/-- The label begins with "xn--" in some mixture of cases. -/
def XnPrefix (l : List Nat) : Prop := (l.take 4).map asciiLower = [0x78, 0x6E, 0x2D, 0x2D]

instance (l : List Nat) : Decidable (XnPrefix l) := by unfold XnPrefix; infer_instance

end Idn2.Spec
