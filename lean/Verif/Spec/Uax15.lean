import Verif.Model.Env
import Verif.Spec.Laws

/-
Normalisation form C of UAX #15 (and chapter 3.11 of the Unicode Standard), over data that is a
parameter: canonical combining classes, full canonical decompositions and primary composites.
-/

namespace Idn2.Spec

/-- The data of normalisation. -/
structure Uax15 where
  /-- canonical combining class -/
  ccc : Nat → Nat
  /-- full canonical decomposition -/
  decomp : Nat → List Nat
  /-- the primary composite of two code points -/
  comp : Nat → Nat → Option Nat

namespace Uax15

variable (X : Uax15)

/-- Put `c` in front of a text in canonical order: it moves behind the marks of lower class. -/
def ordIns (c : Nat) : List Nat → List Nat
  | [] => [c]
  | x :: r => if 0 < X.ccc x ∧ X.ccc x < X.ccc c then x :: ordIns c r else c :: x :: r

/-- The canonical ordering algorithm (D109). -/
def reorder (s : List Nat) : List Nat := s.foldr X.ordIns []

/-- Normalisation form D (D118). -/
def nfd (s : List Nat) : List Nat := X.reorder (s.flatMap X.decomp)

/-- The canonical composition algorithm (D117) behind the starter `l`, which is followed by the
marks `skipped` with which it has not been composed.  The next code point is blocked (D115) if one
of them has the same or a higher class. -/
def composeFrom (l : Nat) (skipped : List Nat) : List Nat → List Nat
  | [] => l :: skipped
  | c :: r =>
    match (if ∀ b ∈ skipped, X.ccc b < X.ccc c then X.comp l c else none) with
    | some d => composeFrom d skipped r
    | none =>
      if X.ccc c = 0 then l :: skipped ++ composeFrom c [] r
      else composeFrom l (skipped ++ [c]) r

/-- The canonical composition algorithm; marks in front of the first starter stay. -/
def compose : List Nat → List Nat
  | [] => []
  | c :: r => if X.ccc c = 0 then X.composeFrom c [] r else c :: compose r

/-- Normalisation form C (D120). -/
def nfc (s : List Nat) : List Nat := X.compose (X.nfd s)

/-- Facts about the data, each about single code points or pairs. -/
structure Laws : Prop where
  /-- decompositions are full -/
  full : ∀ c x, x ∈ X.decomp c → X.decomp x = [x]
  /-- a composite has the decomposition of its parts -/
  parts : ∀ a b c, X.comp a b = some c → X.decomp c = X.decomp a ++ X.decomp b
  /-- ASCII -/
  ascii : ∀ c, c < 0x80 → X.ccc c = 0 ∧ X.decomp c = [c] ∧ ∀ a, X.comp a c = none
  /-- NUL and the full stop are not composed with anything -/
  sep : ∀ c, c = 0 ∨ c = 0x2E → ∀ b, X.comp c b = none
  /-- and neither they are the result of a composition or decomposition -/
  nosep : ∀ c, c = 0 ∨ c = 0x2E → (∀ a b, X.comp a b ≠ some c) ∧ ∀ x, c ∈ X.decomp x → x = c
  /-- scalar values -/
  scalar : (∀ c, isScalar c → ∀ x ∈ X.decomp c, isScalar x) ∧
    ∀ a b c, isScalar a → isScalar b → X.comp a b = some c → isScalar c

/-- What the property NFC_Quick_Check = Yes says of a code point, in terms of the data: a mark has no
decomposition; a starter is put together from its decomposition, which consists of a starter and
what follows in the order of classes; and none of them is composed with what precedes. -/
structure Quick (c : Nat) : Prop where
  mark : X.ccc c ≠ 0 → X.decomp c = [c] ∧ ∀ a, X.comp a c = none
  starter : X.ccc c = 0 → ∃ o r, X.decomp c = o :: r ∧ X.ccc o = 0 ∧ (∀ a, X.comp a o = none) ∧
    r.foldlM X.comp o = some c ∧ r.Pairwise (fun x y => X.ccc x ≤ X.ccc y)

/-- Two texts are canonically equivalent (D70) if they have the same normalisation form D. -/
def Equivalent (s t : List Nat) : Prop := X.nfd s = X.nfd t

end Uax15

end Idn2.Spec
