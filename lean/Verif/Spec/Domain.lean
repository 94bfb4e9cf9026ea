/-
Names as sequences of labels.
-/

namespace Idn2.Spec

/-- The labels of a name; a name without full stop has one label. -/
def splitDot : List Nat → List (List Nat)
  | [] => [[]]
  | c :: r =>
    if c = 0x2E then [] :: splitDot r
    else
      match splitDot r with
      | [] => [[c]]
      | l :: ls => (c :: l) :: ls

/-- Labels put together with full stops. -/
def joinDot : List (List Nat) → List Nat
  | [] => []
  | [l] => l
  | l :: ls => l ++ 0x2E :: joinDot ls

/-- The two lists have the same length and corresponding elements are related. -/
inductive Each {α β : Type} (R : α → β → Prop) : List α → List β → Prop
  | nil : Each R [] []
  | cons {a : α} {b : β} {as : List α} {bs : List β} : R a b → Each R as bs →
      Each R (a :: as) (b :: bs)

end Idn2.Spec
