import Verif.Spec.Casefold
import Verif.Data.QcText
import Verif.Data.Map
import Verif.Proof.DataLaws

/-
The check that NFKC_Casefold in lib/DerivedNormalizationProps.txt fits with the mapping table of
UTS #46, over the whole of both files; used for property C110.
-/

namespace Idn2
open Spec

/-- The lines of NFKC_Casefold in lib/DerivedNormalizationProps.txt. -/
def Shipped.fold : List FoldRow := foldRows qcText

/-- The lines, and the intervals between them. -/
def fill : Nat → List FoldRow → List (Nat × Nat × Option (List Nat))
  | a, [] => [(a, 0x10FFFF, none)]
  | a, r :: rs =>
    if Nat.blt a r.first then
      (a, r.first - 1, none) :: (r.first, r.last, some r.to) :: fill (r.last + 1) rs
    else (r.first, r.last, some r.to) :: fill (r.last + 1) rs

def numsB : List Nat → List Nat → Bool
  | [], [] => true
  | a :: l, b :: m => Nat.beq a b && numsB l m
  | _, _ => false

/-- What the tables say of a code point fits together. -/
def foldPair (b : MapRow) (x : Nat × Nat × Option (List Nat)) : Bool :=
  match b.status, x.2.2 with
  | .valid, none => true
  | .std3Valid, none => true
  | .ignored, some [] => true
  | .mapped, some l => numsB l b.mapping || (Nat.beq b.first 0xFF61 && Nat.beq b.last 0xFF61)
  | .mapped, none => Nat.beq b.first 0x3002 && Nat.beq b.last 0x3002
  | .std3Mapped, some l => numsB l b.mapping
  | .deviation, some l => numsB l b.mapping
  | .disallowed, _ => true
  | _, _ => false

def fillB (l : List (Nat × Nat × Option (List Nat))) : Bool :=
  chainB (fun x y => Nat.beq (x.2.1 + 1) y.1 && Nat.ble x.1 x.2.1) l &&
  (match l.head? with | some x => Nat.beq x.1 0 | none => false) &&
  (match l.getLast? with | some x => Nat.beq x.2.1 0x10FFFF | none => false)

theorem Shipped.fill_ok : fillB (fill 0 fold) = true := by decide +kernel

theorem Shipped.fold_pairs :
    walk (fun r : MapRow => (r.first, r.last)) (fun x : Nat × Nat × Option (List Nat) => (x.1, x.2.1))
      foldPair 25000 map (fill 0 fold) = true := by decide +kernel

end Idn2
