import Verif.Model.Context

/-
Bidi rule; lib/bidi.c.
-/

namespace Idn2

/-- `_isBidi`; bidi.c:39-52. -/
def isBidi (U : Uni) (label : List Nat) : Bool :=
  label.any fun c => U.bidi c == .R || U.bidi c == .AL || U.bidi c == .AN

/-- Loop of the LTR case; bidi.c:69-89. -/
def bidiLtr (U : Uni) : List Nat → Bool → Res Unit
  | [], endok => if endok then .ok () else .err .bidi
  | c :: r, _ =>
    let bc := U.bidi c
    if bc = .L ∨ bc = .EN ∨ bc = .NSM then bidiLtr U r true
    else if bc ≠ .ES ∧ bc ≠ .CS ∧ bc ≠ .ET ∧ bc ≠ .ON ∧ bc ≠ .BN then .err .bidi
    else bidiLtr U r false

/-- Loop of the RTL case; bidi.c:95-117. -/
def bidiRtl (U : Uni) : List Nat → Bool → Res Unit
  | [], endok => if endok then .ok () else .err .bidi
  | c :: r, _ =>
    let bc := U.bidi c
    if bc = .R ∨ bc = .AL ∨ bc = .EN ∨ bc = .AN ∨ bc = .NSM then bidiRtl U r true
    else if bc ≠ .ES ∧ bc ≠ .CS ∧ bc ≠ .ET ∧ bc ≠ .ON ∧ bc ≠ .BN then .err .bidi
    else bidiRtl U r false

/-- `_idn2_bidi`; bidi.c:54-123. -/
def idn2_bidi (U : Uni) (label : List Nat) : Res Unit :=
  if !isBidi U label then .ok ()
  else
    match label with
    | [] => .ub
    | c :: r =>
      let bc := U.bidi c
      if bc = .L then bidiLtr U r true
      else if bc = .R ∨ bc = .AL then bidiRtl U r true
      else .err .bidi

end Idn2
