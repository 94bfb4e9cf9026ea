import Verif.Basic

/-
The marks NV8 and XV8 of UTS #46, section 5: "valid ; ; NV8" stands for a code point that IDNA2008
excludes.  A line of text is a number here, as in Verif/Data/MapText.lean: its first byte is the
least significant one.
-/

namespace Idn2.Spec

/-- The line is neither empty nor a comment. -/
def dataLine (line : Nat) : Bool := !Nat.beq line 0 && !Nat.beq (line % 256) 0x23

/-- "; NV8" or "; XV8" stands in the column of the fourth field. -/
def marked (line : Nat) : Bool :=
  let x := Nat.land (Nat.shiftRight line (8 * 46)) 0xFFFFFFFFFF
  Nat.beq x 0x38564E203B || Nat.beq x 0x385658203B

/-- The marks of the lines with data, in order. -/
def marks (lines : List Nat) : List Bool := (lines.filter dataLine).map marked

/-- "ab..." - the mark is found by its column. -/
example : marked (0x38564E203B * 256 ^ 46 + 0x61) = true ∧ marked (0x38564E203B * 256 ^ 45) = false := by
  decide +kernel

end Idn2.Spec
