import Verif.Spec.Casefold

/-
The property Full_Composition_Exclusion of lib/DerivedNormalizationProps.txt, read off the text of the
file.  A line of the property is like

    0340..0341    ; Full_Composition_Exclusion # Mn   [2] COMBINING GRAVE TONE MARK..COMBINING ACUTE TONE MARK

UAX #15: these are the code points that are not the result of a composition although they have a
canonical decomposition, so that they do not occur in text in NFC; "NFC_QC = No" says the same.
-/

namespace Idn2.Spec

/-- "; Full_Composition_Exclusion " stands behind the first 14 bytes. -/
def exclusionLine (line : Nat) : Bool :=
  Nat.beq (line / 256 ^ 14 % 256 ^ 29) 0x206E6F6973756C6378455F6E6F697469736F706D6F435F6C6C7546203B

/-- The code points of the property, as intervals. -/
def exclusions (lines : List Nat) : List (Nat × Nat) :=
  (lines.filter exclusionLine).map fun line => ((foldRow line).first, (foldRow line).last)

/-- The line above is read. -/
example : exclusions [0x6E4D2023206E6F6973756C6378455F6E6F697469736F706D6F435F6C6C7546203B20202020313433302E2E30343330] =
    [(0x340, 0x341)] := by
  decide +kernel

end Idn2.Spec
