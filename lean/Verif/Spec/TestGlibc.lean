import Verif.Model.Mem
import Verif.Spec.TestPrograms

/-
What the calls of tests/test-glibc.c ask of the library, and which locales are right for them.
-/

namespace Idn2.Spec.TestGlibc

open TestPrograms

/-- The bytes of an ASCII text. -/
def ascii (s : String) : List Nat := s.toList.map Char.toNat

/-- A call that is to succeed with `expected`. -/
def Gives (f : Look) (input expected : List Nat) : Prop :=
  ∃ p, f (some input) (some .null) 0 = (none, some (.buf p expected))

/-- A call that is to fail with `expected`. -/
def Fails (f : Look) (input : List Nat) (expected : Rc) : Prop :=
  (f (some input) (some .null) 0).1 = some expected

/-- The name of the charset says UTF-8, and "nämchen" and the Hebrew word are converted to UTF-8. -/
def NamedUtf8 (charset : List Nat) : Prop := charset = ascii "UTF-8"
def ActsUtf8 (wcs : List Nat → Option (List Nat)) : Prop :=
  wcs [0x6E, 0xE4, 0x6D, 0x63, 0x68, 0x65, 0x6E] = some (utf8s [0x6E, 0xE4, 0x6D, 0x63, 0x68, 0x65, 0x6E]) ∧
    wcs [0x5E9, 0x5DD] = some (utf8s [0x5E9, 0x5DD])

/-- The name says Latin-1 or something like it, "nämchen" is converted unchanged, and the Hebrew word
cannot be converted, or gives nothing. -/
def NamedLatin1 (charset : List Nat) : Prop :=
  charset = ascii "ISO-8859-1" ∨ charset = ascii "ISO-8859-15" ∨ charset = ascii "CP1252"
def ActsLatin1 (wcs : List Nat → Option (List Nat)) : Prop :=
  wcs [0x6E, 0xE4, 0x6D, 0x63, 0x68, 0x65, 0x6E] = some [0x6E, 0xE4, 0x6D, 0x63, 0x68, 0x65, 0x6E] ∧
    (wcs [0x5E9, 0x5DD] = none ∨ wcs [0x5E9, 0x5DD] = some [])

/-- The locale does as the name of its charset says. -/
def Honest (charset : List Nat) (wcs : List Nat → Option (List Nat)) : Prop :=
  (NamedUtf8 charset ↔ ActsUtf8 wcs) ∧ (NamedLatin1 charset ↔ ActsLatin1 wcs)

end Idn2.Spec.TestGlibc
