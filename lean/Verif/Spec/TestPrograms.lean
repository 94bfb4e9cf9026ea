import Verif.Model.Mem
import Verif.Spec.Utf8

/-
What the tables of the test programs ask of the library.
-/

namespace Idn2.Spec.TestPrograms

/-- A function with the parameters of `idn2_register_u8`. -/
abbrev Reg := Option (List Nat) → Option (List Nat) → Option Cell → Nat → Option Rc × Option Cell

/-- A function with the parameters of `idn2_lookup_u8`. -/
abbrev Look := Option (List Nat) → Option Cell → Nat → Option Rc × Option Cell

/-- Success with a label to register means a string in the output parameter. -/
def RegSets (reg : Reg) : Prop :=
  ∀ ul al c f, (ul ≠ none ∨ al ≠ none) → (reg ul al (some c) f).1 = none →
    ∃ p n, (reg ul al (some c) f).2 = some (.buf p n)

/-- Success with a name to look up means a string in the output parameter. -/
def LookSets (lk : Look) : Prop :=
  ∀ s c f, 0 ∉ s → (lk (some s) (some c) f).1 = none → ∃ p n, (lk (some s) (some c) f).2 = some (.buf p n)

/-- What a row of tests/test-register.c asks for: the error, the output parameter being left alone; or
success with the string given, which is also what lookup gives. -/
def RegMeets (reg : Reg) (lk : Look) (ul al out : Option (List Nat)) (rc : Option Rc) (f : Nat) : Prop :=
  match rc with
  | some e => reg ul al (some (.old 0x1234)) f = (some e, some (.old 0x1234))
  | none => ∃ n p q, out = some n ∧ reg ul al (some (.old 0x1234)) f = (none, some (.buf p n)) ∧
      lk ul (some (.old 0)) f = (none, some (.buf q n))

/-- The special calls in tests/test-register.c: with nothing to register the result is null; "xn+-xxx"
and "xn--\xff" are no A-labels, and the output parameter is left alone; "faß" can be registered. -/
def RegSpecial (reg regl : Reg) : Prop :=
  (reg none none none 0).1 = none ∧ reg none none (some (.old 0x123)) 0 = (none, some .null) ∧
  reg none (some [0x78, 0x6E, 0x2B, 0x2D, 0x78, 0x78, 0x78]) (some .null) 0 =
    (some .invalidAlabel, some .null) ∧
  reg none (some [0x78, 0x6E, 0x2D, 0x2D, 0xFF]) (some .null) 0 = (some .invalidAlabel, some .null) ∧
  (regl none none none 0).1 = none ∧ (reg (some (utf8s [0x66, 0x61, 0xDF])) none none 1).1 = none

/-- What a row of tests/test-tounicode.c asks for, given the code points of a result.
IDN2_ICONV_FAIL will do for IDN2_ENCODING_ERROR. -/
def UniMeets (expected : List Nat) (rc : Option Rc) (r : Except Rc (List Nat)) : Prop :=
  match r with
  | .ok u => rc = none ∧ u = expected
  | .error e => rc = some e ∨ (e = .iconvFail ∧ rc = some .encodingError)

/-- An outcome with the result replaced. -/
def mapOk (f : List Nat → List Nat) : Except Rc (List Nat) → Except Rc (List Nat)
  | .ok x => .ok (f x)
  | .error e => .error e

/-- What a row of tests/test-punycode.c asks for. -/
def PunyMeets (want : List Nat) (rc : Option Rc) (r : Except Rc (List Nat)) : Prop :=
  match r with
  | .ok x => rc = none ∧ x = want
  | .error e => rc = some e

end Idn2.Spec.TestPrograms
