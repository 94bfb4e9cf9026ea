import Verif.Spec.Label
import Verif.Spec.Laws
import Verif.Spec.Tr46
import Verif.Spec.Domain
import Verif.Spec.Ascii
import Verif.Spec.Punycode
import Verif.Spec.Utf8

/-
A declarative account of lookup (ToASCII): no buffers, no tables, no loops, only the Unicode
data `D`, the normaliser `U` and the flags by their bit numbers: 0 NFC_INPUT, 1
ALABEL_ROUNDTRIP, 2 TRANSITIONAL, 3 NONTRANSITIONAL, 5 USE_STD3_ASCII_RULES, 6 NO_TR46, 7
NO_ALABEL_ROUNDTRIP.
-/

namespace Idn2.Spec

/-- "xn--". -/
def xn : List Nat := [0x78, 0x6E, 0x2D, 0x2D]

/-- `t` is a Punycode form of the label `u`. -/
structure Decodes (t u : List Nat) : Prop where
  chars : ∀ c ∈ t, isLDHU c
  canon : canonPuny t = Punycode.encode u
  encodable : Punycode.Encodable u
  nonascii : ∃ c ∈ u, 0x80 ≤ c
  length : u.length ≤ 63

/-- The tests of a label in IDNA2008 lookup (NFC, hyphens in 3rd and 4th position, leading mark,
DISALLOWED, CONTEXTJ, CONTEXTO without rule, UNASSIGNED, Bidi; UTS #46 validity unless it is
switched off); none in transitional processing. -/
def labelTests (flags : Nat) : Nat :=
  if flags.testBit 2 then 0
  else 2 ^ 0 + 2 ^ 1 + 2 ^ 3 + 2 ^ 4 + 2 ^ 6 + 2 ^ 8 + 2 ^ 10 + 2 ^ 11 +
    (if flags.testBit 6 then 0 else 2 ^ 13) + (if flags.testBit 5 then 0 else 2 ^ 14)

/-- The tests of UTS #46 for a label that is not an A-label: NFC, hyphens, leading mark, and
validity of the code points. -/
def tr46Tests (flags : Nat) : Nat :=
  2 ^ 0 + 2 ^ 1 + 2 ^ 2 + 2 ^ 3 + (if flags.testBit 2 then 2 ^ 12 else 2 ^ 13) +
    (if flags.testBit 5 then 0 else 2 ^ 14)

/-- The tests of UTS #46 for a decoded A-label, always those of nontransitional processing. -/
def tr46TestsA (flags : Nat) : Nat :=
  2 ^ 0 + 2 ^ 1 + 2 ^ 2 + 2 ^ 3 + 2 ^ 13 + (if flags.testBit 5 then 0 else 2 ^ 14)

/-- UTS #46, section 4, step 4: validity of a label. -/
inductive Tr46Label (D : Data) (U : Uni) (flags : Nat) (l : List Nat) : Prop
  | alabel (t u : List Nat) : l = xn ++ t → Decodes t u →
      (∀ e, ¬ Fault D U (tr46TestsA flags) u e) → Tr46Label D U flags l
  | ulabel : ¬ xn <+: l → (∀ e, ¬ Fault D U (tr46Tests flags) l e) → Tr46Label D U flags l

/-- The label `l` is converted to the ASCII label `d`. -/
inductive LabelTo (D : Data) (U : Uni) (flags : Nat) (l : List Nat) : List Nat → Prop
  /-- ASCII, and not an A-label or A-labels are not looked into: unchanged. -/
  | ascii : (∀ c ∈ l, c < 0x80) → ¬ (flags.testBit 7 = false ∧ xn <+: l) → l.length ≤ 63 →
      LabelTo D U flags l l
  /-- An A-label: it must be the encoding of the label it decodes to, up to case. -/
  | alabel (t u : List Nat) : flags.testBit 7 = false → l = xn ++ t → Decodes t u →
      (∀ c ∈ u, isScalar c) → (∀ e, ¬ Fault D U (labelTests flags) u e) →
      t.map asciiLower = (Punycode.encode u).map asciiLower → t.length ≤ 59 →
      LabelTo D U flags l (xn ++ Punycode.encode u)
  /-- A U-label; its ASCII characters must be those the Punycode decoder accepts, if the result
  is checked. -/
  | ulabel : (∃ c ∈ l, 0x80 ≤ c) → (∀ e, ¬ Fault D U (labelTests flags) l e) →
      (flags.testBit 7 = false → ∀ c ∈ l, c < 0x80 → isLDHU c) →
      (Punycode.encode l).length ≤ 59 → LabelTo D U flags l (xn ++ Punycode.encode l)

/-- The name whose labels are converted: the input itself, or mapped and normalised, with all
labels valid. -/
def Processed (D : Data) (U : Uni) (flags : Nat) (u x : List Nat) : Prop :=
  if flags.testBit 6 then x = u
  else (∀ c ∈ u, D.status c ≠ .disallowed) ∧
    (u.flatMap (emit D (flags.testBit 2) (flags.testBit 5))).length < 255 ∧
    U.nfc (u.flatMap (emit D (flags.testBit 2) (flags.testBit 5))) = some x ∧
    ∀ l ∈ splitDot x, Tr46Label D U flags l

/-- Lookup of the name `u` gives `n`. -/
def ToAscii (D : Data) (U : Uni) (flags : Nat) (u n : List Nat) : Prop :=
  ∃ x ds, Processed D U flags u x ∧ Each (LabelTo D U flags) (splitDot x) ds ∧ n = joinDot ds ∧
    n.length ≤ if ds.getLast? = some [] then 254 else 253

end Idn2.Spec
