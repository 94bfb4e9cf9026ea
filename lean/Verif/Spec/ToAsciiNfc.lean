import Verif.Spec.ToAsciiErr

/-
Declarative account of lookup under IDN2_NFC_INPUT: what the check that decides about
normalising looks at, and the labels converted after it.
-/

namespace Idn2.Spec

/-- The quick check of UAX #15 answers "yes": no character may change or combine, and the
combining classes are in order. -/
structure QuickYes (U : Uni) (D : Data) (l : List Nat) : Prop where
  yes : ∀ c ∈ l, D.qc c = none ∨ D.qc c = some 0
  ordered : ∀ a c d b, l = a ++ c :: d :: b → U.ccc c ≤ U.ccc d ∨ U.ccc d = 0

/-- What UAX #15 says of the quick check: text that passes it is in NFC. -/
def QuickSound (U : Uni) (D : Data) : Prop :=
  ∀ l, (∀ c ∈ l, isScalar c) → QuickYes U D l → U.nfc l = some l

/-- The code points the library applies the quick check to: it passes over the one that follows a
supplementary code point, as if it were the second half of a surrogate pair. -/
def looked : List Nat → List Nat
  | [] => []
  | [c] => [c]
  | c :: d :: r => if c < 0x10000 then c :: looked (d :: r) else c :: looked r

/-- `v` is what IDN2_NFC_INPUT makes of `l`. -/
def Norm (D : Data) (U : Uni) (l v : List Nat) : Prop :=
  (QuickYes U D (looked l) ∧ v = l) ∨ (¬ QuickYes U D (looked l) ∧ U.nfc l = some v)

/-- `l` cannot be normalised. -/
def NormFails (D : Data) (U : Uni) (l : List Nat) : Prop :=
  ¬ QuickYes U D (looked l) ∧ U.nfc l = none

/-- The label `l` is converted to the ASCII label `d` under IDN2_NFC_INPUT. -/
inductive LabelToNfc (D : Data) (U : Uni) (flags : Nat) (l : List Nat) : List Nat → Prop
  | ascii : (∀ c ∈ l, c < 0x80) → ¬ (flags.testBit 7 = false ∧ xn <+: l) → l.length ≤ 63 →
      LabelToNfc D U flags l l
  /-- An A-label is decoded, and what comes out is normalised. -/
  | alabel (t u v : List Nat) : flags.testBit 7 = false → l = xn ++ t → Decodes t u →
      (∀ c ∈ u, isScalar c) → Norm D U u v → (∀ e, ¬ Fault D U (labelTests flags) v e) →
      t.map asciiLower = (Punycode.encode v).map asciiLower → t.length ≤ 59 →
      LabelToNfc D U flags l (xn ++ Punycode.encode v)
  /-- A U-label is normalised.  The normal form may be ASCII; that is refused if the result is
  checked. -/
  | ulabel (v : List Nat) : (∃ c ∈ l, 0x80 ≤ c) → Norm D U l v →
      (∀ e, ¬ Fault D U (labelTests flags) v e) →
      (flags.testBit 7 = false → (∃ c ∈ v, 0x80 ≤ c) ∧ ∀ c ∈ v, c < 0x80 → isLDHU c) →
      (Punycode.encode v).length ≤ 59 → LabelToNfc D U flags l (xn ++ Punycode.encode v)

/-- Why the label `l` cannot be converted under IDN2_NFC_INPUT. -/
inductive LabelErrNfc (D : Data) (U : Uni) (flags : Nat) (l : List Nat) : Rc → Prop
  | long : (∀ c ∈ l, c < 0x80) → ¬ (flags.testBit 7 = false ∧ xn <+: l) → 63 < l.length →
      LabelErrNfc D U flags l .tooBigLabel
  | undecodable (e : Rc) : flags.testBit 7 = false → (∀ c ∈ l, c < 0x80) → Undecodable l e →
      LabelErrNfc D U flags l e
  | surrogate (t u : List Nat) : flags.testBit 7 = false → l = xn ++ t → Decodes t u →
      ¬ (∀ c ∈ u, isScalar c) → LabelErrNfc D U flags l .encodingError
  | alabelNfc (t u : List Nat) : flags.testBit 7 = false → l = xn ++ t → Decodes t u →
      (∀ c ∈ u, isScalar c) → NormFails D U u → LabelErrNfc D U flags l .nfc
  | alabelFault (t u v : List Nat) (e : Rc) : flags.testBit 7 = false → l = xn ++ t →
      Decodes t u → (∀ c ∈ u, isScalar c) → Norm D U u v →
      FirstFault D U (labelTests flags) v e → LabelErrNfc D U flags l e
  | alabelLong (t u v : List Nat) (e : Rc) : flags.testBit 7 = false → l = xn ++ t →
      Decodes t u → (∀ c ∈ u, isScalar c) → Norm D U u v →
      (∀ e, ¬ Fault D U (labelTests flags) v e) → TooLong v e → LabelErrNfc D U flags l e
  | alabelOther (t u v : List Nat) : flags.testBit 7 = false → l = xn ++ t → Decodes t u →
      (∀ c ∈ u, isScalar c) → Norm D U u v → (∀ e, ¬ Fault D U (labelTests flags) v e) →
      (Punycode.encode v).length ≤ 59 →
      t.map asciiLower ≠ (Punycode.encode v).map asciiLower →
      LabelErrNfc D U flags l .alabelRoundtripFailed
  | ulabelNfc : (∃ c ∈ l, 0x80 ≤ c) → NormFails D U l → LabelErrNfc D U flags l .nfc
  | ulabelFault (v : List Nat) (e : Rc) : (∃ c ∈ l, 0x80 ≤ c) → Norm D U l v →
      FirstFault D U (labelTests flags) v e → LabelErrNfc D U flags l e
  | ulabelLong (v : List Nat) (e : Rc) : (∃ c ∈ l, 0x80 ≤ c) → Norm D U l v →
      (∀ e, ¬ Fault D U (labelTests flags) v e) → TooLong v e → LabelErrNfc D U flags l e
  | ulabelOther (v : List Nat) : (∃ c ∈ l, 0x80 ≤ c) → Norm D U l v →
      (∀ e, ¬ Fault D U (labelTests flags) v e) → (Punycode.encode v).length ≤ 59 →
      flags.testBit 7 = false → ¬ ((∃ c ∈ v, 0x80 ≤ c) ∧ ∀ c ∈ v, c < 0x80 → isLDHU c) →
      LabelErrNfc D U flags l .alabelRoundtripFailed

/-- Lookup of the name `u` without TR46 processing and with IDN2_NFC_INPUT gives `n`. -/
def ToAsciiNfc (D : Data) (U : Uni) (flags : Nat) (u n : List Nat) : Prop :=
  ∃ ds, Each (LabelToNfc D U flags) (splitDot u) ds ∧ n = joinDot ds ∧
    n.length ≤ if ds.getLast? = some [] then 254 else 253

/-- Lookup of the name `u` without TR46 processing and with IDN2_NFC_INPUT fails with `e`. -/
def ToAsciiErrNfc (D : Data) (U : Uni) (flags : Nat) (u : List Nat) (e : Rc) : Prop :=
  FirstErr (LabelToNfc D U flags) (LabelErrNfc D U flags) (splitDot u) e

end Idn2.Spec
