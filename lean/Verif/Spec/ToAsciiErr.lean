import Verif.Spec.ToAscii
import Verif.Spec.PunyDecode

/-
Declarative account of the error codes of lookup, beside `ToAscii`.
-/

namespace Idn2.Spec

/-- An A-label that is not the encoding of anything, and how its decoding ends. -/
def Undecodable (l : List Nat) (e : Rc) : Prop :=
  ∃ t, l = xn ++ t ∧ Punycode.Decoding 63 t (.error e)

/-- The encoding of `v` does not fit behind "xn--" in a label, and what the encoder says,
which does not begin with 2^32 code points or more. -/
def TooLong (v : List Nat) (e : Rc) : Prop :=
  59 < (Punycode.encode v).length ∧
    e = if v.length < 2 ^ 32 then .punycodeBigOutput else .punycodeOverflow

/-- Why the label `l` cannot be converted. -/
inductive LabelErr (D : Data) (U : Uni) (flags : Nat) (l : List Nat) : Rc → Prop
  | long : (∀ c ∈ l, c < 0x80) → ¬ (flags.testBit 7 = false ∧ xn <+: l) → 63 < l.length →
      LabelErr D U flags l .tooBigLabel
  | undecodable (e : Rc) : flags.testBit 7 = false → (∀ c ∈ l, c < 0x80) → Undecodable l e →
      LabelErr D U flags l e
  | surrogate (t u : List Nat) : flags.testBit 7 = false → l = xn ++ t → Decodes t u →
      ¬ (∀ c ∈ u, isScalar c) → LabelErr D U flags l .encodingError
  | alabelFault (t u : List Nat) (e : Rc) : flags.testBit 7 = false → l = xn ++ t → Decodes t u →
      (∀ c ∈ u, isScalar c) → FirstFault D U (labelTests flags) u e → LabelErr D U flags l e
  | alabelLong (t u : List Nat) : flags.testBit 7 = false → l = xn ++ t → Decodes t u →
      (∀ c ∈ u, isScalar c) → (∀ e, ¬ Fault D U (labelTests flags) u e) → 59 < t.length →
      LabelErr D U flags l .punycodeBigOutput
  | alabelOther (t u : List Nat) : flags.testBit 7 = false → l = xn ++ t → Decodes t u →
      (∀ c ∈ u, isScalar c) → (∀ e, ¬ Fault D U (labelTests flags) u e) → t.length ≤ 59 →
      t.map asciiLower ≠ (Punycode.encode u).map asciiLower →
      LabelErr D U flags l .alabelRoundtripFailed
  | ulabelFault (e : Rc) : (∃ c ∈ l, 0x80 ≤ c) → FirstFault D U (labelTests flags) l e →
      LabelErr D U flags l e
  | ulabelLong (e : Rc) : (∃ c ∈ l, 0x80 ≤ c) → (∀ e, ¬ Fault D U (labelTests flags) l e) →
      TooLong l e → LabelErr D U flags l e
  /-- An ASCII character the Punycode decoder does not accept. -/
  | ulabelOther : (∃ c ∈ l, 0x80 ≤ c) → (∀ e, ¬ Fault D U (labelTests flags) l e) →
      (Punycode.encode l).length ≤ 59 → flags.testBit 7 = false →
      ¬ (∀ c ∈ l, c < 0x80 → isLDHU c) → LabelErr D U flags l .alabelRoundtripFailed

/-- Why a label is not valid according to UTS #46, unless it is an A-label that cannot be
decoded. -/
inductive Tr46Fault (D : Data) (U : Uni) (flags : Nat) (l : List Nat) (e : Rc) : Prop
  | alabel (t u : List Nat) : l = xn ++ t → Decodes t u →
      FirstFault D U (tr46TestsA flags) u e → Tr46Fault D U flags l e
  | ulabel : ¬ xn <+: l → FirstFault D U (tr46Tests flags) l e → Tr46Fault D U flags l e

/-- The error of UTS #46 processing of these labels.  An A-label that cannot be decoded stops the
processing; otherwise the last label that is not valid decides. -/
inductive Tr46Err (D : Data) (U : Uni) (flags : Nat) (ls : List (List Nat)) (e : Rc) : Prop
  | stop (pre post : List (List Nat)) (l : List Nat) : ls = pre ++ l :: post →
      (∀ l' ∈ pre, ∀ e', ¬ Undecodable l' e') → Undecodable l e → Tr46Err D U flags ls e
  | last (pre post : List (List Nat)) (l : List Nat) : ls = pre ++ l :: post →
      (∀ l' ∈ ls, ∀ e', ¬ Undecodable l' e') → Tr46Fault D U flags l e →
      (∀ l' ∈ post, Tr46Label D U flags l') → Tr46Err D U flags ls e

/-- The error of mapping, normalising and checking the name `u`. -/
inductive ProcessErr (D : Data) (U : Uni) (flags : Nat) (u : List Nat) : Rc → Prop
  | disallowed (c : Nat) : c ∈ u → D.status c = .disallowed → ProcessErr D U flags u .disallowed
  | long : (∀ c ∈ u, D.status c ≠ .disallowed) →
      255 ≤ (u.flatMap (emit D (flags.testBit 2) (flags.testBit 5))).length →
      ProcessErr D U flags u .tooBigDomain
  | nfc : (∀ c ∈ u, D.status c ≠ .disallowed) →
      (u.flatMap (emit D (flags.testBit 2) (flags.testBit 5))).length < 255 →
      U.nfc (u.flatMap (emit D (flags.testBit 2) (flags.testBit 5))) = none →
      ProcessErr D U flags u .encodingError
  | labels (x : List Nat) (e : Rc) : (∀ c ∈ u, D.status c ≠ .disallowed) →
      (u.flatMap (emit D (flags.testBit 2) (flags.testBit 5))).length < 255 →
      U.nfc (u.flatMap (emit D (flags.testBit 2) (flags.testBit 5))) = some x →
      Tr46Err D U flags (splitDot x) e → ProcessErr D U flags u e

/-- The labels are converted in order.  The first that cannot be converted, or makes the name too
long, decides. -/
structure FirstErr (ok : List Nat → List Nat → Prop) (err : List Nat → Rc → Prop)
    (ls : List (List Nat)) (e : Rc) : Prop where
  ex : ∃ pre l post ds, ls = pre ++ l :: post ∧ Each ok pre ds ∧
    (joinDot ds).length ≤ 253 ∧
    (err l e ∨ ∃ d, ok l d ∧ e = .tooBigDomain ∧
      (if post = [] ∧ d = [] then 254 else 253) < (joinDot (ds ++ [d])).length)

/-- Lookup of the name `u` fails with `e`. -/
def ToAsciiErr (D : Data) (U : Uni) (flags : Nat) (u : List Nat) (e : Rc) : Prop :=
  (flags.testBit 6 = false ∧ ProcessErr D U flags u e) ∨
  ∃ x, Processed D U flags u x ∧
    FirstErr (LabelTo D U flags) (LabelErr D U flags) (splitDot x) e

end Idn2.Spec
