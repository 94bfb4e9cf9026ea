import Verif.Spec.ToAscii
import Verif.Spec.PunyDecode

/-
A declarative account of ToUnicode.
-/

namespace Idn2.Spec

/-- The label `l` (bytes) is shown as the code points `x`. -/
inductive LabelFrom (l : List Nat) : List Nat → Prop
  /-- "xn--" in any case: what is behind it is Punycode. -/
  | alabel (x : List Nat) : XnPrefix l → Decodes (l.drop 4) x → LabelFrom l x
  /-- Anything else: UTF-8. -/
  | plain (x : List Nat) : ¬ XnPrefix l → (∀ c ∈ x, isScalar c) → l = utf8s x →
      x.length ≤ 63 → LabelFrom l x

/-- The name `s` (bytes) is shown as `v`. -/
def ToUnicode (s v : List Nat) : Prop :=
  ∃ xs, Each LabelFrom (splitDot s) xs ∧ v = joinDot xs ∧ v.length ≤ 255

/-- Why a label that does not begin with "xn--" is refused. -/
inductive PlainError (l : List Nat) : Rc → Prop
  | encoding : ¬ WellFormed l → PlainError l .encodingError
  | long (x : List Nat) : (∀ c ∈ x, isScalar c) → l = utf8s x → 63 < x.length →
      PlainError l .tooBigLabel

/-- Why to-unicode does not accept a label. -/
inductive LabelUnshown (l : List Nat) (e : Rc) : Prop
  | alabel : XnPrefix l → Punycode.Decoding 63 (l.drop 4) (.error e) → LabelUnshown l e
  | plain : ¬ XnPrefix l → PlainError l e → LabelUnshown l e

/-- To-unicode of the name `s` is refused with `e`: it is the complaint about the first label that
is not accepted, or that makes the name too long. -/
def ToUnicodeErr (s : List Nat) (e : Rc) : Prop :=
  ∃ pre l post xs, splitDot s = pre ++ l :: post ∧ Each LabelFrom pre xs ∧
    (xs.map (·.length + 1)).sum ≤ 255 ∧
    (LabelUnshown l e ∨ (e = .tooBigDomain ∧ ∃ x, LabelFrom l x ∧
      255 < (xs.map (·.length + 1)).sum + x.length + if post = [] then 0 else 1))

end Idn2.Spec
