import Verif.Spec.ToAsciiNfc
import Verif.Spec.Flags

/-
The complete declarative account of lookup: of any flags and any string of bytes, the result or
the error code.
-/

namespace Idn2.Spec

/-- The label with the bytes `l` is converted to `d`. -/
def BytesTo (D : Data) (U : Uni) (flags : Nat) (l d : List Nat) : Prop :=
  ∃ u, (∀ c ∈ u, isScalar c) ∧ l = utf8s u ∧
    if flags.testBit 0 then LabelToNfc D U flags u d else LabelTo D U flags u d

/-- The label with the bytes `l` cannot be converted. -/
def BytesErr (D : Data) (U : Uni) (flags : Nat) (l : List Nat) (e : Rc) : Prop :=
  (¬ WellFormed l ∧ e = .encodingError) ∨
  ∃ u, (∀ c ∈ u, isScalar c) ∧ l = utf8s u ∧
    if flags.testBit 0 then LabelErrNfc D U flags u e else LabelErr D U flags u e

/-- Lookup of the bytes `s` ends with this result or error. -/
inductive Lookup (D : Data) (U : Uni) (flags : Nat) (s : List Nat) : Except Rc (List Nat) → Prop
  | conflict : Conflict flags → Lookup D U flags s (.error .invalidFlags)
  /-- UTS #46 processing needs well-formed UTF-8. -/
  | malformed : ¬ Conflict flags → flags.testBit 6 = false → ¬ WellFormed s →
      Lookup D U flags s (.error .encodingError)
  | result (u n : List Nat) : ¬ Conflict flags → flags.testBit 6 = false →
      (∀ c ∈ u, isScalar c) → s = utf8s u → ToAscii D U flags u n → Lookup D U flags s (.ok n)
  | error (u : List Nat) (e : Rc) : ¬ Conflict flags → flags.testBit 6 = false →
      (∀ c ∈ u, isScalar c) → s = utf8s u → ToAsciiErr D U flags u e →
      Lookup D U flags s (.error e)
  /-- Without it the labels are taken as they are; one that is malformed matters only if it is
  reached. -/
  | labels (ds : List (List Nat)) : ¬ Conflict flags → flags.testBit 6 = true →
      Each (BytesTo D U flags) (splitDot s) ds →
      (joinDot ds).length ≤ (if ds.getLast? = some [] then 254 else 253) →
      Lookup D U flags s (.ok (joinDot ds))
  | label (e : Rc) : ¬ Conflict flags → flags.testBit 6 = true →
      FirstErr (BytesTo D U flags) (BytesErr D U flags) (splitDot s) e →
      Lookup D U flags s (.error e)

end Idn2.Spec
