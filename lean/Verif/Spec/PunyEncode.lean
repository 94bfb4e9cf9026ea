import Verif.Basic
import Verif.Spec.Punycode
import Verif.Spec.PunyDecode

/-
The outcome of Punycode encoding (RFC 3492 sections 3 and 6.3) for every string, with the limits
of 32-bit arithmetic and of the output: the encoding, or what is wrong first.
-/

namespace Idn2.Spec.Punycode

/-- The basic code points of `u` and the delimiter behind them fit. -/
def HeadFits (cap : Nat) (u : List Nat) : Prop := (headPart u).length ≤ cap

/-- State before the insertion behind `xs`. -/
def after (u : List Nat) (xs : List (Nat × Nat)) : St :=
  xs.foldl (next (basics u).length) (init (basics u).length)

/-- Length of what is written up to the insertions `xs`. -/
def written (u : List Nat) (xs : List (Nat × Nat)) : Nat :=
  (headPart u).length + (codes (basics u).length (init (basics u).length) xs).length

/-- The insertions `xs` have been written: their deltas are numbers of 32 bits and there was
room. -/
def Written (cap : Nat) (u : List Nat) (xs : List (Nat × Nat)) : Prop :=
  (∀ d ∈ deltas (basics u).length (init (basics u).length) xs, d ≤ max32) ∧ written u xs ≤ cap

/-- The outcome of encoding the string `u` into an array of `cap` characters. -/
inductive Encoding (cap : Nat) (u : List Nat) : Except Rc (List Nat) → Prop
  | long : max32 < u.length → Encoding cap u (.error .punycodeOverflow)
  /-- The code point `x` cannot be encoded, and what is before it is in order. -/
  | bad (p : List Nat) (x : Nat) (r : List Nat) : u.length ≤ max32 → u = p ++ x :: r →
      Encodable p → HeadFits cap p → ¬ Insertable x → Encoding cap u (.error .punycodeBadInput)
  /-- There is no room for the basic code point `x` and the delimiter. -/
  | head (p : List Nat) (x : Nat) (r : List Nat) : u.length ≤ max32 → u = p ++ x :: r →
      Encodable p → HeadFits cap p → x < 0x80 → ¬ HeadFits cap (p ++ [x]) →
      Encoding cap u (.error .punycodeBigOutput)
  /-- The delta of the insertion `x` is too large. -/
  | large (xs : List (Nat × Nat)) (x : Nat × Nat) (ys : List (Nat × Nat)) : u.length ≤ max32 →
      Encodable u → HeadFits cap u → insertions u = xs ++ x :: ys → Written cap u xs →
      max32 < delta (after u xs) x → Encoding cap u (.error .punycodeOverflow)
  /-- There is no room for the digits of the insertion `x`. -/
  | full (xs : List (Nat × Nat)) (x : Nat × Nat) (ys : List (Nat × Nat)) : u.length ≤ max32 →
      Encodable u → HeadFits cap u → insertions u = xs ++ x :: ys → Written cap u xs →
      delta (after u xs) x ≤ max32 → cap < written u (xs ++ [x]) →
      Encoding cap u (.error .punycodeBigOutput)
  | done : u.length ≤ max32 → Encodable u → HeadFits cap u → Written cap u (insertions u) →
      Encoding cap u (.ok (encode u))

end Idn2.Spec.Punycode
