import Verif.Basic
import Verif.Spec.Punycode
import Verif.Spec.Ascii

/-
The outcome of Punycode decoding (RFC 3492 sections 3 and 6.2) for every string, with the
limits of 32-bit arithmetic and of the output: which string comes out, or what is wrong first.
-/

namespace Idn2.Spec.Punycode

/-- The greatest number of 32 bits. -/
def max32 : Nat := 2 ^ 32 - 1

/-- Value of a digit; either case, and `_` counts as `a`. -/
def digitOf (c : Nat) : Nat :=
  if canonChar c < 0x61 then canonChar c - 0x30 + 26 else canonChar c - 0x61

/-- Weight of the digit number `j` of a number. -/
def weight (bias : Nat) : Nat → Nat
  | 0 => 1
  | j + 1 => weight bias j * (36 - threshold (36 * (j + 1)) bias)

/-- Sum of the digits with their weights. -/
def value (bias : Nat) (ds : List Nat) : Nat := (ds.mapIdx fun j d => d * weight bias j).sum

/-- None of the digits is the last one of a number. -/
def Open (bias : Nat) (ds : List Nat) : Prop :=
  ∀ j d, ds[j]? = some d → threshold (36 * (j + 1)) bias ≤ d

/-- The digits `ds` have been read, and there has been no overflow: `i` increased by them and the
weight of the next digit fit 32 bits. -/
def Fits (bias i : Nat) (ds : List Nat) : Prop :=
  weight bias ds.length ≤ max32 ∧ i + value bias ds ≤ max32

/-- A number is read from the digits `ds` and added to `i`: its value and the digits behind it, or
what is wrong. -/
inductive Reads (bias i : Nat) (ds : List Nat) : Except Rc (Nat × List Nat) → Prop
  | number (p : List Nat) (d : Nat) (r : List Nat) : ds = p ++ d :: r → Open bias p →
      Fits bias i p → d < threshold (36 * (p.length + 1)) bias →
      i + value bias (p ++ [d]) ≤ max32 → Reads bias i ds (.ok (value bias (p ++ [d]), r))
  /-- The digits end before the number does. -/
  | cut : Open bias ds → Fits bias i ds → Reads bias i ds (.error .punycodeBadInput)
  /-- It becomes too large, or the weight of the next digit would be. -/
  | large (p : List Nat) (d : Nat) (r : List Nat) : ds = p ++ d :: r → Open bias p →
      Fits bias i p →
      (max32 < i + value bias (p ++ [d]) ∨
        (threshold (36 * (p.length + 1)) bias ≤ d ∧ max32 < weight bias (p.length + 1))) →
      Reads bias i ds (.error .punycodeOverflow)

/-- `(m, p)` is the insertion that is `v` states after the candidate of `s`. -/
def At (s : St) (v : Nat) (x : Nat × Nat) : Prop :=
  s.n ≤ x.1 ∧ x.2 ≤ s.h ∧ (x.1 - s.n) * (s.h + 1) + x.2 = s.i + v

/-- Code points that may be inserted. -/
def Insertable (m : Nat) : Prop := m ≤ 0x10FFFF ∧ ¬ (0xD800 ≤ m ∧ m ≤ 0xDBFF)

instance (m : Nat) : Decidable (Insertable m) := by unfold Insertable; infer_instance

/-- From state `s`, with the string `o` so far and the digits `ds` to go, decoding ends like
this.  There is room for `cap` code points. -/
inductive Runs (cap b : Nat) : St → List Nat → List Nat → Except Rc (List Nat) → Prop
  | done (s : St) (o : List Nat) : Runs cap b s o [] (.ok o)
  | number (s : St) (o ds : List Nat) (e : Rc) : ds ≠ [] → Reads s.bias s.i ds (.error e) →
      Runs cap b s o ds (.error e)
  | large (s : St) (o ds r : List Nat) (v : Nat) (x : Nat × Nat) : ds ≠ [] →
      Reads s.bias s.i ds (.ok (v, r)) → At s v x → max32 < x.1 →
      Runs cap b s o ds (.error .punycodeOverflow)
  | bad (s : St) (o ds r : List Nat) (v : Nat) (x : Nat × Nat) : ds ≠ [] →
      Reads s.bias s.i ds (.ok (v, r)) → At s v x → x.1 ≤ max32 → ¬ Insertable x.1 →
      Runs cap b s o ds (.error .punycodeBadInput)
  | full (s : St) (o ds r : List Nat) (v : Nat) (x : Nat × Nat) : ds ≠ [] →
      Reads s.bias s.i ds (.ok (v, r)) → At s v x → Insertable x.1 → cap ≤ s.h →
      Runs cap b s o ds (.error .punycodeBigOutput)
  | step (s : St) (o ds r : List Nat) (v : Nat) (x : Nat × Nat) (y : Except Rc (List Nat)) :
      ds ≠ [] → Reads s.bias s.i ds (.ok (v, r)) → At s v x → Insertable x.1 → s.h < cap →
      Runs cap b (next b s x) (o.insertIdx x.2 x.1) r y → Runs cap b s o ds y

/-- The outcome of decoding the string `t` into an array of `cap` code points. -/
inductive Decoding (cap : Nat) (t : List Nat) : Except Rc (List Nat) → Prop
  | empty : t = [] → Decoding cap t (.error .punycodeBadInput)
  | char : (∃ c ∈ t, ¬ isLDHU c) → Decoding cap t (.error .punycodeBadInput)
  /-- The delimiter is the first or last character. -/
  | edge : (∀ c ∈ t, isLDHU c) → (∃ bs ds, t = bs ++ 0x2D :: ds ∧ 0x2D ∉ ds ∧ (bs = [] ∨ ds = [])) →
      Decoding cap t (.error .punycodeBadInput)
  | full (bs ds : List Nat) : (∀ c ∈ t, isLDHU c) → t = bs ++ 0x2D :: ds → 0x2D ∉ ds → bs ≠ [] →
      ds ≠ [] → cap ≤ bs.length → Decoding cap t (.error .punycodeBigOutput)
  | delimited (bs ds : List Nat) (y : Except Rc (List Nat)) : (∀ c ∈ t, isLDHU c) →
      t = bs ++ 0x2D :: ds → 0x2D ∉ ds → bs ≠ [] → ds ≠ [] → bs.length < cap →
      Runs cap bs.length (init bs.length) bs (ds.map digitOf) y → Decoding cap t y
  | plain (y : Except Rc (List Nat)) : t ≠ [] → (∀ c ∈ t, isLDHU c) → 0x2D ∉ t →
      Runs cap 0 (init 0) [] (t.map digitOf) y → Decoding cap t y

end Idn2.Spec.Punycode
