/-
Specification of Punycode (RFC 3492) over unbounded integers, independent of the
model of the C code.

An extended string `u` is described by its basic (ASCII) code points and by the
sequence of *insertions* that rebuild it: code points in increasing order, equal code
points from left to right, each with the position at which it has to be inserted
(RFC 3492 section 3.2).  Each insertion is sent as a *delta* (the number of
`(n, i)` states skipped, section 3.2) written as a generalised variable-length integer
(section 3.3) with thresholds adapted by section 3.4.
-/

namespace Idn2.Spec.Punycode

/-- RFC 3492 section 6.1, unbounded integers: the division loop and final formula. -/
def adaptGo (d k : Nat) : Nat :=
  if 455 < d then adaptGo (d / 35) (k + 36) else k + 36 * d / (d + 38)
termination_by d
decreasing_by omega

/-- RFC 3492 section 6.1: bias adaptation. -/
def adapt (delta numpoints : Nat) (first : Bool) : Nat :=
  let d := if first then delta / 700 else delta / 2
  adaptGo (d + d / numpoints) 0

/-- RFC 3492 section 3.3/3.4: threshold `t(j)` for `k = 36 (j+1)`: `k - bias` clamped to
`tmin = 1 .. tmax = 26`. -/
def threshold (k bias : Nat) : Nat := max 1 (min 26 (k - bias))

/-- RFC 3492 section 3.3: little-endian digits of `q`, first digit at weight index
`k / 36`. -/
def digits (bias q k : Nat) : List Nat :=
  let t := threshold k bias
  if q < t then [q]
  else (t + (q - t) % (36 - t)) :: digits bias ((q - t) / (36 - t)) (k + 36)
termination_by q
decreasing_by
  have : 1 ≤ threshold k bias := by unfold threshold; omega
  have h1 : (q - threshold k bias) / (36 - threshold k bias) ≤ q - threshold k bias :=
    Nat.div_le_self _ _
  omega

/-- RFC 3492 section 5: 0..25 are `a..z`, 26..35 are `0..9`. -/
def digitChar (d : Nat) : Nat := if d < 26 then 0x61 + d else 0x30 + (d - 26)

/-- The insertions of code point `m` while scanning `u` from left to right; `seen` is the
number of code points `≤ m` already passed, i.e. the position in the string rebuilt so
far. -/
def insertionsAt (m : Nat) : Nat → List Nat → List (Nat × Nat)
  | _, [] => []
  | seen, x :: r =>
    if x = m then (m, seen) :: insertionsAt m (seen + 1) r
    else if x < m then insertionsAt m (seen + 1) r
    else insertionsAt m seen r

/-- Insertions for all code points `≥ n`, in increasing order. -/
def insertionsFrom (n : Nat) (u : List Nat) : List (Nat × Nat) :=
  (List.range' n (0x110000 - n)).flatMap fun m => insertionsAt m 0 u

/-- All insertions of `u`. -/
def insertions (u : List Nat) : List (Nat × Nat) := insertionsFrom 0x80 u

/-- State between two insertions: the next candidate `(n, i)`, the number `h` of code
points present, the bias. -/
structure St where
  n : Nat
  i : Nat
  h : Nat
  bias : Nat

/-- The delta for inserting code point `x.1` at position `x.2`. -/
def delta (s : St) (x : Nat × Nat) : Nat := (x.1 - s.n) * (s.h + 1) + x.2 - s.i

/-- State after an insertion; `b` is the number of basic code points. -/
def next (b : Nat) (s : St) (x : Nat × Nat) : St :=
  ⟨x.1, x.2 + 1, s.h + 1, adapt (delta s x) (s.h + 1) (s.h == b)⟩

/-- All deltas. -/
def deltas (b : Nat) : St → List (Nat × Nat) → List Nat
  | _, [] => []
  | s, x :: xs => delta s x :: deltas b (next b s x) xs

/-- All digits. -/
def codes (b : Nat) : St → List (Nat × Nat) → List Nat
  | _, [] => []
  | s, x :: xs => digits s.bias (delta s x) 36 ++ codes b (next b s x) xs

/-- The basic code points of `u`. -/
def basics (u : List Nat) : List Nat := u.filter (· < 0x80)

/-- Initial state with `b` basic code points. -/
def init (b : Nat) : St := ⟨0x80, 0, b, 72⟩

/-- RFC 3492 section 3.1: basic code points and delimiter. -/
def headPart (u : List Nat) : List Nat :=
  basics u ++ (if basics u = [] then [] else [0x2D])

/-- The Punycode encoding of `u`. -/
def encode (u : List Nat) : List Nat :=
  headPart u ++ (codes (basics u).length (init (basics u).length) (insertions u)).map digitChar

/-- All deltas of `u`. -/
def allDeltas (u : List Nat) : List Nat :=
  deltas (basics u).length (init (basics u).length) (insertions u)

/-- Code points the encoder accepts: at most U+10FFFF and not a high surrogate. -/
def Encodable (u : List Nat) : Prop :=
  ∀ x ∈ u, x ≤ 0x10FFFF ∧ ¬ (0xD800 ≤ x ∧ x ≤ 0xDBFF)

end Idn2.Spec.Punycode
