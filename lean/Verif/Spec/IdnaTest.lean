import Verif.Spec.Domain
import Verif.Spec.Utf8

/-
The format of tests/IdnaTest.txt, from the comment at its beginning, and what it asks for.
-/

namespace Idn2.Spec.IdnaTest

/-! ### Columns -/

/-- Blank, tab, line feed, vertical tab, form feed, carriage return. -/
def Space (b : Nat) : Prop := b = 32 ∨ (9 ≤ b ∧ b ≤ 13)

/-- "Leading and trailing spaces and tabs in each column are ignored." -/
def Trimmed (f x : List Nat) : Prop :=
  ∃ a b, f = a ++ x ++ b ∧ (∀ c ∈ a, Space c) ∧ (∀ c ∈ b, Space c) ∧
    (∀ c, x.head? = some c → ¬ Space c) ∧ (∀ c, x.getLast? = some c → ¬ Space c)

/-- "Columns (c1, c2,...) are separated by semicolons." -/
def semicolons : List (List Nat) → List Nat
  | [] => []
  | [f] => f
  | f :: g :: r => f ++ 0x3B :: semicolons (g :: r)

/-- "Comments are indicated with hash marks." -/
def Columns (line : List Nat) (cols : List (List Nat)) : Prop :=
  ∃ fields comment, line = semicolons fields ++ comment ∧ fields ≠ [] ∧
    (comment = [] ∨ comment.head? = some 0x23) ∧ (∀ f ∈ fields, 0x3B ∉ f ∧ 0x23 ∉ f) ∧
    Each Trimmed fields cols

/-- Column `k`, counted from 0; blank if there is none. -/
def column (cols : List (List Nat)) (k : Nat) : List Nat := (cols[k]?).getD []

/-! ### Escapes -/

/-- An upper-case hexadecimal digit. -/
def hexDigit (d : Nat) : Nat := if d < 10 then 0x30 + d else 0x41 + (d - 10)

/-- `\uXXXX` -/
def escape (c : Nat) : List Nat :=
  [0x5C, 0x75, hexDigit (c / 4096), hexDigit (c / 256 % 16), hexDigit (c / 16 % 16), hexDigit (c % 16)]

/-- UTF-16 surrogates. -/
def High (c : Nat) : Prop := 0xD800 ≤ c ∧ c ≤ 0xDBFF
def Low (c : Nat) : Prop := 0xDC00 ≤ c ∧ c ≤ 0xDFFF
def high (c : Nat) : Nat := 0xD800 + (c - 0x10000) / 0x400
def low (c : Nat) : Nat := 0xDC00 + (c - 0x10000) % 0x400

/-- The characters `s` of a column stand for the code points `t`: "certain characters escaped using
the \uXXXX convention"; beyond U+FFFF by a surrogate pair.  The file has surrogates by themselves,
too. -/
inductive Written : List Nat → List Nat → Prop
  | nil : Written [] []
  | plain (c : Nat) (s t : List Nat) : c ≠ 0x5C ∨ s.head? ≠ some 0x75 → Written s t →
      Written (c :: s) (c :: t)
  | escape (c : Nat) (s t : List Nat) : c < 0x10000 → ¬ High c → Written s t →
      Written (escape c ++ s) (c :: t)
  | pair (c : Nat) (s t : List Nat) : 0x10000 ≤ c → c ≤ 0x10FFFF → Written s t →
      Written (IdnaTest.escape (high c) ++ IdnaTest.escape (low c) ++ s) (c :: t)
  | lone (c : Nat) (s t : List Nat) : High c →
      (∀ l, Low l → ¬ IdnaTest.escape l <+: s) → Written s t →
      Written (IdnaTest.escape c ++ s) (c :: t)

/-! ### Lines -/

/-- A test: the columns, the second with the escapes replaced. -/
structure Test where
  type : List Nat
  source : List Nat
  toUnicode : List Nat
  toASCII : List Nat
  nv8 : List Nat

/-- A line of the file without its line feed: nothing, a comment, or a test. -/
inductive Line (line : List Nat) : Option Test → Prop
  | blank : (∀ b ∈ line, Space b) → Line line none
  | comment (a r : List Nat) : (∀ b ∈ a, Space b) → line = a ++ 0x23 :: r → Line line none
  | test (a r s t : List Nat) (b : Nat) (cols : List (List Nat)) : 0 ∉ line →
      (∀ b ∈ a, Space b) → line = a ++ b :: r → ¬ Space b → b ≠ 0x23 → Columns line cols →
      (∀ c ∈ s, isScalar c) → column cols 1 = utf8s s → Written s t → 0 ∉ t →
      Line line (some ⟨column cols 0, t, column cols 2, column cols 3, column cols 4⟩)

/-- The text of the file. -/
def textOf (lines : List (List Nat)) : List Nat := lines.flatMap (· ++ [10])

/-! ### Tests -/

namespace Test

/-- "T for transitional, N for nontransitional, B for both" -/
def transitional (x : Test) : Bool := x.type.head? = some 0x54 || x.type.head? = some 0x42
def nontransitional (x : Test) : Bool := x.type.head? = some 0x4E || x.type.head? = some 0x42

/-- "A blank value means the same as the toUnicode value", and there "the same as the source
value". -/
def wanted (x : Test) : List Nat :=
  if x.toASCII ≠ [] then x.toASCII
  else if x.toUnicode ≠ [] then x.toUnicode else utf8s x.source

/-- "a value in [...] is a set of error codes" -/
def error (x : Test) : Bool := x.wanted.head? = some 0x5B

/-- The source can be given to lookup. -/
def proper (x : Test) : Prop := ∀ c ∈ x.source, isScalar c

instance (x : Test) : Decidable x.proper := by unfold proper; infer_instance

/-- What the file asks of toASCII with the given result.  A refusal of a name with "NV8" or "XV8" in
the fifth column is in order. -/
def Meets (x : Test) (r : Except Rc (List Nat)) : Prop :=
  if x.error = true then ∃ e, r = .error e
  else r = .ok x.wanted ∨ (x.nv8 ≠ [] ∧ ∃ e, r = .error e)

/-- The program tests x at all: the source can be given to lookup, and x is not the one that is left
out with an old version of libunistring, "xn--8jb.xn--etb875g". -/
def Ran (old : Bool) (x : Test) : Prop :=
  x.proper ∧ ¬ (old = true ∧ x.wanted =
    [0x78, 0x6E, 0x2D, 0x2D, 0x38, 0x6A, 0x62, 0x2E, 0x78, 0x6E, 0x2D, 0x2D, 0x65, 0x74, 0x62, 0x38,
      0x37, 0x35, 0x67])

/-- The nontransitional lookup of a name is refused, or yields something other than wanted. -/
def Missed (lk : List Nat → Nat → Except Rc (List Nat)) (old : Bool) (x : Test) : Prop :=
  x.Ran old ∧ x.nontransitional = true ∧ x.error = false ∧ ¬ x.Meets (lk (utf8s x.source) 8)

/-- The number of lookups made for x. -/
def calls (x : Test) : Nat := x.transitional.toNat + x.nontransitional.toNat

instance (r : Except Rc (List Nat)) : Decidable (∃ e, r = .error e) :=
  match r with
  | .error e => .isTrue ⟨e, rfl⟩
  | .ok _ => .isFalse (fun ⟨_, h⟩ => nomatch h)

instance (r : Except Rc (List Nat)) (n : List Nat) : Decidable (r = .ok n) :=
  match r with
  | .error _ => .isFalse (fun h => nomatch h)
  | .ok m => if h : m = n then .isTrue (by rw [h]) else .isFalse (fun h' => h (Except.ok.inj h'))

instance (x : Test) (r : Except Rc (List Nat)) : Decidable (x.Meets r) := by
  unfold Meets; infer_instance

instance (old : Bool) (x : Test) : Decidable (x.Ran old) := by
  unfold Ran; infer_instance

instance (lk : List Nat → Nat → Except Rc (List Nat)) (old : Bool) (x : Test) :
    Decidable (x.Missed lk old) := by
  unfold Missed; infer_instance

end Test

/-- The number of lookups made for a line. -/
def callsOf (old : Bool) : Option Test → Nat
  | none => 0
  | some x => if x.Ran old then x.calls else 0

/-- The number of those that are missed. -/
def missesOf (lk : List Nat → Nat → Except Rc (List Nat)) (old : Bool) : Option Test → Nat
  | none => 0
  | some x => if x.Missed lk old then 1 else 0

/-! ### The table -/

/-- What a row of the table in the program asks for; `rc` is `none` for -1 (anything), `some none`
for IDN2_OK. -/
def RowMeets (out : List Nat) (rc : Option (Option Rc)) (r : Except Rc (List Nat)) : Prop :=
  match rc with
  | none => ∀ n, r = .ok n → n = out
  | some none => r = .ok out
  | some (some e) => r = .error e

instance (out : List Nat) (rc : Option (Option Rc)) (r : Except Rc (List Nat)) :
    Decidable (RowMeets out rc r) :=
  match rc, r with
  | none, .ok n => decidable_of_iff (n = out) (by simp [RowMeets])
  | none, .error _ => isTrue (by simp [RowMeets])
  | some none, .ok n => decidable_of_iff (n = out) (by simp [RowMeets])
  | some none, .error _ => isFalse (by simp [RowMeets])
  | some (some _), .ok _ => isFalse (by simp [RowMeets])
  | some (some e), .error e' => decidable_of_iff (e' = e) (by simp [RowMeets])

/-- The outcome for which the program counts a row neither as passed nor as failed: the string is
wrongly encoded, and the row does not ask for that. -/
def Skips (rc : Option (Option Rc)) (r : Except Rc (List Nat)) : Prop :=
  r = .error .encodingError ∧ rc ≠ some (some .encodingError)

instance (rc : Option (Option Rc)) (r : Except Rc (List Nat)) : Decidable (Skips rc r) :=
  match r with
  | .ok _ => isFalse (by simp [Skips])
  | .error e => decidable_of_iff (e = .encodingError ∧ rc ≠ some (some .encodingError))
      (by simp [Skips])

/-- The flags tried for a row with the flags f: these; if no mode is asked for, NO_TR46 too; unless
another mode is asked for, NONTRANSITIONAL too. -/
def tried (f : Nat) : List Nat :=
  [f] ++ (if f.testBit 2 = false ∧ f.testBit 3 = false then [f ||| 64] else []) ++
    (if f.testBit 2 = false ∧ f.testBit 6 = false then [f ||| 8] else [])

end Idn2.Spec.IdnaTest
