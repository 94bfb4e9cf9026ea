import Verif.Spec.Utf8

/-
Which calls of the library the fuzz targets, and the lookup test outside of its tables, are to make.  Strings are given by their elements before
the terminating zero, arrays by their elements, and output parameters by whether there is one.
-/

namespace Idn2.Spec

/-- A call of the library. -/
inductive LibCall where
  | lookup_u8 (input : Option (List Nat)) (out : Bool) (flags : Nat)
  | lookup_ul (input : Option (List Nat)) (out : Bool) (flags : Nat)
  | register_ul (ulabel alabel : Option (List Nat)) (out : Bool) (flags : Nat)
  | to_ascii_8z (input : Option (List Nat)) (out : Bool) (flags : Nat)
  | to_ascii_lz (input : Option (List Nat)) (out : Bool) (flags : Nat)
  /-- With the number of elements for which the output array has room. -/
  | to_ascii_4i (input : Option (List Nat)) (room : Option Nat) (flags : Nat)
  | to_ascii_4i2 (input : Option (List Nat)) (out : Bool) (flags : Nat)
  | to_ascii_4z (input : Option (List Nat)) (out : Bool) (flags : Nat)
  | to_unicode_lzlz (input : Option (List Nat)) (out : Bool) (flags : Nat)
  | to_unicode_4z4z (input : Option (List Nat)) (out : Bool) (flags : Nat)
  | to_unicode_8z4z (input : Option (List Nat)) (out : Bool) (flags : Nat)
  /-- With the room of the output array, and the number that is passed as its length. -/
  | to_unicode_44i (input : Option (List Nat)) (room : Option Nat) (len : Option Nat) (flags : Nat)
  | check_version (req : Option (List Nat))
  deriving DecidableEq, Repr

open LibCall

/-- `s` is the C string at the beginning of the array `a`, behind which there is a zero. -/
def IsCString (a s : List Nat) : Prop :=
  0 ∉ s ∧ ∃ rest, a ++ [0] = s ++ 0 :: rest

/-- `w` are the 32-bit numbers that the bytes `data` are on a little-endian machine. -/
def AreWords (data w : List Nat) : Prop :=
  4 * w.length = data.length ∧ ∀ i, i < w.length →
    w[i]? = some (data.getD (4 * i) 0 + data.getD (4 * i + 1) 0 * 2 ^ 8 +
      data.getD (4 * i + 2) 0 * 2 ^ 16 + data.getD (4 * i + 3) 0 * 2 ^ 24)

/-- The calls of the register target, where `u` is the data as a C string and `a` its first part as
an A-label: only for empty data there are calls without an input or without an output. -/
def registerCalls (empty : Bool) (u a : List Nat) : List LibCall :=
  (if empty then [register_ul none none true 0, register_ul (some u) none false 0] else []) ++
  [register_ul (some u) none true 0, register_ul none (some a) true 0] ++
  (if empty then [register_ul none (some a) false 0] else [])

/-- The values of the flags that are tested: none, NFC input, transitional, nontransitional, and the
last two with the rules of STD3. -/
def testedFlags : List Nat := [0, 1, 4, 8, 4 + 32, 8 + 32]

/-- The calls of the to-ASCII target without input or without output. -/
def asciiNullCalls (s : List Nat) : List LibCall :=
  [to_ascii_8z none true 0, to_ascii_8z none false 0, to_ascii_8z (some s) false 0,
   to_ascii_lz none true 0, to_ascii_lz none false 0, to_ascii_lz (some s) false 0,
   to_ascii_4i none (some 1) 0, to_ascii_4i none none 0, to_ascii_4i (some []) none 0,
   to_ascii_4i2 none true 0, to_ascii_4i2 none false 0, to_ascii_4i2 (some []) false 0,
   to_ascii_4z none true 0, to_ascii_4z none false 0, to_ascii_4z (some []) false 0]

/-- The calls of the to-ASCII target; `w` are the numbers in the data and `z` those before the first
zero, if the length of the data is a multiple of four. -/
def asciiCalls (empty : Bool) (s : List Nat) (wz : Option (List Nat × List Nat)) : List LibCall :=
  (if empty then asciiNullCalls s else []) ++
  testedFlags.flatMap (fun f => [to_ascii_8z (some s) true f, to_ascii_lz (some s) true f]) ++
  match wz with
  | none => []
  | some (w, z) =>
    [to_ascii_4i (some w) (some 64) 0] ++ testedFlags.map (to_ascii_4i2 (some w) true) ++
    testedFlags.map (to_ascii_4z (some z) true)

/-- The calls of the to-Unicode target. -/
def unicodeCalls (empty : Bool) (s : List Nat) (w : Option (List Nat)) : List LibCall :=
  (if empty then
    [check_version none,
     to_unicode_lzlz none true 0, to_unicode_lzlz none false 0, to_unicode_lzlz (some s) false 0,
     to_unicode_4z4z none true 0, to_unicode_4z4z none false 0, to_unicode_4z4z (some []) false 0,
     to_unicode_8z4z none true 0, to_unicode_8z4z none false 0, to_unicode_8z4z (some s) false 0,
     to_unicode_44i none (some 0) (some 0) 0, to_unicode_44i none none (some 0) 0]
   else []) ++
  [check_version (some s), to_unicode_lzlz (some s) true 0] ++
  match w with
  | none => []
  | some w => [to_unicode_44i (some w) (some w.length) (some w.length) 0]

/-- The single calls of the lookup test; in the cases marked, a null pointer must be returned.
Without an input there is no output; "abc" is looked up as a string of bytes and of 32-bit numbers
with the flags NFC_INPUT and NONTRANSITIONAL, and as an array with its terminating zero. -/
def singleCalls : List (LibCall × Bool) :=
  [(lookup_u8 none false 0, false), (lookup_u8 none true 0, true),
   (lookup_ul none false 0, false), (lookup_ul none true 0, true),
   (to_ascii_8z (some [97, 98, 99]) true 9, false), (to_ascii_4z (some [97, 98, 99]) true 9, false),
   (to_ascii_4i2 (some [97, 98, 99, 0]) true 0, false)]

/-- The answer is the one asked for: success, with a null pointer if `null`. -/
def SingleMeets (null : Bool) : Except Rc (Option (List Nat)) → Prop
  | .ok out => null = true → out = none
  | .error _ => False

instance (null : Bool) (a : Except Rc (Option (List Nat))) : Decidable (SingleMeets null a) := by
  unfold SingleMeets
  cases a <;> infer_instance

/-- The calls that the lookup test makes for the number `i`: by itself it is looked up in five
modes; a number that is no scalar value cannot be converted and becomes a null pointer. -/
def rangeCalls (i : Nat) : List LibCall :=
  [0, 1, 4, 8, 64].map
    (lookup_u8 (if isScalar i then some (if i = 0 then [] else utf8 i) else none) true)

end Idn2.Spec
