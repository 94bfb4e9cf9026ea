import Verif.Model.Register
import Verif.Model.Decode
import Verif.Model.Cli

/-
The test programs tests/test-register.c, tests/test-tounicode.c, tests/test-punycode.c,
tests/test-strerror.c and tests/test-locale.c, for arbitrary functions in place of those of the
library.

Left out: what is printed (in test-register.c a null pointer may be printed with `%s` when the
library succeeds with a row that has no `out`); failed allocations of the programs themselves;
overflow of the counters; the calls at the end of test-tounicode.c (481-525) and the calls of
`idn2_check_version` in test-punycode.c (210-217, parameters), none of which ends a program.
-/

namespace Idn2.TestPrograms

/-! ### test-register.c -/

/-- A row of the table; test-register.c:28-35. -/
structure RegRow where
  alabel : Option (List Nat)
  ulabel : Option (List Nat)
  out : Option (List Nat)
  rc : Option Rc
  flags : Nat

/-- `idn2_register_u8` or `idn2_register_ul`, or something in its place: `ulabel`, `alabel`, the
output parameter, `flags`. -/
abbrev RegLib := Option (List Nat) → Option (List Nat) → Option Cell → Nat → Option Rc × Option Cell

/-- `idn2_lookup_u8` or something in its place. -/
abbrev LookLib := Option (List Nat) → Option Cell → Nat → Option Rc × Option Cell

/-- `strcmp (a, b) == 0`; test-register.c:149,163.  A pointer that is null or was never set must not be
used. -/
def strEq (a : Option Cell) (b : Option (List Nat)) : Out Bool :=
  match a, b with
  | some (.buf _ s), some t => .val (decide (s = t))
  | _, _ => .ub

/-- The string a pointer points to; test-register.c:163. -/
def pointee : Option Cell → Option (List Nat)
  | some (.buf _ s) => some s
  | _ => none

/-- The body of the loop; test-register.c:139-175.  `false` is the end of the program in `fail`:
`break_on_error` is 1 (108). -/
def registerRow (reg : RegLib) (lk : LookLib) (row : RegRow) : Out Bool := do
  let r := reg row.ulabel row.alabel (some (.old 0x1234)) row.flags
  if r.1 ≠ row.rc then pure false
  else
    match r.1 with
    | some _ => pure (decide (r.2 = some (.old 0x1234)))
    | none => do
      if !(← strEq r.2 row.out) then pure false
      else if r.2 = some (.old 0x1234) then pure false
      else do
        let l := lk row.ulabel (some (.old 0)) row.flags
        if l.1 ≠ none then pure false
        else strEq r.2 (pointee l.2)

/-- The loop; test-register.c:137-175. -/
def registerRows (reg : RegLib) (lk : LookLib) : List RegRow → Out Bool
  | [] => pure true
  | row :: r => do
    if ← registerRow reg lk row then registerRows reg lk r else pure false

/-- "xn+-xxx"; test-register.c:189. -/
def badPrefix : List Nat := [0x78, 0x6E, 0x2B, 0x2D, 0x78, 0x78, 0x78]

/-- "xn--\xff"; test-register.c:196. -/
def badByte : List Nat := [0x78, 0x6E, 0x2D, 0x2D, 0xFF]

/-- "faß"; test-register.c:206. -/
def fass : List Nat := [0x66, 0x61, 0xC3, 0x9F]

/-- The special calls; test-register.c:178-208.  The variable `out` goes from one to the next. -/
def registerSpecial (reg regl : RegLib) : Bool :=
  let r1 := reg none none none 0
  let r2 := reg none none (some (.old 0x123)) 0
  let r3 := reg none (some badPrefix) r2.2 0
  let r4 := reg none (some badByte) r3.2 0
  let r5 := regl none none none 0
  let r7 := reg (some fass) none none IDN2_NFC_INPUT
  decide (r1.1 = none) && decide (r2.1 = none) && decide (r2.2 = some .null)
    && decide (r3.1 = some .invalidAlabel) && decide (r3.2 = some .null)
    && decide (r4.1 = some .invalidAlabel) && decide (r4.2 = some .null)
    && decide (r5.1 = none) && decide (r7.1 = none)

/-- `main`; test-register.c:123-211: the exit status. -/
def registerMain (reg regl : RegLib) (lk : LookLib) (rows : List RegRow) : Out Nat := do
  if ← registerRows reg lk rows then pure (if registerSpecial reg regl then 0 else 1) else pure 1

/-! ### test-tounicode.c -/

/-- A row of the table; test-tounicode.c:32-38.  `expected` is the array before its zero. -/
structure UniRow where
  punycode : List Nat
  expected : List Nat
  rc : Option Rc

/-- The functions of the library, or some in their places.  `f44i` gives all the code points, also
those which do not fit; the strings are without their zeros. -/
structure UniLib where
  f8z4z : List Nat → Except Rc (List Nat)
  f4z4z : List Nat → Except Rc (List Nat)
  f44i : List Nat → Except Rc (List Nat)
  f8z8z : List Nat → Except Rc (List Nat)
  f8zlz : List Nat → Except Rc (List Nat)
  flzlz : List Nat → Except Rc (List Nat)

/-- `_check_4z`; test-tounicode.c:355-385: the new `error_count`.  `ucs4` may be null. -/
def check_4z (t : UniRow) (rc : Option Rc) (ucs4 : Option (List Nat)) (errors : Nat) : Out Nat :=
  if rc ≠ t.rc ∧ ¬ (rc = some .iconvFail ∧ t.rc = some .encodingError) then .val (errors + 1)
  else if rc = none then
    match ucs4 with
    | none => .ub
    | some u => .val (if t.expected ≠ u then errors + 1 else errors)
  else .val errors

/-- The return code. -/
def rcOf : Except Rc (List Nat) → Option Rc
  | .ok _ => none
  | .error e => some e

/-- A function that sets `ucs4` itself; test-tounicode.c:421-423,430-432. -/
def checkDirect (t : UniRow) (r : Except Rc (List Nat)) (errors : Nat) : Out Nat :=
  check_4z t (rcOf r) r.toOption errors

/-- `idn2_to_unicode_44i` with an array `q` of 128 elements, 127 of which may be written;
test-tounicode.c:434-438.  `u32_cpy_alloc` reads one element more than there are code points. -/
def check44i (t : UniRow) (r : Except Rc (List Nat)) (errors : Nat) : Out Nat :=
  match r with
  | .error e => check_4z t (some e) (some []) errors
  | .ok u => if u.length + 1 > 128 then .ub else check_4z t none (some u) errors

/-- A result in UTF-8; test-tounicode.c:442-450. -/
def check8z (t : UniRow) (r : Except Rc (List Nat)) (errors : Nat) : Out Nat :=
  match r with
  | .error e => check_4z t (some e) none errors
  | .ok b => check_4z t none (u8Decode b) errors

/-- A result in the encoding of the locale; test-tounicode.c:455-464, 469-478.  `conv` is
`u8_strconv_from_encoding`; the length of a null pointer is undefined. -/
def checkLz (conv : List Nat → Option (List Nat)) (t : UniRow) (r : Except Rc (List Nat))
    (errors : Nat) : Out Nat :=
  match r with
  | .error e => check_4z t (some e) none errors
  | .ok l =>
    match conv l with
    | none => .ub
    | some b => check_4z t none (u8Decode b) errors

/-- The body of the loop; test-tounicode.c:414-479.  `utf8` tells whether the charset is UTF-8. -/
def unicodeRow (L : UniLib) (utf8 : Bool) (conv : List Nat → Option (List Nat)) (t : UniRow)
    (errors : Nat) : Out Nat := do
  let n ← checkDirect t (L.f8z4z t.punycode) errors
  let n ← (match u8Decode t.punycode with
    | none => pure n
    | some w => do
      let n ← checkDirect t (L.f4z4z w) n
      check44i t (L.f44i w) n)
  let n ← check8z t (L.f8z8z t.punycode) n
  if !utf8 then pure n
  else do
    let n ← checkLz conv t (L.f8zlz t.punycode) n
    checkLz conv t (L.flzlz t.punycode) n

/-- The loop; test-tounicode.c:414-479. -/
def unicodeRows (L : UniLib) (utf8 : Bool) (conv : List Nat → Option (List Nat)) :
    List UniRow → Nat → Out Nat
  | [], errors => pure errors
  | t :: r, errors => do
    let n ← unicodeRow L utf8 conv t errors
    unicodeRows L utf8 conv r n

/-- `main`; test-tounicode.c:387-531: the exit status. -/
def unicodeMain (L : UniLib) (utf8 : Bool) (conv : List Nat → Option (List Nat))
    (rows : List UniRow) : Out Nat := do
  let n ← unicodeRows L utf8 conv rows 0
  pure (if n ≠ 0 then 1 else 0)

/-! ### test-punycode.c -/

/-- A row of the table; test-punycode.c:31-38. -/
structure PunyRow where
  input : List Nat
  out : List Nat
  rc : Option Rc

/-- The bytes of an array of `uint32_t`, the first being the least significant;
test-punycode.c:304. -/
def memory (w : List Nat) : List Nat :=
  w.flatMap fun c => [c % 256, c / 256 % 256, c / 65536 % 256, c / 16777216 % 256]

/-- The comparison of the encoding; test-punycode.c:260-271. -/
def encBad (row : PunyRow) (p : List Nat) : Bool := decide (row.out ≠ p)

/-- The comparison of the decoding; test-punycode.c:301-311: `outlen` bytes of the arrays, not
`outlen` elements. -/
def decBad (row : PunyRow) (q : List Nat) : Bool :=
  decide (row.input.length ≠ q.length) ||
    decide ((memory row.input).take q.length ≠ (memory q).take q.length)

/-- The body of the loop; test-punycode.c:229-315: the new `error_count`.  `break_on_error` is 0. -/
def punycodeRow (enc dec : List Nat → Except Rc (List Nat)) (row : PunyRow) (errors : Nat) : Nat :=
  if rcOf (enc row.input) ≠ row.rc then errors + 1
  else
    let n := match enc row.input with
      | .ok p => if encBad row p then errors + 1 else errors
      | .error _ => errors
    if rcOf (dec row.out) ≠ row.rc then n + 1
    else
      match dec row.out with
      | .ok q => if decBad row q then n + 1 else n
      | .error _ => n

/-- `main`; test-punycode.c:202-321: `error_count` at the end, and the exit status.  `version` calls of
`idn2_check_version` fail. -/
def punycodeMain (enc dec : List Nat → Except Rc (List Nat)) (version : Nat) (rows : List PunyRow) :
    Nat × Nat :=
  (rows.foldl (fun n row => punycodeRow enc dec row n) version, 0)

/-! ### test-strerror.c and test-locale.c -/

/-- The loop, for `n` more values from `i` on; test-strerror.c:28-34. -/
def strerrorLoop (str name : Int → Option String) : Nat → Int → Nat → Nat
  | 0, _, failed => failed
  | n + 1, i, failed =>
    let failed := if str i = none then failed + 1 else failed
    let failed := if name i = none then failed + 1 else failed
    strerrorLoop str name n (i + 1) failed

/-- `main`; test-strerror.c:22-37: the exit status.  A null pointer is `none`. -/
def strerrorMain (str name : Int → Option String) : Nat :=
  if strerrorLoop str name 2001 (-1000) 0 ≠ 0 then 1 else 0

/-- "abc" and "foo"; test-locale.c:52,58,67. -/
def abc : List Nat := [0x61, 0x62, 0x63]
def foo : List Nat := [0x66, 0x6F, 0x6F]

/-- `main`; test-locale.c:42-73: the exit status.  `iconv` is HAVE_ICONV; `break_on_error` is 1. -/
def localeMain (iconv : Bool) (lookup_ul to_ascii_lz : LookLib) (reg : RegLib) : Nat :=
  if !iconv then 77
  else if (lookup_ul (some abc) none 0).1 ≠ none then 1
  else if (to_ascii_lz (some abc) (some (.old 0)) 0).1 ≠ none then 1
  else if (reg (some foo) none none 0).1 ≠ none then 1
  else 0

end Idn2.TestPrograms
