import Verif.Model.Lookup
import Verif.Model.Cli
import Verif.Model.GenText

/-
The test program tests/test-lookup.c: the reader of IdnaTest.txt and the comparisons, for an
arbitrary function in place of `idn2_lookup_u8`.

Left out: what is printed, but for the numbers of the last line; failed allocations; overflow of the counters.  `test_unicode_range`
(1340-1377), which looks at no result, and the single calls in lines 1060-1136, of which the number
of failures is a parameter here, are in Verif/Model/TestLookupCalls.lean.  `break_on_error` is 0 (894).  `isspace` of a negative `char` is taken to be false,
as in the GNU C library; in ISO C it is undefined, although the file has columns which begin with
such a `char`.
-/

namespace Idn2.TestLookup

/-- `idn2_lookup_u8` or something in its place: a result or an error code. -/
abbrev Lib := List Nat → Nat → Except Rc (List Nat)

/-- `ok` and `failed`; test-lookup.c:893. -/
structure Tally where
  ok : Nat
  failed : Nat
  deriving DecidableEq, Repr

/-- `ok++` -/
def Tally.good (t : Tally) : Tally := ⟨t.ok + 1, t.failed⟩

/-- `failed++` -/
def Tally.bad (t : Tally) : Tally := ⟨t.ok, t.failed + 1⟩

/-- "trim leading and trailing whitespace"; test-lookup.c:914-918. -/
def trimField (s : List Nat) : List Nat :=
  ((s.dropWhile spaceByte).reverse.dropWhile spaceByte).reverse

/-- `_nextField`; test-lookup.c:896-921: the field and the new `*line`.  The cut is made as in
gentr46map.c. -/
def nextField (line : List Nat) : List Nat × List Nat :=
  match line with
  | [] => ([], [])
  | b :: r => (trimField (cutField (b :: r)).1, (cutField (b :: r)).2)

/-- A hexadecimal digit, in `uint32_t`; test-lookup.c:1160-1161. -/
def digit (c : Nat) : Nat :=
  if c ≥ 0x41 then u32 (c - 0x41 + 10) else u32 (c + 4294967296 - 0x30)

/-- Four of them, in `uint32_t`; test-lookup.c:1159-1166,1174-1189. -/
def quad (a b c d : Nat) : Nat :=
  u32 (digit a * 4096 + digit b * 256 + digit c * 16 + digit d)

/-- The loop of `_decodeIdnaTest` from the position `it` on; test-lookup.c:1155-1209.  The write
position never overtakes the read position.  Reading past the array is undefined. -/
def decodeLoop : List Nat → Out (List Nat)
  | [] => .val []
  | c :: r =>
    if c = 0x5C then
      match r with
      | [] => .ub
      | u :: r1 =>
        if u = 0x75 then
          match r1 with
          | d0 :: d1 :: d2 :: d3 :: r2 =>
            let v := quad d0 d1 d2 d3
            if 0xD800 ≤ v ∧ v ≤ 0xDBFF then
              match r2 with
              | [] => .ub
              | c' :: r3 =>
                if c' = 0x5C then
                  match r3 with
                  | [] => .ub
                  | u' :: r4 =>
                    if u' = 0x75 then
                      match r4 with
                      | e0 :: e1 :: e2 :: e3 :: r5 =>
                        let low := quad e0 e1 e2 e3
                        if 0xDC00 ≤ low ∧ low ≤ 0xDFFF then do
                          let x ← decodeLoop r5
                          pure ((0x10000 + (v - 0xD800) * 0x400 + (low - 0xDC00)) :: x)
                        else do
                          let x ← decodeLoop r5
                          pure (v :: x)
                      | _ => .ub
                    else do
                      let x ← decodeLoop (u' :: r4)
                      pure (v :: x)
                else do
                  let x ← decodeLoop r3
                  pure (v :: x)
            else do
              let x ← decodeLoop r2
              pure (v :: x)
          | _ => .ub
        else do
          let x ← decodeLoop (u :: r1)
          pure (c :: x)
    else do
      let x ← decodeLoop r
      pure (c :: x)

/-- `_decodeIdnaTest`; test-lookup.c:1139-1218: a C string, or a null pointer. -/
def decodeIdnaTest (src_u8 : List Nat) : Out (Option (List Nat)) :=
  match u8Decode src_u8 with
  | none => pure none
  | some src => do
    let x ← decodeLoop (src ++ [0])
    match u8Encode x with
    | none => pure none
    | some dst =>
      match cstr dst with
      | none => .ub
      | some s => pure (some s)

/-- `_check_toASCII`; test-lookup.c:1220-1257. -/
def check_toASCII (lk : Lib) (source expected : List Nat) (transitional xfail : Bool) (t : Tally) :
    Tally :=
  match lk source (if transitional then IDN2_TRANSITIONAL else IDN2_NONTRANSITIONAL) with
  | .error _ =>
    if xfail then t.good
    else if !transitional && decide (expected.head? ≠ some 0x5B) then t.bad
    else t.good
  | .ok ace =>
    if !transitional && decide (expected.head? ≠ some 0x5B) && decide (expected ≠ ace) then t.bad
    else t.good

/-- "xn--8jb.xn--etb875g"; test-lookup.c:1297. -/
def skipped : List Nat :=
  [0x78, 0x6E, 0x2D, 0x2D, 0x38, 0x6A, 0x62, 0x2E, 0x78, 0x6E, 0x2D, 0x2D, 0x65, 0x74, 0x62, 0x38,
    0x37, 0x35, 0x67]

/-- The part of `test_IdnaTest` behind the reading; test-lookup.c:1282-1324.  `old` tells whether
`_libunistring_version` is at most 9. -/
def checkLine (lk : Lib) (old : Bool) (type source toUnicode toASCII NV8 : List Nat) (t : Tally) :
    Tally :=
  let toUnicode := if toUnicode = [] then source else toUnicode
  let toASCII := if toASCII = [] then toUnicode else toASCII
  let xfail := decide (NV8 ≠ [])
  if old && decide (toASCII = skipped) then t
  else if type.head? = some 0x42 then
    check_toASCII lk source toASCII false xfail (check_toASCII lk source toASCII true xfail t)
  else if type.head? = some 0x54 then check_toASCII lk source toASCII true xfail t
  else if type.head? = some 0x4E then check_toASCII lk source toASCII false xfail t
  else t

/-- `test_IdnaTest`; test-lookup.c:1263-1330. -/
def test_IdnaTest (lk : Lib) (old : Bool) (linep : List Nat) (t : Tally) : Out Tally :=
  let f1 := nextField linep
  let f2 := nextField f1.2
  let f3 := nextField f2.2
  let f4 := nextField f3.2
  let f5 := nextField f4.2
  do
    match ← decodeIdnaTest f2.1 with
    | none => pure t
    | some source => pure (checkLine lk old f1.1 source f3.1 f4.1 f5.1 t)

/-- The body of the loop of `_scan_file`; test-lookup.c:939-952. -/
def scanLine (lk : Lib) (old : Bool) (buf : List Nat) (t : Tally) : Out Tally :=
  match (stripEol (lineStr buf) (lineStr buf).length).dropWhile spaceByte with
  | [] => pure t
  | b :: r => if b = 0x23 then pure t else test_IdnaTest lk old (b :: r) t

/-- `_scan_file`; test-lookup.c:923-959: the lines `getline` delivers, one after the other. -/
def scanFile (lk : Lib) (old : Bool) (text : List Nat) (t : Tally) : Out Tally :=
  if _h : (getline text).1.length > 0 then do
    let t ← scanLine lk old (getline text).1 t
    scanFile lk old (getline text).2 t
  else pure t
termination_by text.length
decreasing_by
  have := getline_length text
  omega

/-- A row of the table; test-lookup.c:33-39.  `rc` is `none` for -1, `some none` for IDN2_OK. -/
structure Row where
  input : List Nat
  out : List Nat
  rc : Option (Option Rc)
  flags : Nat

/-- One call and its comparison; test-lookup.c:971-991. -/
def checkRow (lk : Lib) (row : Row) (flags : Nat) (t : Tally) : Tally :=
  match lk row.input flags with
  | .error e =>
    if some (some e) ≠ row.rc ∧ e = .encodingError then t
    else if some (some e) ≠ row.rc ∧ row.rc ≠ none then t.bad
    else t.good
  | .ok out =>
    if some none ≠ row.rc ∧ row.rc ≠ none then t.bad
    else if out ≠ row.out then t.bad
    else t.good

/-- The calls for one row; test-lookup.c:971-1054. -/
def testRow (lk : Lib) (row : Row) (t : Tally) : Tally :=
  let t := checkRow lk row row.flags t
  let t := if row.flags &&& (IDN2_NONTRANSITIONAL ||| IDN2_TRANSITIONAL) = 0 then
    checkRow lk row (row.flags ||| IDN2_NO_TR46) t else t
  if row.flags &&& (IDN2_NO_TR46 ||| IDN2_TRANSITIONAL) = 0 then
    checkRow lk row (row.flags ||| IDN2_NONTRANSITIONAL) t else t

/-- `test_homebrewed`; test-lookup.c:961-1137.  `special` of the seven single calls fail. -/
def test_homebrewed (lk : Lib) (rows : List Row) (special : Nat) (t : Tally) : Tally :=
  let t := rows.foldl (fun t row => testRow lk row t) t
  ⟨t.ok + (7 - special), t.failed + special⟩

/-- `main`; test-lookup.c:1379-1410: the exit status, and the numbers in the line "Summary" (of
failed tests and of tests; the first is not printed if it is 0).  `file` is the contents of the
file, `none` if it cannot be opened. -/
def main (lk : Lib) (old : Bool) (rows : List Row) (special : Nat) (file : Option (List Nat)) :
    Out (Nat × Option (Nat × Nat)) := do
  let t := test_homebrewed lk rows special ⟨0, 0⟩
  match file with
  | none => pure (1, none)
  | some text =>
    let t ← scanFile lk old text t
    pure (if t.failed ≠ 0 then 1 else 0, some (t.failed, t.ok + t.failed))

end Idn2.TestLookup
