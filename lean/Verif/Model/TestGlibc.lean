import Verif.Model.TestPrograms

/-
The test program tests/test-glibc.c, for arbitrary locales and arbitrary functions in place of those of
the library.

Left out: what is printed; failed allocations of the program itself; overflow of the counter; MinGW.
-/

namespace Idn2.TestGlibc

open TestPrograms

/-- `enum charset_kind`; test-glibc.c:49-52. -/
inductive Kind where
  | utf8 | latin1 | neither
  deriving DecidableEq, Repr

/-- A locale that is installed: what `locale_charset` gives, `wcsrtombs` on an array (`none` is its error;
the results fit the buffer of 100 bytes), and the two functions of the library under it. -/
structure Loc where
  charset : List Nat
  wcs : List Nat → Option (List Nat)
  lookup_ul : LookLib
  to_unicode_lzlz : LookLib

/-- `L_naemchen`, `naemchen_latin1`, `naemchen_utf8`, `L_shem`, `shem_utf8`; test-glibc.c:38-47. -/
def L_naemchen : List Nat := [0x6E, 0xE4, 0x6D, 0x63, 0x68, 0x65, 0x6E]
def naemchen_latin1 : List Nat := [0x6E, 0xE4, 0x6D, 0x63, 0x68, 0x65, 0x6E]
def naemchen_utf8 : List Nat := [0x6E, 0xC3, 0xA4, 0x6D, 0x63, 0x68, 0x65, 0x6E]
def L_shem : List Nat := [0x5E9, 0x5DD]
def shem_utf8 : List Nat := [0xD7, 0xA9, 0xD7, 0x9D]

/-- "UTF-8", "ISO-8859-1", "ISO-8859-15", "CP1252"; test-glibc.c:85-89. -/
def utf8Name : List Nat := [0x55, 0x54, 0x46, 0x2D, 0x38]
def iso1Name : List Nat := [0x49, 0x53, 0x4F, 0x2D, 0x38, 0x38, 0x35, 0x39, 0x2D, 0x31]
def iso15Name : List Nat := [0x49, 0x53, 0x4F, 0x2D, 0x38, 0x38, 0x35, 0x39, 0x2D, 0x31, 0x35]
def cpName : List Nat := [0x43, 0x50, 0x31, 0x32, 0x35, 0x32]

/-- `wcsrtombs_strdup`; test-glibc.c:55-75. -/
def wcsrtombs_strdup (L : Loc) (input : List Nat) : List Nat :=
  match L.wcs input with
  | none => []
  | some b => b

/-- `determine_current_charset_kind`; test-glibc.c:79-118.  `none` is the end of the program. -/
def determine_current_charset_kind (L : Loc) : Option Kind :=
  let expected :=
    if L.charset = utf8Name then Kind.utf8
    else if L.charset = iso1Name ∨ L.charset = iso15Name ∨ L.charset = cpName then .latin1
    else .neither
  let naemchen_bytes := wcsrtombs_strdup L L_naemchen
  let shem_bytes := wcsrtombs_strdup L L_shem
  let actual :=
    if naemchen_bytes = naemchen_utf8 ∧ shem_bytes = shem_utf8 then Kind.utf8
    else if naemchen_bytes = naemchen_latin1 ∧ shem_bytes = [] then .latin1
    else .neither
  if expected ≠ actual then none else some actual

/-- `check_success`; test-glibc.c:122-142: the new `errors`. -/
def check_success (expected : List Nat) (ret : Option Rc) (actual : Option Cell) (errors : Nat) :
    Out Nat :=
  match ret with
  | some _ => .val (errors + 1)
  | none => do
    if ← strEq actual (some expected) then pure errors else pure (errors + 1)

/-- `check_to_unicode_lzlz_failure`; test-glibc.c:160-181. -/
def check_failure (expected : Rc) (actual : Option Rc) (unexpected : Option Cell) (errors : Nat) :
    Out Nat :=
  match actual with
  | none =>
    match unexpected with
    | some (.buf _ _) => .val (errors + 1)
    | _ => .ub
  | some e => .val (if e ≠ expected then errors + 1 else errors)

/-- A call in `run_utf8_tests` or `run_latin1_tests`; test-glibc.c:183-254. -/
inductive Check where
  | lookup (input expected : List Nat)
  | unicode (input expected : List Nat)
  | failure (input : List Nat) (expected : Rc)

/-- One call; test-glibc.c:144-181. -/
def runCheck (L : Loc) : Check → Nat → Out Nat
  | .lookup i e, errors =>
    let r := L.lookup_ul (some i) (some .null) 0
    check_success e r.1 r.2 errors
  | .unicode i e, errors =>
    let r := L.to_unicode_lzlz (some i) (some .null) 0
    check_success e r.1 r.2 errors
  | .failure i e, errors =>
    let r := L.to_unicode_lzlz (some i) (some .null) 0
    check_failure e r.1 r.2 errors

/-- `run_utf8_tests` and `run_latin1_tests`, with the calls as a parameter; test-glibc.c:183-254. -/
def runChecks (L : Loc) : List Check → Nat → Out Nat
  | [], errors => pure errors
  | c :: r, errors => do
    let errors ← runCheck L c errors
    runChecks L r errors

/-- The loop of `main`; test-glibc.c:279-297: `utf8_seen`, `latin1_seen` and `errors`, or `none` for the
end of the program.  A locale that is not installed is `none`. -/
def mainLoop (u l : List Check) : List (Option Loc) → Bool → Bool → Nat → Out (Option (Bool × Bool × Nat))
  | [], us, ls, errors => pure (some (us, ls, errors))
  | none :: r, us, ls, errors => mainLoop u l r us ls errors
  | some L :: r, us, ls, errors =>
    match determine_current_charset_kind L with
    | none => pure none
    | some .utf8 => do
      let errors ← runChecks L u errors
      mainLoop u l r true ls errors
    | some .latin1 => do
      let errors ← runChecks L l errors
      mainLoop u l r us true errors
    | some .neither => mainLoop u l r us ls errors

/-- `main`; test-glibc.c:273-325: the exit status. -/
def glibcMain (u l : List Check) (locs : List (Option Loc)) : Out Nat := do
  match ← mainLoop u l locs false false 0 with
  | none => pure 1
  | some (us, ls, errors) =>
    let errors := if !us then errors + 1 else errors
    let errors := if !(us || ls) then errors + 1 else errors
    pure (if errors ≠ 0 then 1 else 0)

end Idn2.TestGlibc
