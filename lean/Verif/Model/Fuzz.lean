import Verif.Model.Decode
import Verif.Model.Register
import Verif.Model.Error
import Verif.Model.Version
import Verif.Model.GenText

/-
The fuzz targets; fuzz/*.c.

`data` is taken to be aligned for 32-bit access on a little-endian machine.  Arrays that are
allocated without being initialised are zeros here.  The targets are written over a table of the
functions that they call: `libidn2` are those of the library.  Left out are the calls for the error
texts, libidn2_to_unicode_8z8z_fuzzer.c:49-54, which are never null pointers.
-/

namespace Idn2

/-- How a run of a target ends: it returns 0, or an assertion fails;
libidn2_register_fuzzer.c:36,72. -/
inductive FuzzEnd where
  | done | abort
  deriving DecidableEq, Repr

/-- The functions of the library that are called in fuzz/*.c; idn2.h.in:213-388. -/
structure FuzzLib (m : Type → Type) where
  register_ul : Option (List Nat) → Option (List Nat) → Option Cell → Nat → m (Option Rc × Option Cell)
  to_ascii_8z : Option (List Nat) → Option Cell → Nat → m (Option Rc × Option Cell)
  to_ascii_lz : Option (List Nat) → Option Cell → Nat → m (Option Rc × Option Cell)
  to_ascii_4i : Option (List Nat) → Option (List Nat) → Nat → m (Option Rc × Option (List Nat))
  to_ascii_4i2 : Option (List Nat) → Option Cell → Nat → m (Option Rc × Option Cell)
  to_ascii_4z : Option (List Nat) → Option Cell → Nat → m (Option Rc × Option Cell)
  to_unicode_lzlz : Option (List Nat) → Option Cell → Nat → m (Option Rc × Option Cell)
  to_unicode_4z4z : Option (List Nat) → Option Cell → Nat → m (Option Rc × Option Cell)
  to_unicode_8z4z : Option (List Nat) → Option Cell → Nat → m (Option Rc × Option Cell)
  to_unicode_44i : Option (List Nat) → Option (List Nat) → Option Nat → Nat →
    m (Option Rc × Option (List Nat) × Option Nat)
  check_version : Option (List Nat) → m (Option (List Nat))

variable {m : Type → Type} [CMem m]

/-- The library, of the version `version`; lib/*.c. -/
def libidn2 (E : Env) (version : List Nat) : FuzzLib m where
  register_ul := idn2_register_ul E
  to_ascii_8z := idn2_to_ascii_8z E
  to_ascii_lz := idn2_to_ascii_lz E
  to_ascii_4i := idn2_to_ascii_4i E
  to_ascii_4i2 := idn2_to_ascii_4i2 E
  to_ascii_4z := idn2_to_ascii_4z E
  to_unicode_lzlz := idn2_to_unicode_lzlz E
  to_unicode_4z4z := idn2_to_unicode_4z4z
  to_unicode_8z4z := idn2_to_unicode_8z4z
  to_unicode_44i := idn2_to_unicode_44i
  check_version := fun r => pure (idn2_check_version version r)

/-- `if (call == IDN2_OK) idn2_free (out);` where `out` has not been initialised before;
libidn2_register_fuzzer.c:45-46. -/
def freeResult : Option Rc × Option Cell → m Unit
  | (none, some (.buf p _)) => idn2_free (some p)
  | (none, some .null) => idn2_free none
  | (none, _) => cub
  | (some _, _) => pure ()

/-- A call with the statement that frees its result; libidn2_register_fuzzer.c:45-46,50-51,63-64.
-/
def callFree (x : m (Option Rc × Option Cell)) : m Unit := do
  let r ← x
  freeResult r

/-- `if (size == 0)`; libidn2_register_fuzzer.c:42. -/
def ifEmpty (data : List Nat) (x : m Unit) : m Unit :=
  if data.length = 0 then x else pure ()

/-- A call whose result is not looked at; libidn2_register_fuzzer.c:47. -/
def drop {α : Type} (x : m α) : m Unit := do
  let _ ← x
  pure ()

/-- The 32-bit elements of an array of bytes; `memcpy (u32, data, size)` and the casts of
libidn2_to_ascii_8z_fuzzer.c:100-111. -/
def words : List Nat → List Nat
  | a :: b :: c :: d :: r => (a + 256 * b + 65536 * c + 16777216 * d) :: words r
  | _ => []

/-! ### fuzz/libidn2_register_fuzzer.c -/

/-- The tests of null pointers; libidn2_register_fuzzer.c:42-48. -/
def fuzzRegisterNull (K : FuzzLib m) (up : Nat) (ulabel : List Nat) : m Unit := do
  callFree (K.register_ul none none (some (.old 0)) 0)
  touch up
  drop (K.register_ul (some ulabel) none none 0)

/-- The text of `alabel`; libidn2_register_fuzzer.c:58-61.  The terminating zero is stored at
`alabel[size]`, not at `alabel[size + 4]`. -/
def fuzzAlabel (data : List Nat) : List Nat :=
  lineStr ((acePrefix ++ data).take data.length)

/-- The second half; libidn2_register_fuzzer.c:55-72. -/
def fuzzRegisterAlabel (K : FuzzLib m) (data : List Nat) : m FuzzEnd := do
  match ← malloc with
  | none => pure .abort
  | some ap => do
    touch ap
    callFree (K.register_ul none (some (fuzzAlabel data)) (some (.old 0)) 0)
    ifEmpty data do
      touch ap
      drop (K.register_ul none (some (fuzzAlabel data)) none 0)
    cfree ap
    pure .done

/-- `LLVMFuzzerTestOneInput`; libidn2_register_fuzzer.c:27-73. -/
def fuzzRegister (K : FuzzLib m) (data : List Nat) : m FuzzEnd := do
  if data.length > 1024 then pure .done
  else
    match ← malloc with
    | none => pure .abort
    | some up => do
      touch up
      ifEmpty data (fuzzRegisterNull K up (lineStr data))
      touch up
      callFree (K.register_ul (some (lineStr data)) none (some (.old 0)) 0)
      cfree up
      fuzzRegisterAlabel K data

/-! ### fuzz/libidn2_to_ascii_8z_fuzzer.c -/

/-- `flags`; libidn2_to_ascii_8z_fuzzer.c:27-34. -/
def fuzzFlags : List Nat :=
  [0, IDN2_NFC_INPUT, IDN2_TRANSITIONAL, IDN2_NONTRANSITIONAL,
   IDN2_TRANSITIONAL ||| IDN2_USE_STD3_ASCII_RULES, IDN2_NONTRANSITIONAL ||| IDN2_USE_STD3_ASCII_RULES]

/-- `for (unsigned it = 0; it < sizeof(flags)/sizeof(flags[0]); it++)`;
libidn2_to_ascii_8z_fuzzer.c:86,102,109. -/
def eachFlag (f : Nat → m Unit) : List Nat → m Unit
  | [] => pure ()
  | x :: r => do
    f x
    eachFlag f r

/-- The tests of null pointers; libidn2_to_ascii_8z_fuzzer.c:51-84. -/
def fuzzToAsciiNull (K : FuzzLib m) (dp : Nat) (domain : List Nat) : m Unit := do
  callFree (K.to_ascii_8z none (some (.old 0)) 0)
  drop (K.to_ascii_8z none none 0)
  touch dp
  drop (K.to_ascii_8z (some domain) none 0)
  callFree (K.to_ascii_lz none (some (.old 0)) 0)
  drop (K.to_ascii_lz none none 0)
  touch dp
  drop (K.to_ascii_lz (some domain) none 0)
  drop (K.to_ascii_4i none (some [0]) 0)
  drop (K.to_ascii_4i none none 0)
  drop (K.to_ascii_4i (some []) none 0)
  callFree (K.to_ascii_4i2 none (some (.old 0)) 0)
  drop (K.to_ascii_4i2 none none 0)
  drop (K.to_ascii_4i2 (some []) none 0)
  callFree (K.to_ascii_4z none (some (.old 0)) 0)
  drop (K.to_ascii_4z none none 0)
  drop (K.to_ascii_4z (some []) none 0)

/-- One round of the first loop; libidn2_to_ascii_8z_fuzzer.c:87-90. -/
def fuzzRound (K : FuzzLib m) (dp : Nat) (domain : List Nat) (flags : Nat) : m Unit := do
  touch dp
  callFree (K.to_ascii_8z (some domain) (some (.old 0)) flags)
  touch dp
  callFree (K.to_ascii_lz (some domain) (some (.old 0)) flags)

/-- The calls for arrays of 32-bit elements; libidn2_to_ascii_8z_fuzzer.c:100-112. -/
def fuzzToAscii32 (K : FuzzLib m) (wp op : Nat) (data : List Nat) : m Unit := do
  touch op
  drop (K.to_ascii_4i (some (words data)) (some (List.replicate 64 0)) 0)
  eachFlag (fun flags => do
    callFree (K.to_ascii_4i2 (some (words data)) (some (.old 0)) flags)) fuzzFlags
  touch wp
  eachFlag (fun flags => do
    touch wp
    callFree (K.to_ascii_4z (some (lineStr (words data))) (some (.old 0)) flags)) fuzzFlags

/-- libidn2_to_ascii_8z_fuzzer.c:93-116. -/
def fuzzToAsciiWords (K : FuzzLib m) (data : List Nat) : m FuzzEnd := do
  let u32 ← malloc
  let out2 ← malloc
  match u32, out2 with
  | some wp, some op => do
    fuzzToAscii32 K wp op data
    cfree op
    cfree wp
    pure .done
  | _, _ => pure .abort

/-- `LLVMFuzzerTestOneInput`; libidn2_to_ascii_8z_fuzzer.c:36-119. -/
def fuzzToAscii (K : FuzzLib m) (data : List Nat) : m FuzzEnd := do
  if data.length > 1024 then pure .done
  else
    match ← malloc with
    | none => pure .abort
    | some dp => do
      touch dp
      ifEmpty data (fuzzToAsciiNull K dp (lineStr data))
      eachFlag (fuzzRound K dp (lineStr data)) fuzzFlags
      let e ← (if data.length % 4 = 0 then fuzzToAsciiWords K data else pure .done)
      match e with
      | .abort => pure .abort
      | .done => do
        cfree dp
        pure .done

/-! ### fuzz/libidn2_to_unicode_8z8z_fuzzer.c -/

/-- What is done for empty data; libidn2_to_unicode_8z8z_fuzzer.c:46-89.  The result of `malloc (4)`
is used without a check. -/
def fuzzToUnicodeNull (K : FuzzLib m) (dp : Nat) (domain : List Nat) : m Unit := do
  drop (K.check_version none)
  callFree (K.to_unicode_lzlz none (some (.old 0)) 0)
  drop (K.to_unicode_lzlz none none 0)
  touch dp
  drop (K.to_unicode_lzlz (some domain) none 0)
  match ← malloc with
  | none => cub
  | some ip => do
    touch ip
    callFree (K.to_unicode_4z4z none (some (.old 0)) 0)
    drop (K.to_unicode_4z4z none none 0)
    touch ip
    drop (K.to_unicode_4z4z (some []) none 0)
    cfree ip
    callFree (K.to_unicode_8z4z none (some (.old 0)) 0)
    drop (K.to_unicode_8z4z none none 0)
    touch dp
    drop (K.to_unicode_8z4z (some domain) none 0)
    let u32 ← malloc
    drop (K.to_unicode_44i none (u32.map fun _ => []) (some 0) 0)
    drop (K.to_unicode_44i none none (some 0) 0)
    freeOpt u32

/-- `if (x) free (malloc (1));`; libidn2_to_unicode_8z8z_fuzzer.c:91-97.  The error texts are never
null pointers, so that `x` is null for empty data. -/
def fuzzVersion (K : FuzzLib m) (data : List Nat) : m Unit := do
  let v ← K.check_version (some (lineStr data))
  if data.length ≠ 0 ∧ v = none then do
    let p ← malloc
    freeOpt p
  else pure ()

/-- libidn2_to_unicode_8z8z_fuzzer.c:103-114. -/
def fuzzToUnicodeWords (K : FuzzLib m) (data : List Nat) : m FuzzEnd := do
  match ← malloc with
  | none => pure .abort
  | some wp => do
    touch wp
    drop (K.to_unicode_44i (some (words data)) (some (List.replicate (data.length / 4) 0))
      (some (data.length / 4)) 0)
    cfree wp
    pure .done

/-- `LLVMFuzzerTestOneInput`; libidn2_to_unicode_8z8z_fuzzer.c:30-118. -/
def fuzzToUnicode (K : FuzzLib m) (data : List Nat) : m FuzzEnd := do
  if data.length > 1024 then pure .done
  else
    match ← malloc with
    | none => pure .abort
    | some dp => do
      touch dp
      ifEmpty data (fuzzToUnicodeNull K dp (lineStr data))
      touch dp
      fuzzVersion K data
      touch dp
      callFree (K.to_unicode_lzlz (some (lineStr data)) (some (.old 0)) 0)
      let e ← (if data.length % 4 = 0 then fuzzToUnicodeWords K data else pure .done)
      match e with
      | .abort => pure .abort
      | .done => do
        cfree dp
        pure .done

end Idn2
