import Verif.Model.TestLookup
import Verif.Model.Fuzz
import Verif.Model.Compat

/-
The parts of tests/test-lookup.c that do not go through a table or a file: the seven single calls
of `test_homebrewed`, and `test_unicode_range`.  They are run on the library itself, with its
allocations.
-/

namespace Idn2.TestLookup

variable {m : Type → Type} [CMem m]

/-- `if ((rc = call) != IDN2_OK) failed++; else ok++;` with a null pointer for the output:
test-lookup.c:1061-1067,1083-1089.  The number of failures. -/
def specialRc (x : m (Option Rc × Option Cell)) : m Nat := do
  let r ← x
  pure (if r.1 = none then 0 else 1)

/-- The same with `out` set to 0x123 before, which must be null behind the call;
test-lookup.c:1069-1081,1091-1103. -/
def specialNull (x : m (Option Rc × Option Cell)) : m Nat := do
  let r ← x
  pure (if r.1 = none ∧ r.2 = some .null then 0 else 1)

/-- The same with a result, which is freed; test-lookup.c:1105-1136.  What `out` pointed to before
is not allocated any more: to free it is undefined. -/
def specialFree (x : m (Option Rc × Option Cell)) : m Nat := do
  let r ← x
  freeResult r
  pure (if r.1 = none then 0 else 1)

/-- The functions of the library that are called here; idn2.h.in:213-388. -/
structure LookupLib (m : Type → Type) where
  lookup_u8 : Option (List Nat) → Option Cell → Nat → m (Option Rc × Option Cell)
  lookup_ul : Option (List Nat) → Option Cell → Nat → m (Option Rc × Option Cell)
  to_ascii_8z : Option (List Nat) → Option Cell → Nat → m (Option Rc × Option Cell)
  to_ascii_4z : Option (List Nat) → Option Cell → Nat → m (Option Rc × Option Cell)
  to_ascii_4i2 : Option (List Nat) → Option Cell → Nat → m (Option Rc × Option Cell)

/-- The library; lib/lookup.c. -/
def lookupLib (E : Env) : LookupLib m where
  lookup_u8 := idn2_lookup_u8 E
  lookup_ul := idn2_lookup_ul E
  to_ascii_8z := idna_to_ascii_8z E
  to_ascii_4z := idna_to_ascii_4z E
  to_ascii_4i2 := idn2_to_ascii_4i2 E

/-- `dummy_u32` with its terminating zero; test-lookup.c:965. -/
def dummy : List Nat := [0x61, 0x62, 0x63]

/-- The seven single calls; test-lookup.c:1060-1136: how many fail.  The macros `idna_to_ascii_8z`
and `idna_to_ascii_4z` make `0|IDN2_NFC_INPUT|IDN2_NONTRANSITIONAL` of the flags. -/
def special (K : LookupLib m) : m Nat := do
  let n1 ← specialRc (K.lookup_u8 none none 0)
  let n2 ← specialNull (K.lookup_u8 none (some (.old 0x123)) 0)
  let n3 ← specialRc (K.lookup_ul none none 0)
  let n4 ← specialNull (K.lookup_ul none (some (.old 0x123)) 0)
  let n7 ← specialFree (K.to_ascii_8z (some dummy) (some (.old 0)) (0 ||| 1 ||| 8))
  let n8 ← specialFree (K.to_ascii_4z (some dummy) (some (.old 0)) (0 ||| 1 ||| 8))
  let n9 ← specialFree (K.to_ascii_4i2 (some (dummy ++ [0])) (some (.old 0)) 0)
  pure (n1 + n2 + n3 + n4 + n7 + n8 + n9)

/-- The flags of the five calls; test-lookup.c:1355-1373. -/
def rangeFlags : List Nat :=
  [0, IDN2_NFC_INPUT, IDN2_TRANSITIONAL, IDN2_NONTRANSITIONAL, IDN2_NO_TR46]

/-- The body of the loop of `test_unicode_range`; test-lookup.c:1350-1375.  `u32_to_u8` returns a
null pointer for what is not a scalar value, and when memory is short. -/
def rangeOne (K : LookupLib m) (i : Nat) : m Unit := do
  match ← libConv (u8Encode [i, 0]) with
  | .val utf8 p =>
    match cstr utf8 with
    | none => cub
    | some s => do
      eachFlag (fun f => do
        touch p
        callFree (K.lookup_u8 (some s) (some (.old 0)) f)) rangeFlags
      cfree p
  | _ => eachFlag (fun f => callFree (K.lookup_u8 none (some (.old 0)) f)) rangeFlags

/-- The loop, from `i` on for `n` rounds; test-lookup.c:1348. -/
def rangeLoop (K : LookupLib m) : Nat → Nat → m Unit
  | 0, _ => pure ()
  | n + 1, i => do
    rangeOne K i
    rangeLoop K n (i + 1)

/-- `test_unicode_range`; test-lookup.c:1339-1377. -/
def test_unicode_range (K : LookupLib m) : m Unit := rangeLoop K 0x11FFFF 0

end Idn2.TestLookup
