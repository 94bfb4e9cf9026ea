import Verif.Model.Lookup

/-
Registration; lib/register.c.
-/

namespace Idn2

/-- The test mask of registration; register.c:171-178. -/
def registerMask : Nat :=
  TEST_NFC ||| TEST_DISALLOWED ||| TEST_UNASSIGNED ||| TEST_2HYPHEN ||| TEST_HYPHEN_STARTEND
    ||| TEST_LEADING_COMBINING ||| TEST_CONTEXTJ_RULE ||| TEST_CONTEXTO_RULE ||| TEST_BIDI

/-- `if (insertname) { m = strdup (s); ... }`; register.c:132-139,154-161,197-204. -/
def storeDup {m : Type → Type} [CMem m] (s : List Nat) (insertname : Option Cell) :
    m (Option Rc × Option Cell) := do
  match insertname with
  | none => pure (none, none)
  | some _ =>
    match ← malloc with
    | none => pure (some .malloc, insertname)
    | some p => pure (none, some (.buf p s))

/-- The "ulabel only" branch of `idn2_register_u8`; register.c:141-204. -/
def registerUlabel {m : Type → Type} [CMem m] (E : Env) (ulabel : List Nat)
    (insertname : Option Cell) (flags : Nat) : m (Option Rc × Option Cell) := do
  if ascii_p ulabel then
    if ulabel.length > IDN2_LABEL_MAX_LENGTH then pure (some .tooBigLabel, insertname)
    else storeDup ulabel insertname
  else
    match ← u8_to_u32_nfc E ulabel (has flags IDN2_NFC_INPUT) with
    | .error e => pure (some e, insertname)
    | .ok (u, up) => do
      match ← label_test E registerMask u with
      | .error e => do
        cfree up
        pure (some e, insertname)
      | .ok () => do
        touch up
        -- `tmp` has 64 bytes, `tmpl` is 59
        let r ← liftR (punycode_encode 60 59 u)
        cfree up
        match r with
        | .error e => pure (some e, insertname)
        | .ok enc =>
          if 4 + enc.length ≥ 64 then cub
          else storeDup (acePrefix ++ enc) insertname

/-- The "alabel" branch of `idn2_register_u8`; register.c:84-140.  The array `u32` has 1020
elements, `*u32len` is 252 on entry; the array `u8` has 256 bytes.  `self` is the function that
the recursive call of register.c:123 enters. -/
def registerAlabelWith {m : Type → Type} [CMem m]
    (self : Option (List Nat) → Option (List Nat) → Option Cell → Nat → m (Option Rc × Option Cell))
    (ulabel : Option (List Nat)) (alabel : List Nat) (insertname : Option Cell) :
    m (Option Rc × Option Cell) := do
  if alabel.length > IDN2_LABEL_MAX_LENGTH then pure (some .tooBigLabel, insertname)
  else if alabel.length ≤ 4 then pure (some .invalidAlabel, insertname)
  else if alabel.take 4 ≠ acePrefix then pure (some .invalidAlabel, insertname)
  else if !ascii_p alabel then pure (some .invalidAlabel, insertname)
  else
    match ← liftR (punycode_decode 1020 252 (alabel.drop 4)) with
    | .error e => pure (some e, insertname)
    | .ok u =>
      match u8Encode u with
      | none => pure (some .encodingError, insertname)
      | some u8 =>
        if u8.length ≥ 256 then cub
        else
          match cstr (u8 ++ [0]) with
          | none => cub
          | some u8 =>
            if ulabel.isSome && ulabel != some u8 then pure (some .ualabelMismatch, insertname)
            else do
              match ← self (some u8) none (some (.old 0)) 0 with
              | (some e, _) => pure (some e, insertname)
              | (none, some (.buf p tmp)) => do
                touch p
                cfree p
                if alabel ≠ tmp then pure (some .ualabelMismatch, insertname)
                else storeDup alabel insertname
              | (none, _) => cub

/-- `idn2_register_u8` on a stack with room for `depth` activations of it; running out is
undefined behaviour; register.c:73-207. -/
def registerRec {m : Type → Type} [CMem m] (E : Env) (depth : Nat)
    (ulabel alabel : Option (List Nat)) (insertname : Option Cell) (flags : Nat) :
    m (Option Rc × Option Cell) :=
  match depth with
  | 0 => cub
  | depth + 1 =>
    match ulabel, alabel with
    | none, none => pure (none, insertname.map fun _ => .null)
    | _, some alabel => registerAlabelWith (registerRec E depth) ulabel alabel insertname
    | some ulabel, none => registerUlabel E ulabel insertname flags

/-- `idn2_register_u8`; register.c:73-207.  Two activations suffice: `C24_recursion`. -/
def idn2_register_u8 {m : Type → Type} [CMem m] (E : Env) (ulabel alabel : Option (List Nat))
    (insertname : Option Cell) (flags : Nat) : m (Option Rc × Option Cell) :=
  registerRec E 2 ulabel alabel insertname flags

/-- The "alabel" branch with the recursive call in place; register.c:84-140. -/
def registerAlabel {m : Type → Type} [CMem m] (E : Env) (ulabel : Option (List Nat))
    (alabel : List Nat) (insertname : Option Cell) : m (Option Rc × Option Cell) :=
  registerAlabelWith (registerRec E 1) ulabel alabel insertname

/-- `idn2_register_ul`; register.c:238-265. -/
def idn2_register_ul {m : Type → Type} [CMem m] (E : Env) (ulabel alabel : Option (List Nat))
    (insertname : Option Cell) (flags : Nat) : m (Option Rc × Option Cell) := do
  match ulabel with
  | none => idn2_register_u8 E none alabel insertname (flags ||| IDN2_NFC_INPUT)
  | some ulabel =>
    match ← libConv (E.U.fromLocale ulabel) with
    | .enomem => pure (some .malloc, insertname)
    | .other => pure (some .iconvFail, insertname)
    | .val utf8ulabel p => do
      touch p
      let r ← idn2_register_u8 E (some utf8ulabel) alabel insertname (flags ||| IDN2_NFC_INPUT)
      cfree p
      pure r

end Idn2
