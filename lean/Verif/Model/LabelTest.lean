import Verif.Model.Bidi

/-
Label validation and normalisation; lib/idna.c.
-/

namespace Idn2

/-! `TEST_*` masks; idna.h:35-58. -/

def TEST_NFC : Nat := 0x0001
def TEST_2HYPHEN : Nat := 0x0002
def TEST_HYPHEN_STARTEND : Nat := 0x0004
def TEST_LEADING_COMBINING : Nat := 0x0008
def TEST_DISALLOWED : Nat := 0x0010
def TEST_CONTEXTJ : Nat := 0x0020
def TEST_CONTEXTJ_RULE : Nat := 0x0040
def TEST_CONTEXTO : Nat := 0x0080
def TEST_CONTEXTO_WITH_RULE : Nat := 0x0100
def TEST_CONTEXTO_RULE : Nat := 0x0200
def TEST_UNASSIGNED : Nat := 0x0400
def TEST_BIDI : Nat := 0x0800
def TEST_TRANSITIONAL : Nat := 0x1000
def TEST_NONTRANSITIONAL : Nat := 0x2000
def TEST_ALLOW_STD3_DISALLOWED : Nat := 0x4000

/-! `TR46_FLG_*`; tr46map.h:35-41. -/

def TR46_FLG_VALID : Nat := 1
def TR46_FLG_MAPPED : Nat := 2
def TR46_FLG_IGNORED : Nat := 4
def TR46_FLG_DEVIATION : Nat := 8
def TR46_FLG_DISALLOWED : Nat := 16
def TR46_FLG_DISALLOWED_STD3_MAPPED : Nat := 32
def TR46_FLG_DISALLOWED_STD3_VALID : Nat := 64

/-- `x & mask` used as a C condition; idna.c:138-285. -/
def has (x mask : Nat) : Bool := (x &&& mask) != 0

/-- Loop of `_isNFC`; idna.c:60-82.  `skip` says that the index was advanced once more
(lines 64-66, for a supplementary code point), so that the next element is passed over;
`last` is `lastCanonicalClass`, `result` the value returned at the end. -/
def isNFCLoop (E : Env) : Bool → List Nat → Nat → Int → Res Int
  | _, [], _, result => .ok result
  | true, _ :: rest, last, result => isNFCLoop E false rest last result
  | false, ch :: rest, last, result => do
    let cc := E.U.ccc ch
    if last > cc ∧ cc ≠ 0 then .ok 0
    else
      let map ← get_nfcqc_map E.T ch
      match map with
      | some check =>
        if check ≠ 0 then .ok 0 else isNFCLoop E (decide (ch ≥ 0x10000)) rest cc (-1)
      | none => isNFCLoop E (decide (ch ≥ 0x10000)) rest cc result

/-- `_isNFC`; idna.c:53-85. -/
def isNFC (E : Env) (label : List Nat) : Res Int := isNFCLoop E false label 0 1

/-- `_idn2_ascii_p`; idna.c:123-133. -/
def ascii_p (src : List Nat) : Bool := src.all fun c => decide (c < 0x80)

/-- A `for` loop over the label in which the body may return an error;
idna.c:177,198,208,219,227,238,249,267,275. -/
def forEach (f : Nat → Res Unit) : List Nat → Res Unit
  | [] => .ok ()
  | c :: r => do
    f c
    forEach f r

/-- `if (what & mask) ...`; idna.c:138,156,162,168,174,195,203,216,224,233,246,254,261. -/
def whenTest (what mask : Nat) (x : Res Unit) : Res Unit :=
  if has what mask then x else .ok ()

/-- The LEADING_COMBINING test; idna.c:168-172. -/
def testLeading (E : Env) : List Nat → Res Unit
  | c :: _ => if E.U.isM c then .err .leadingCombining else .ok ()
  | [] => .ok ()

/-- Body of the DISALLOWED loop; idna.c:177-192. -/
def testDisallowed (E : Env) (what c : Nat) : Res Unit := do
  let d ← disallowed_p E.T c
  if d then
    if has what (TEST_TRANSITIONAL ||| TEST_NONTRANSITIONAL)
        && has what TEST_ALLOW_STD3_DISALLOWED then do
      let map ← get_idna_map E.T c
      let a ← map_is E.T map TR46_FLG_DISALLOWED_STD3_VALID
      if a then .ok ()
      else do
        let b ← map_is E.T map TR46_FLG_DISALLOWED_STD3_MAPPED
        if b then .ok () else .err .disallowed
    else .err .disallowed
  else .ok ()

/-- Body of the TR46 validity loop; idna.c:271-290. -/
def testTr46 (E : Env) (what c : Nat) : Res Unit := do
  let transitional := has what TEST_TRANSITIONAL
  let map ← get_idna_map E.T c
  let v ← map_is E.T map TR46_FLG_VALID
  if v then .ok ()
  else do
    let d ← (if transitional then .ok false else map_is E.T map TR46_FLG_DEVIATION)
    if d then .ok ()
    else do
      let s ← (if has what TEST_ALLOW_STD3_DISALLOWED then do
          let a ← map_is E.T map TR46_FLG_DISALLOWED_STD3_VALID
          if a then .ok true else map_is E.T map TR46_FLG_DISALLOWED_STD3_MAPPED
        else .ok false)
      if s then .ok ()
      else if transitional then .err .invalidTransitional
      else .err .invalidNontransitional

/-- `_idn2_label_test` after the normalisation test; idna.c:157-296. -/
def label_test_rest (E : Env) (what : Nat) (label : List Nat) : Res Unit := do
  whenTest what TEST_2HYPHEN
    (if label.length ≥ 4 ∧ label[2]? = some 0x2D ∧ label[3]? = some 0x2D
      then .err .twoHyphen else .ok ())
  whenTest what TEST_HYPHEN_STARTEND
    (if label.length > 0 ∧ (label[0]? = some 0x2D ∨ label[label.length - 1]? = some 0x2D)
      then .err .hyphenStartEnd else .ok ())
  whenTest what TEST_LEADING_COMBINING
    (testLeading E label)
  whenTest what TEST_DISALLOWED (forEach (testDisallowed E what) label)
  whenTest what TEST_CONTEXTJ
    (forEach (fun c => do if ← contextj_p E.T c then .err .contextj else .ok ()) label)
  whenTest what TEST_CONTEXTJ_RULE
    (forEach (contextj_rule E label) (List.range label.length))
  whenTest what TEST_CONTEXTO
    (forEach (fun c => do if ← contexto_p E.T c then .err .contexto else .ok ()) label)
  whenTest what TEST_CONTEXTO_WITH_RULE
    (forEach (fun c => do
      if (← contexto_p E.T c) && !contexto_with_rule c then .err .contextoNoRule else .ok ()) label)
  whenTest what TEST_CONTEXTO_RULE
    (forEach (contexto_rule E label) (List.range label.length))
  whenTest what TEST_UNASSIGNED
    (forEach (fun c => do if ← unassigned_p E.T c then .err .unassigned else .ok ()) label)
  whenTest what TEST_BIDI (idn2_bidi E.U label)
  whenTest what (TEST_TRANSITIONAL ||| TEST_NONTRANSITIONAL) (do
    forEach (fun c => if c = 0x2E then .err .dotInLabel else .ok ()) label
    forEach (testTr46 E what) label)

/-- `_idn2_label_test`; idna.c:135-296. -/
def label_test {m : Type → Type} [CMem m] (E : Env) (what : Nat) (label : List Nat) :
    m (Except Rc Unit) := do
  if has what TEST_NFC then
    match ← libConv (E.U.nfc label) with
    | .enomem => pure (.error .malloc)
    | .other => pure (.error .nfc)
    | .val t p => do
      touch p
      cfree p
      if t = label then liftR (label_test_rest E what label) else pure (.error .notNfc)
  else liftR (label_test_rest E what label)

/-- `_idn2_u8_to_u32_nfc`; idna.c:87-121; the array and its block. -/
def u8_to_u32_nfc {m : Type → Type} [CMem m] (E : Env) (src : List Nat) (nfc : Bool) :
    m (Except Rc (List Nat × Nat)) := do
  match ← libConv (u8Decode src) with
  | .enomem => pure (.error .malloc)
  | .other => pure (.error .encodingError)
  | .val p pp =>
    if nfc then do
      touch pp
      match ← liftR (isNFC E p) with
      | .error e => pure (.error e)
      | .ok r =>
        if r = 0 then do
          let t ← libConv (E.U.nfc p)
          cfree pp
          match t with
          | .enomem => pure (.error .malloc)
          | .other => pure (.error .nfc)
          | .val t tp => pure (.ok (t, tp))
        else pure (.ok (p, pp))
    else pure (.ok (p, pp))

end Idn2
