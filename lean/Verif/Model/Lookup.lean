import Verif.Model.LabelTest
import Verif.Model.Puny

/-
Lookup (ToASCII); lib/lookup.c.
-/

namespace Idn2

/-! `idn2_flags`; idn2.h.in:204-214. -/

def IDN2_NFC_INPUT : Nat := 1
def IDN2_ALABEL_ROUNDTRIP : Nat := 2
def IDN2_TRANSITIONAL : Nat := 4
def IDN2_NONTRANSITIONAL : Nat := 8
def IDN2_ALLOW_UNASSIGNED : Nat := 16
def IDN2_USE_STD3_ASCII_RULES : Nat := 32
def IDN2_NO_TR46 : Nat := 64
def IDN2_NO_ALABEL_ROUNDTRIP : Nat := 128

/-- idn2.h.in:175 -/
def IDN2_LABEL_MAX_LENGTH : Nat := 63
/-- idn2.h.in:186 -/
def IDN2_DOMAIN_MAX_LENGTH : Nat := 255

/-- `c_tolower`; lookup.c:59-69. -/
def c_tolower (c : Nat) : Nat := if 0x41 ≤ c ∧ c ≤ 0x5A then c + 32 else c

/-- `c_strncasecmp (s1, s2, n) == 0`; lookup.c:71-101.  Reading past the end of an array is
undefined. -/
def c_strncasecmp : Nat → List Nat → List Nat → Res Bool
  | 0, _, _ => .ok true
  | n + 1, a :: r1, b :: r2 =>
    let c1 := c_tolower a
    let c2 := c_tolower b
    if n = 0 ∨ c1 = 0 then .ok (c1 == c2)
    else if c1 = c2 then c_strncasecmp n r1 r2
    else .ok false
  | _, _, _ => .ub

/-- `set_default_flags`; lookup.c:106-124. -/
def set_default_flags (flags : Nat) : Except Rc Nat :=
  if has flags IDN2_TRANSITIONAL && has flags IDN2_NONTRANSITIONAL then .error .invalidFlags
  else if has flags (IDN2_TRANSITIONAL ||| IDN2_NONTRANSITIONAL) && has flags IDN2_NO_TR46 then
    .error .invalidFlags
  else if has flags IDN2_ALABEL_ROUNDTRIP && has flags IDN2_NO_ALABEL_ROUNDTRIP then
    .error .invalidFlags
  else if !has flags (IDN2_NO_TR46 ||| IDN2_TRANSITIONAL) then
    .ok (flags ||| IDN2_NONTRANSITIONAL)
  else .ok flags

/-- `"xn--"`; lookup.c:142. -/
def acePrefix : List Nat := [0x78, 0x6E, 0x2D, 0x2D]

/-- The test mask of `label`; lookup.c:190-206. -/
def labelMask (flags : Nat) : Nat :=
  TEST_NFC ||| TEST_2HYPHEN ||| TEST_LEADING_COMBINING ||| TEST_DISALLOWED
    ||| TEST_CONTEXTJ_RULE ||| TEST_CONTEXTO_WITH_RULE ||| TEST_UNASSIGNED ||| TEST_BIDI
    ||| (if has flags IDN2_NONTRANSITIONAL then TEST_NONTRANSITIONAL else 0)
    ||| (if has flags IDN2_USE_STD3_ASCII_RULES then 0 else TEST_ALLOW_STD3_DISALLOWED)

/-- The end of `label` after the label test: encoding and round-trip check;
lookup.c:210-250.  `roundtrip` is `src_org` when `check_roundtrip` is set, `p` the
code points of the label. -/
def labelFinish (roundtrip : Option (List Nat)) (p : List Nat) (flags : Nat) : Res (List Nat) := do
  -- `tmpl = *dstlen - 4` with `*dstlen` = 63; `dst` has 63 bytes
  let enc ← punycode_encode 59 59 p
  let dst := acePrefix ++ enc
  match roundtrip with
  | some src_org =>
    if src_org.length ≠ dst.length then .err .alabelRoundtripFailed
    else do
      let same ← c_strncasecmp src_org.length src_org dst
      if same then .ok dst else .err .alabelRoundtripFailed
  | none =>
    if has flags IDN2_NO_ALABEL_ROUNDTRIP then .ok dst
    else
      match punycode_decode 63 63 enc with
      | .ub => .ub
      | .err _ => .err .alabelRoundtripFailed
      | .ok label_u32 =>
        if p.length ≠ label_u32.length ∨ p ≠ label_u32 then .err .alabelRoundtripFailed
        else .ok dst

/-- `label` from the conversion to UTF-32 on; lookup.c:182-255.  `src_allocated` is freed
at the end on every path. -/
def labelConvert {m : Type → Type} [CMem m] (E : Env) (src : List Nat)
    (roundtrip : Option (List Nat)) (src_allocated : Option Nat) (flags : Nat) :
    m (Except Rc (List Nat)) := do
  match ← u8_to_u32_nfc E src (has flags IDN2_NFC_INPUT) with
  | .error e => do
    freeOpt src_allocated
    pure (.error e)
  | .ok (p, pp) => do
    let t ← (if has flags IDN2_TRANSITIONAL then pure (.ok ())
      else label_test E (labelMask flags) p)
    match t with
    | .error e => do
      cfree pp
      freeOpt src_allocated
      pure (.error e)
    | .ok () => do
      touch pp
      let r ← liftR (labelFinish roundtrip p flags)
      cfree pp
      freeOpt src_allocated
      pure r

/-- `label`; lookup.c:126-255.  `src` are the `srclen` bytes of the label; the caller's
buffer has 63 bytes and `*dstlen` = 63.  The result is `dst[0..*dstlen)`. -/
def label {m : Type → Type} [CMem m] (E : Env) (src : List Nat) (flags : Nat) :
    m (Except Rc (List Nat)) := do
  if ascii_p src then
    if !has flags IDN2_NO_ALABEL_ROUNDTRIP && src.length ≥ 4 && src.take 4 == acePrefix then
      match ← liftR (punycode_decode 63 63 (src.drop 4)) with
      | .error e => pure (.error e)
      | .ok label_u32 =>
        match ← libConv (u8Encode label_u32) with
        | .enomem => pure (.error .malloc)
        | .other => pure (.error .encodingError)
        | .val src8 p => do
          touch p
          labelConvert E src8 (some src) (some p) flags
    else if src.length > IDN2_LABEL_MAX_LENGTH then pure (.error .tooBigLabel)
    else if src.length > 63 then pure (.error .tooBigDomain)
    else pure (.ok src)
  else labelConvert E src none none flags

/-! ### `_tr46` -/

/-- `TR46_TRANSITIONAL_CHECK`; lookup.c:257-258. -/
def TR46_TRANSITIONAL_CHECK : Nat :=
  TEST_NFC ||| TEST_2HYPHEN ||| TEST_HYPHEN_STARTEND ||| TEST_LEADING_COMBINING
    ||| TEST_TRANSITIONAL

/-- `TR46_NONTRANSITIONAL_CHECK`; lookup.c:259-260. -/
def TR46_NONTRANSITIONAL_CHECK : Nat :=
  TEST_NFC ||| TEST_2HYPHEN ||| TEST_HYPHEN_STARTEND ||| TEST_LEADING_COMBINING
    ||| TEST_NONTRANSITIONAL

/-- Body of the first pass of `_tr46`: by how much `len2` grows; lookup.c:287-338. -/
def tr46Len (E : Env) (flags c : Nat) : Res Nat := do
  let map ← get_idna_map E.T c
  if ← map_is E.T map TR46_FLG_DISALLOWED then
    if c ≠ 0 then .err .disallowed else .ok 1
  else if ← map_is E.T map TR46_FLG_MAPPED then .ok map.nmappings
  else if ← map_is E.T map TR46_FLG_VALID then .ok 1
  else if ← map_is E.T map TR46_FLG_IGNORED then .ok 0
  else if ← map_is E.T map TR46_FLG_DEVIATION then
    if has flags IDN2_TRANSITIONAL then .ok map.nmappings else .ok 1
  else if !has flags IDN2_USE_STD3_ASCII_RULES then
    if ← map_is E.T map TR46_FLG_DISALLOWED_STD3_VALID then .ok 1
    else if ← map_is E.T map TR46_FLG_DISALLOWED_STD3_MAPPED then .ok map.nmappings
    else .ok 0
  else .ok 0

/-- First pass; lookup.c:285-338. -/
def tr46Pass1 (E : Env) (flags : Nat) : List Nat → Nat → Res Nat
  | [], len2 => .ok len2
  | c :: r, len2 => do
    let n ← tr46Len E flags c
    tr46Pass1 E flags r (len2 + n)

/-- Body of the second pass: the code points stored for `c`; lookup.c:358-402. -/
def tr46Emit (E : Env) (flags c : Nat) : Res (List Nat) := do
  let map ← get_idna_map E.T c
  if ← map_is E.T map TR46_FLG_DISALLOWED then .ok [c]
  else if ← map_is E.T map TR46_FLG_MAPPED then get_map_data E.T map
  else if ← map_is E.T map TR46_FLG_VALID then .ok [c]
  else if ← map_is E.T map TR46_FLG_IGNORED then .ok []
  else if ← map_is E.T map TR46_FLG_DEVIATION then
    if has flags IDN2_TRANSITIONAL then get_map_data E.T map else .ok [c]
  else if !has flags IDN2_USE_STD3_ASCII_RULES then
    if ← map_is E.T map TR46_FLG_DISALLOWED_STD3_VALID then .ok [c]
    else if ← map_is E.T map TR46_FLG_DISALLOWED_STD3_MAPPED then get_map_data E.T map
    else .ok []
  else .ok []

/-- Second pass, writing to an array of `phys` elements; lookup.c:355-403. -/
def tr46Pass2 (E : Env) (flags phys : Nat) : List Nat → List Nat → Res (List Nat)
  | [], tmp => .ok tmp
  | c :: r, tmp => do
    let cs ← tr46Emit E flags c
    if tmp.length + cs.length ≤ phys then tr46Pass2 E flags phys r (tmp ++ cs) else .ub

/-- `test_flags |= TEST_ALLOW_STD3_DISALLOWED` unless STD3 rules are wanted;
lookup.c:449-450, 462-463. -/
def addStd3 (flags mask : Nat) : Nat :=
  if has flags IDN2_USE_STD3_ASCII_RULES then mask else mask ||| TEST_ALLOW_STD3_DISALLOWED

/-- Checking one label in `_tr46`; lookup.c:421-467.  `.error` is an early return,
`.ok (some rc)` sets `err`. -/
def tr46Label {m : Type → Type} [CMem m] (E : Env) (flags : Nat) (lbl : List Nat) :
    m (Except Rc (Option Rc)) := do
  if lbl.length ≥ 4 ∧ lbl.take 4 = acePrefix then
    match ← libConv (u8Encode (lbl.drop 4)) with
    | .enomem => pure (.error .malloc)
    | .other => pure (.error .encodingError)
    | .val ace ap => do
      touch ap
      let r ← liftR (punycode_decode 63 63 ace)
      cfree ap
      match r with
      | .error e => pure (.error e)
      | .ok name => do
        match ← label_test E (addStd3 flags TR46_NONTRANSITIONAL_CHECK) name with
        | .error e => pure (.ok (some e))
        | .ok () => pure (.ok none)
  else
    let mask := if has flags IDN2_TRANSITIONAL then TR46_TRANSITIONAL_CHECK
      else TR46_NONTRANSITIONAL_CHECK
    match ← label_test E (addStd3 flags mask) lbl with
    | .error e => pure (.ok (some e))
    | .ok () => pure (.ok none)

/-- `c` ends a label in the loop of lookup.c:418-419. -/
def isEnd (c : Nat) : Bool := c == 0 || c == 0x2E

theorem dropWhile_length_le (f : Nat → Bool) (s : List Nat) :
    (s.dropWhile f).length ≤ s.length := by
  induction s with
  | nil => simp
  | cons c s ih =>
    rw [List.dropWhile_cons]
    split
    · simp only [List.length_cons]; omega
    · exact Nat.le_refl _

/-- The label loop of `_tr46`; lookup.c:414-470.  `s` is the array from the pointer on,
`dp` the block of the array. -/
def tr46Labels {m : Type → Type} [CMem m] (E : Env) (flags dp : Nat) (s : List Nat)
    (err : Option Rc) : m (Except Rc (Option Rc)) :=
  match h : s.dropWhile (fun c => !isEnd c) with
  | [] => cub
  | c :: rest => do
    touch dp
    if s.head? = some 0 then pure (.ok err)
    else
      match ← tr46Label E flags (s.takeWhile (fun c => !isEnd c)) with
      | .error e => pure (.error e)
      | .ok rc =>
        let err := match rc with
          | some e => some e
          | none => err
        if c = 0 then pure (.ok err)
        else tr46Labels E flags dp rest err
termination_by s.length
decreasing_by
  have := dropWhile_length_le (fun c => !isEnd c) s
  rw [h] at this
  simp only [List.length_cons] at this
  omega

/-- `_tr46`; lookup.c:262-489, called with a non-null `out`.  The result is the block of
`*out` and its contents, including the terminating zero. -/
def tr46 {m : Type → Type} [CMem m] (E : Env) (domain_u8 : List Nat) (flags : Nat) :
    m (Except Rc (List Nat × Nat)) := do
  match ← libConv (u8Decode (domain_u8 ++ [0])) with
  | .enomem => pure (.error .malloc)
  | .other => pure (.error .encodingError)
  | .val domain_u32 dp => do
    touch dp
    match ← liftR (tr46Pass1 E flags domain_u32.dropLast 0) with
    | .error e => do
      cfree dp
      pure (.error e)
    | .ok len2 =>
      if len2 ≥ IDN2_DOMAIN_MAX_LENGTH then do
        cfree dp
        pure (.error .tooBigDomain)
      else
        match ← malloc with
        | none => do
          cfree dp
          pure (.error .malloc)
        | some tp => do
          touch dp
          touch tp
          match ← liftR (tr46Pass2 E flags (len2 + 1) domain_u32.dropLast []) with
          | .error _ => cub
          | .ok tmp =>
            if tmp.length ≥ len2 + 1 then cub
            else do
              cfree dp
              touch tp
              let r ← libConv (E.U.nfc (tmp ++ [0]))
              cfree tp
              match r with
              | .enomem => pure (.error .malloc)
              | .other => pure (.error .encodingError)
              | .val domain_u32 dp => do
                match ← tr46Labels E flags dp domain_u32 none with
                | .error e => do
                  cfree dp
                  pure (.error e)
                | .ok (some e) => do
                  cfree dp
                  pure (.error e)
                | .ok none => do
                  touch dp
                  let o ← libConv (u8Encode domain_u32)
                  cfree dp
                  match o with
                  | .enomem => pure (.error .malloc)
                  | .other => pure (.error .encodingError)
                  | .val out op => pure (.ok (out, op))

/-! ### `idn2_lookup_u8` and the other ToASCII functions -/

/-- The label loop; lookup.c:561-606.  `src` is the string from the pointer on, `name` is
`_lookupname[0..lookupnamelen)`; the array `_lookupname` has 256 bytes. -/
def lookupLoop {m : Type → Type} [CMem m] (E : Env) (flags : Nat) (src_allocated : Option Nat)
    (src name : List Nat) : m (Except Rc (List Nat)) := do
  touchOpt src_allocated
  match ← label E (src.takeWhile (· != 0x2E)) flags with
  | .error e => do
    freeOpt src_allocated
    pure (.error e)
  | .ok tmp =>
    match h : src.dropWhile (· != 0x2E) with
    | [] =>
      if name.length + tmp.length > IDN2_DOMAIN_MAX_LENGTH - (if tmp.length = 0 then 1 else 2) then do
        freeOpt src_allocated
        pure (.error .tooBigDomain)
      else if name.length + tmp.length + 1 > 256 then cub
      else pure (.ok (name ++ tmp))
    | _ :: rest =>
      if name.length + tmp.length > IDN2_DOMAIN_MAX_LENGTH - 2 then do
        freeOpt src_allocated
        pure (.error .tooBigDomain)
      else if name.length + tmp.length > 256 then cub
      else if name.length + tmp.length + 1 > IDN2_DOMAIN_MAX_LENGTH then do
        freeOpt src_allocated
        pure (.error .tooBigDomain)
      else if name.length + tmp.length + 2 > 256 then cub
      else lookupLoop E flags src_allocated rest (name ++ tmp ++ [0x2E])
termination_by src.length
decreasing_by
  have := dropWhile_length_le (· != 0x2E) src
  rw [h] at this
  simp only [List.length_cons] at this
  omega

/-- The TR46 step of `idn2_lookup_u8`; lookup.c:552-561: the string the label loop works on
and its block, if any.  (`none` for a string that is not terminated.) -/
def lookupSource {m : Type → Type} [CMem m] (E : Env) (src : List Nat) (flags : Nat) :
    m (Except Rc (Option (List Nat) × Option Nat)) := do
  if !has flags IDN2_NO_TR46 then
    match ← tr46 E src flags with
    | .error e => pure (.error e)
    | .ok (out, op) => pure (.ok (cstr out, some op))
  else pure (.ok (some src, none))

/-- `idn2_lookup_u8`; lookup.c:533-620.  The return code (`none` is IDN2_OK) and the new
value of the output parameter. -/
def idn2_lookup_u8 {m : Type → Type} [CMem m] (E : Env) (src : Option (List Nat))
    (lookupname : Option Cell) (flags : Nat) : m (Option Rc × Option Cell) := do
  match src with
  | none => pure (none, lookupname.map fun _ => .null)
  | some src =>
    match set_default_flags flags with
    | .error e => pure (some e, lookupname)
    | .ok flags => do
      match ← lookupSource E src flags with
      | .error e => pure (some e, lookupname)
      | .ok (none, _) => cub
      | .ok (some src, src_allocated) => do
        match ← lookupLoop E flags src_allocated src [] with
        | .error e => pure (some e, lookupname)
        | .ok name => do
          freeOpt src_allocated
          match lookupname with
          | none => pure (none, none)
          | some _ =>
            match ← malloc with
            | none => pure (some .malloc, lookupname)
            | some p => pure (none, some (.buf p name))

/-- `idn2_lookup_ul`; lookup.c:658-684. -/
def idn2_lookup_ul {m : Type → Type} [CMem m] (E : Env) (src : Option (List Nat))
    (lookupname : Option Cell) (flags : Nat) : m (Option Rc × Option Cell) := do
  match src with
  | none => idn2_lookup_u8 E none lookupname (flags ||| IDN2_NFC_INPUT)
  | some src =>
    match ← libConv (E.U.fromLocale src) with
    | .enomem => pure (some .malloc, lookupname)
    | .other => pure (some .iconvFail, lookupname)
    | .val utf8src p => do
      touch p
      let r ← idn2_lookup_u8 E (some utf8src) lookupname (flags ||| IDN2_NFC_INPUT)
      cfree p
      pure r

/-- `idn2_to_ascii_4i2`; lookup.c:788-832.  `input` are the `inlen` elements. -/
def idn2_to_ascii_4i2 {m : Type → Type} [CMem m] (E : Env) (input : Option (List Nat))
    (output : Option Cell) (flags : Nat) : m (Option Rc × Option Cell) := do
  match input with
  | none => pure (none, output.map fun _ => .null)
  | some input =>
    match ← malloc with
    | none => pure (some .malloc, output)
    | some ip => do
      touch ip
      let r ← libConv (u8Encode (input ++ [0]))
      cfree ip
      match r with
      | .enomem => pure (some .malloc, output)
      | .other => pure (some .encodingError, output)
      | .val input_u8 up => do
        touch up
        match cstr input_u8 with
        | none => cub
        | some s => do
          let (rc, o) ← idn2_lookup_u8 E (some s) (some (.old 0)) flags
          cfree up
          match rc with
          | some e => pure (some e, output)
          | none =>
            match output with
            | some _ => pure (none, o)
            | none =>
              match o with
              | some (.buf p _) => do
                cfree p
                pure (none, none)
              | some .null => pure (none, none)
              | _ => cub

/-- `memcpy (buf, s, n)` for an array `buf`, with `n` = length of `s`; lookup.c:179,586,615,746.
-/
def blit (buf s : List Nat) : Option (List Nat) :=
  if s.length ≤ buf.length then some (s ++ buf.drop s.length) else none

/-- `idn2_to_ascii_4i`; lookup.c:724-752.  `output` is the caller's array of bytes. -/
def idn2_to_ascii_4i {m : Type → Type} [CMem m] (E : Env) (input : Option (List Nat))
    (output : Option (List Nat)) (flags : Nat) : m (Option Rc × Option (List Nat)) := do
  match input with
  | none =>
    match output with
    | none => pure (none, none)
    | some buf =>
      match blit buf [0] with
      | none => cub
      | some buf => pure (none, some buf)
  | some input => do
    match ← idn2_to_ascii_4i2 E (some input) (some (.old 0)) flags with
    | (some e, _) => pure (some e, output)
    | (none, some (.buf p out)) => do
      touch p
      if out.length > 63 then do
        cfree p
        pure (some .tooBigDomain, output)
      else
        match output with
        | none => do
          cfree p
          pure (none, none)
        | some buf =>
          match blit buf out with
          | none => cub
          | some buf => do
            cfree p
            pure (none, some buf)
    | (none, _) => cub

/-- `idn2_to_ascii_4z`; lookup.c:854-880.  `input` is the array before its zero. -/
def idn2_to_ascii_4z {m : Type → Type} [CMem m] (E : Env) (input : Option (List Nat))
    (output : Option Cell) (flags : Nat) : m (Option Rc × Option Cell) := do
  match input with
  | none => pure (none, output.map fun _ => .null)
  | some input =>
    match ← libConv (u8Encode (input ++ [0])) with
    | .enomem => pure (some .malloc, output)
    | .other => pure (some .encodingError, output)
    | .val input_u8 up => do
      touch up
      match cstr input_u8 with
      | none => cub
      | some s => do
        let r ← idn2_lookup_u8 E (some s) output flags
        cfree up
        pure r

/-- `idn2_to_ascii_8z`; lookup.c:902-906. -/
def idn2_to_ascii_8z {m : Type → Type} [CMem m] (E : Env) (input : Option (List Nat))
    (output : Option Cell) (flags : Nat) : m (Option Rc × Option Cell) :=
  idn2_lookup_u8 E input output flags

/-- `idn2_to_ascii_lz`; lookup.c:929-933. -/
def idn2_to_ascii_lz {m : Type → Type} [CMem m] (E : Env) (input : Option (List Nat))
    (output : Option Cell) (flags : Nat) : m (Option Rc × Option Cell) :=
  idn2_lookup_ul E input output flags

/-- `idn2_free`; free.c:44-47. -/
def idn2_free {m : Type → Type} [CMem m] (p : Option Nat) : m Unit := freeOpt p

end Idn2
