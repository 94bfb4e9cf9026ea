import Verif.Model.Lookup

/-
ToUnicode; lib/decode.c.
-/

namespace Idn2

/-- The test for "xn--" in any case; decode.c:90-91. -/
def aceAnyCase (s : List Nat) : Bool :=
  match s with
  | a :: b :: c :: d :: _ =>
    (a == 0x78 || a == 0x58) && (b == 0x6E || b == 0x4E) && c == 0x2D && d == 0x2D
  | _ => false

/-- The body of the label loop up to the append; decode.c:90-131.  `dot` says whether a dot
follows. -/
def toUnicodeLabel {m : Type → Type} [CMem m] (lbl out : List Nat) (dot : Nat) :
    m (Except Rc (List Nat)) :=
  if aceAnyCase lbl then do
    match ← liftR (punycode_decode 63 63 (lbl.drop 4)) with
    | .error e => pure (.error e)
    | .ok label_u32 =>
      if out.length + label_u32.length + dot > IDN2_DOMAIN_MAX_LENGTH then
        pure (.error .tooBigDomain)
      else pure (.ok label_u32)
  else do
    match ← libConv (u8Decode lbl) with
    | .enomem => pure (.error .malloc)
    | .other => pure (.error .encodingError)
    | .val domain_u32 dp =>
      if domain_u32.length > IDN2_LABEL_MAX_LENGTH then do
        cfree dp
        pure (.error .tooBigLabel)
      else if out.length + domain_u32.length + dot > IDN2_DOMAIN_MAX_LENGTH then do
        cfree dp
        pure (.error .tooBigDomain)
      else do
        touch dp
        cfree dp
        pure (.ok domain_u32)

/-- The label loop; decode.c:82-139.  `s` is the string from the pointer on, `out` is
`out_u32[0..out_len)`; the array `out_u32` has 256 elements. -/
def toUnicodeLoop {m : Type → Type} [CMem m] (s out : List Nat) : m (Except Rc (List Nat)) :=
  if s = [] then pure (.ok out)
  else do
    let r ← toUnicodeLabel (s.takeWhile (· != 0x2E)) out
      (if s.dropWhile (· != 0x2E) = [] then 0 else 1)
    match r with
    | .error e => pure (.error e)
    | .ok label_u32 =>
      if out.length + label_u32.length > 256 then cub
      else
        match h : s.dropWhile (· != 0x2E) with
        | [] => pure (.ok (out ++ label_u32))
        | _ :: rest =>
          if out.length + label_u32.length + 1 > 256 then cub
          else toUnicodeLoop rest (out ++ label_u32 ++ [0x2E])
termination_by s.length
decreasing_by
  have := dropWhile_length_le (· != 0x2E) s
  rw [h] at this
  simp only [List.length_cons] at this
  omega

/-- `idn2_to_unicode_8z4z`; decode.c:63-159.  `flags` is unused. -/
def idn2_to_unicode_8z4z {m : Type → Type} [CMem m] (input : Option (List Nat))
    (output : Option Cell) (_flags : Nat) : m (Option Rc × Option Cell) := do
  match input with
  | none => pure (none, output.map fun _ => .null)
  | some input =>
    match ← toUnicodeLoop input [] with
    | .error e => pure (some e, output)
    | .ok out =>
      match output with
      | none => pure (none, none)
      | some _ =>
        if out.length + 1 > 256 then cub
        else
          match ← malloc with
          | none => pure (some .malloc, output)
          | some p => pure (none, some (.buf p out))

/-- `idn2_to_unicode_4z4z`; decode.c:182-217. -/
def idn2_to_unicode_4z4z {m : Type → Type} [CMem m] (input : Option (List Nat))
    (output : Option Cell) (flags : Nat) : m (Option Rc × Option Cell) := do
  match input with
  | none => pure (none, output.map fun _ => .null)
  | some input =>
    match ← libConv (u8Encode (input ++ [0])) with
    | .enomem => pure (some .malloc, output)
    | .other => pure (some .encodingError, output)
    | .val input_u8 up => do
      touch up
      match cstr input_u8 with
      | none => cub
      | some s => do
        let (rc, o) ← idn2_to_unicode_8z4z (some s) (some (.old 0)) flags
        cfree up
        match rc with
        | some e => pure (some e, output)
        | none =>
          match output with
          | some _ => pure (none, o)
          | none =>
            match o with
            | some (.buf p _) => do
              cfree p
              pure (none, none)
            | some .null => pure (none, none)
            | _ => cub

/-- `idn2_to_unicode_44i`; decode.c:245-282.  `input` are the `inlen` elements, `out` is
the caller's array, `outlen` the caller's `*outlen`. -/
def idn2_to_unicode_44i {m : Type → Type} [CMem m] (input : Option (List Nat))
    (out : Option (List Nat)) (outlen : Option Nat) (flags : Nat) :
    m (Option Rc × Option (List Nat) × Option Nat) := do
  match input with
  | none => pure (none, out, outlen.map fun _ => 0)
  | some input =>
    match ← malloc with
    | none => pure (some .malloc, out, outlen)
    | some ip => do
      touch ip
      match cstr (input ++ [0]) with
      | none => cub
      | some s => do
        let (rc, o) ← idn2_to_unicode_4z4z (some s) (some (.old 0)) flags
        cfree ip
        match rc with
        | some e => pure (some e, out, outlen)
        | none =>
          match o with
          | some (.buf p u) => do
            touch p
            match cstr (u ++ [0]) with
            | none => cub
            | some u =>
              match out, outlen with
              | some buf, some n =>
                match blit buf (u.take n) with
                | none => cub
                | some buf => do
                  cfree p
                  pure (none, some buf, some u.length)
              | _, _ => do
                cfree p
                pure (none, out, outlen.map fun _ => u.length)
          | _ => cub

/-- `idn2_to_unicode_8z8z`; decode.c:305-334. -/
def idn2_to_unicode_8z8z {m : Type → Type} [CMem m] (input : Option (List Nat))
    (output : Option Cell) (flags : Nat) : m (Option Rc × Option Cell) := do
  let (rc, o) ← idn2_to_unicode_8z4z input (some (.old 0)) flags
  match rc, input with
  | some e, _ => pure (some e, output)
  | none, none => pure (none, output)
  | none, some _ =>
    match o with
    | some (.buf p u) => do
      touch p
      match cstr (u ++ [0]) with
      | none => cub
      | some u => do
        let r ← libConv (u8Encode (u ++ [0]))
        cfree p
        match r with
        | .enomem => pure (some .malloc, output)
        | .other => pure (some .encodingError, output)
        | .val output_u8 op =>
          match output with
          | none => do
            cfree op
            pure (none, none)
          | some _ =>
            match cstr output_u8 with
            | none => cub
            | some s => pure (none, some (.buf op s))
    | _ => cub

/-- `idn2_to_unicode_8zlz`; decode.c:358-395. -/
def idn2_to_unicode_8zlz {m : Type → Type} [CMem m] (E : Env) (input : Option (List Nat))
    (output : Option Cell) (flags : Nat) : m (Option Rc × Option Cell) := do
  let (rc, o) ← idn2_to_unicode_8z8z input (some (.old 0)) flags
  match rc, input with
  | some e, _ => pure (some e, output)
  | none, none => pure (none, output)
  | none, some _ =>
    match o with
    | some (.buf p u) => do
      touch p
      match ← libConv (E.U.toLocale u) with
      | .enomem => do
        cfree p
        pure (some .malloc, output)
      | .other => do
        cfree p
        pure (some .encodingError, output)
      | .val s lp => do
        let o ← (match output with
          | some _ => pure (some (Cell.buf lp s))
          | none => do
            cfree lp
            pure none)
        cfree p
        pure (none, o)
    | _ => cub

/-- `idn2_to_unicode_lzlz`; decode.c:420-448. -/
def idn2_to_unicode_lzlz {m : Type → Type} [CMem m] (E : Env) (input : Option (List Nat))
    (output : Option Cell) (flags : Nat) : m (Option Rc × Option Cell) := do
  match input with
  | none => pure (none, output.map fun _ => .null)
  | some input =>
    match ← libConv (E.U.fromLocale input) with
    | .enomem => pure (some .malloc, output)
    | .other => pure (some .iconvFail, output)
    | .val input_l8 ip => do
      touch ip
      let r ← idn2_to_unicode_8zlz E (some input_l8) output flags
      cfree ip
      pure r

end Idn2
