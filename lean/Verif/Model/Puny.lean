import Verif.Basic

/-
Model of the Punycode coders, lib/puny_encode.c and lib/puny_decode.c.

`char`/`punycode_uint` values are `Nat`; every place where the C code computes in
`uint32_t` and the mathematical value could exceed 32 bits is wrapped with `u32`
(or `sub32`).  Output arrays are the list written so far together with `phys`, the
number of elements the caller's array really has: a write outside it is `ub`.
-/

namespace Idn2

/-- `encode_digit (d, 0)`; puny_encode.c:97-103.  (`flag` is always 0 in the code.) -/
def encode_digit (d : Nat) : Nat := d + 22 + 75 * (if d < 26 then 1 else 0)

/-- The loop of `adapt`; puny_encode.c:126-129, puny_decode.c:130-133. -/
def adaptLoop (delta k : Nat) : Nat × Nat :=
  if 455 < delta then adaptLoop (delta / 35) (u32 (k + 36)) else (delta, k)
termination_by delta
decreasing_by omega

/-- `adapt`; puny_encode.c:117-132 and puny_decode.c:121-136 (identical text).
Division by zero is `ub`. -/
def adapt (delta numpoints : Nat) (firsttime : Bool) : Res Nat :=
  if numpoints = 0 then .ub
  else
    let delta := if firsttime then delta / 700 else delta / 2
    let delta := u32 (delta + delta / numpoints)
    let dk := adaptLoop delta 0
    if u32 (dk.1 + 38) = 0 then .ub
    else .ok (u32 (dk.2 + u32 (36 * dk.1) / u32 (dk.1 + 38)))

/-- The threshold `t`; puny_encode.c:225-226, puny_decode.c:210-211. -/
def threshold (k bias : Nat) : Nat :=
  if k ≤ bias then 1 else if k ≥ u32 (bias + 26) then 26 else k - bias

/-- `output[out++] = c` on a caller array of `phys` elements; puny_encode.c:168,183,229,233. -/
def push (phys : Nat) (output : List Nat) (c : Nat) : Res (List Nat) :=
  if output.length < phys then .ok (output ++ [c]) else .ub

theorem threshold_bounds (k bias : Nat) : 1 ≤ threshold k bias ∧ threshold k bias ≤ 26 := by
  unfold threshold u32
  split
  · omega
  · split
    · omega
    · have : (bias + 26) % 4294967296 ≤ bias + 26 := Nat.mod_le _ _
      omega

/-! ### Encoder -/

/-- The variable-length-integer loop of the encoder including the final digit;
puny_encode.c:221-233. -/
def encVarint (phys maxOut bias q k : Nat) (output : List Nat) : Res (List Nat) :=
  if output.length ≥ maxOut then .err .punycodeBigOutput
  else
    let t := threshold k bias
    if q < t then push phys output (encode_digit q)
    else
      match push phys output (encode_digit (t + (q - t) % (36 - t))) with
      | .ok output => encVarint phys maxOut bias ((q - t) / (36 - t)) (u32 (k + 36)) output
      | .err e => .err e
      | .ub => .ub
termination_by q
decreasing_by
  have h := threshold_bounds k bias
  have h1 : (q - threshold k bias) / (36 - threshold k bias) ≤ q - threshold k bias :=
    Nat.div_le_self _ _
  omega

/-- The encoder's loop-carried variables; puny_encode.c:141-142. -/
structure EncSt where
  delta : Nat
  h : Nat
  bias : Nat
  output : List Nat
  deriving DecidableEq, Repr

/-- One pass over the input for a fixed `n`, `rest` being `input[j..]`;
puny_encode.c:208-238. -/
def encPass (phys maxOut n b : Nat) : List Nat → EncSt → Res EncSt
  | [], st => .ok st
  | x :: rest, st =>
    -- lines 211-215
    let delta' := if x < n then u32 (st.delta + 1) else st.delta
    if x < n ∧ delta' = 0 then .err .punycodeOverflow
    else if x = n then
      -- lines 219-236
      match encVarint phys maxOut st.bias delta' 36 st.output with
      | .err e => .err e
      | .ub => .ub
      | .ok output =>
        match adapt delta' (u32 (st.h + 1)) (st.h == b) with
        | .err e => .err e
        | .ub => .ub
        | .ok bias => encPass phys maxOut n b rest ⟨0, u32 (st.h + 1), bias, output⟩
    else encPass phys maxOut n b rest { st with delta := delta' }

/-- Smallest code point `≥ n` (or `maxint`); puny_encode.c:192-198. -/
def nextM (n : Nat) (input : List Nat) : Nat :=
  input.foldl (fun m x => if x ≥ n ∧ x < m then x else m) maxint

/-- Main encoding loop; puny_encode.c:187-241.  `fuel` bounds the number of iterations;
running out of it counts as `ub` (non-termination). -/
def encLoop (phys maxOut b : Nat) (input : List Nat) : Nat → Nat → EncSt → Res (List Nat)
  | fuel, n, st =>
    if st.h < input.length then
      match fuel with
      | 0 => .ub
      | fuel + 1 =>
        let m := nextM n input
        if u32 (st.h + 1) = 0 then .ub
        else if sub32 m n > sub32 maxint st.delta / u32 (st.h + 1) then .err .punycodeOverflow
        else
          let delta := u32 (st.delta + u32 (sub32 m n * u32 (st.h + 1)))
          match encPass phys maxOut m b input { st with delta := delta } with
          | .err e => .err e
          | .ub => .ub
          | .ok st => encLoop phys maxOut b input fuel (u32 (m + 1))
                        { st with delta := u32 (st.delta + 1) }
    else .ok st.output

/-- Copying the basic code points; puny_encode.c:162-173. -/
def encBasics (phys maxOut : Nat) : List Nat → List Nat → Res (List Nat)
  | [], output => .ok output
  | x :: rest, output =>
    if x < 0x80 then
      if sub64 maxOut output.length < 2 then .err .punycodeBigOutput
      else
        match push phys output x with
        | .ok output => encBasics phys maxOut rest output
        | .err e => .err e
        | .ub => .ub
    else if x > 0x10FFFF ∨ (x ≥ 0xD800 ∧ x ≤ 0xDBFF) then .err .punycodeBadInput
    else encBasics phys maxOut rest output

/-- `punycode_encode`; puny_encode.c:136-245.  `maxOut` is `*output_length` on entry;
on success the returned list is `output[0 .. *output_length)`. -/
def punycode_encode (phys maxOut : Nat) (input : List Nat) : Res (List Nat) :=
  if input.length > maxint then .err .punycodeOverflow
  else
    match encBasics phys maxOut input [] with
    | .err e => .err e
    | .ub => .ub
    | .ok output =>
      let b := u32 output.length
      match (if b > 0 then push phys output 0x2D else .ok output) with
      | .err e => .err e
      | .ub => .ub
      | .ok output => encLoop phys maxOut b input input.length 0x80 ⟨0, b, 72, output⟩

/-! ### Decoder -/

/-- The macro `basic`; puny_decode.c:90.  (`char` values ≥ 128 are not basic, whether
`char` is signed or not.) -/
def decBasic (c : Nat) : Bool :=
  (0x61 ≤ c && c ≤ 0x7A) || (0x30 ≤ c && c ≤ 0x39) || (0x41 ≤ c && c ≤ 0x5A)
    || c == 0x2D || c == 0x5F

/-- `decode_digit`; puny_decode.c:96-107. -/
def decode_digit (c : Nat) : Nat :=
  if 0x61 ≤ c ∧ c ≤ 0x7A then c - 0x61
  else if 0x30 ≤ c ∧ c ≤ 0x39 then c - 0x30 + 26
  else if 0x41 ≤ c ∧ c ≤ 0x5A then c - 0x41
  else 0

/-- First loop of the decoder; puny_decode.c:152-158.  `none` when a character is not
basic, otherwise the final value of `b`. -/
def decScan : List Nat → Nat → Nat → Option Nat
  | [], _, b => some b
  | c :: rest, j, b =>
    if decBasic c then decScan rest (j + 1) (if c = 0x2D then j else b) else none

/-- The variable-length-integer loop of the decoder; puny_decode.c:200-217.  `rest` is
`input[in..]`; on success the new `i` and the rest of the input. -/
def decVarint (bias : Nat) : List Nat → Nat → Nat → Nat → Res (Nat × List Nat)
  | [], _, _, _ => .err .punycodeBadInput
  | c :: rest, i, w, k =>
    let digit := decode_digit c
    if digit ≥ 36 then .err .punycodeBadInput
    else if w = 0 then .ub
    else if digit > sub32 maxint i / w then .err .punycodeOverflow
    else
      let i := u32 (i + u32 (digit * w))
      let t := threshold k bias
      if digit < t then .ok (i, rest)
      else if w > maxint / (36 - t) then .err .punycodeOverflow
      else decVarint bias rest i (u32 (w * (36 - t))) (u32 (k + 36))

/-- Main decoding loop; puny_decode.c:190-239.  `rest` is `input[in..]`, `out` is the
array written so far (its length is the C variable `out`).  `memmove` followed by
the assignment is an insertion at index `i`, touching `out.length + 1` elements. -/
def decLoop (phys maxOut : Nat) : Nat → List Nat → Nat → Nat → Nat → List Nat → Res (List Nat)
  | fuel, rest, n, i, bias, out =>
    match rest with
    | [] => .ok out
    | _ :: _ =>
      match fuel with
      | 0 => .ub
      | fuel + 1 =>
        match decVarint bias rest i 1 36 with
        | .err e => .err e
        | .ub => .ub
        | .ok (i', rest') =>
          match adapt (sub32 i' i) (u32 (out.length + 1)) (i == 0) with
          | .err e => .err e
          | .ub => .ub
          | .ok bias =>
            if i' / u32 (out.length + 1) > sub32 maxint n then .err .punycodeOverflow
            else
              let n := u32 (n + i' / u32 (out.length + 1))
              if n > 0x10FFFF ∨ (n ≥ 0xD800 ∧ n ≤ 0xDBFF) then .err .punycodeBadInput
              else
                let i := i' % u32 (out.length + 1)
                if out.length ≥ maxOut then .err .punycodeBigOutput
                else if out.length < phys ∧ i ≤ out.length then
                  decLoop phys maxOut fuel rest' n (u32 (i + 1)) bias (out.insertIdx i n)
                else .ub

/-- `punycode_decode`; puny_decode.c:140-244.  `outLen` is `*output_length` on entry.
The copy loop 177-178 writes `b` elements. -/
def punycode_decode (phys outLen : Nat) (input : List Nat) : Res (List Nat) :=
  if input.length = 0 then .err .punycodeBadInput
  else
    match decScan input 0 0 with
    | none => .err .punycodeBadInput
    | some b =>
      let maxOut := if outLen > maxint then maxint else outLen
      if input[b]? = some 0x2D then
        if b = 0 ∨ b = input.length - 1 then .err .punycodeBadInput
        else if b ≥ maxOut then .err .punycodeBigOutput
        else if b ≤ phys then
          decLoop phys maxOut input.length (input.drop (b + 1)) 0x80 0 72 (input.take b)
        else .ub
      else decLoop phys maxOut input.length (input.drop b) 0x80 0 72 []

end Idn2
