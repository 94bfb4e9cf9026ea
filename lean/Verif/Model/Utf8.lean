import Verif.Basic

/-
UTF-8/UTF-32 conversion, as done by libunistring's `u8_to_u32` and `u32_to_u8` (not part
of the repository; modelled from their documented behaviour: strict UTF-8, no overlong
forms, no surrogates, nothing above U+10FFFF, EILSEQ otherwise).
-/

namespace Idn2

/-- Value of a continuation byte; the calls of `u8_to_u32` are idna.c:94, lookup.c:276,
decode.c:110; the function is that of libunistring. -/
def contByte (b : Nat) : Option Nat := if 0x80 ≤ b ∧ b ≤ 0xBF then some (b - 0x80) else none

/-- `u8_mbtoucr`: first code point of a non-empty byte string with the number of bytes it takes;
the calls of `u8_to_u32` are idna.c:94, lookup.c:276, decode.c:110; the function is that of
libunistring. -/
def u8_mbtouc : List Nat → Option (Nat × Nat)
  | [] => none
  | b :: r =>
    if b < 0x80 then some (b, 1)
    else if b < 0xC2 then none
    else if b < 0xE0 then
      match r with
      | b1 :: _ => do
        let x1 ← contByte b1
        some ((b - 0xC0) * 64 + x1, 2)
      | _ => none
    else if b < 0xF0 then
      match r with
      | b1 :: b2 :: _ => do
        let x1 ← contByte b1
        let x2 ← contByte b2
        if b = 0xE0 ∧ b1 < 0xA0 then none
        else if b = 0xED ∧ b1 ≥ 0xA0 then none
        else some ((b - 0xE0) * 4096 + x1 * 64 + x2, 3)
      | _ => none
    else if b < 0xF5 then
      match r with
      | b1 :: b2 :: b3 :: _ => do
        let x1 ← contByte b1
        let x2 ← contByte b2
        let x3 ← contByte b3
        if b = 0xF0 ∧ b1 < 0x90 then none
        else if b = 0xF4 ∧ b1 ≥ 0x90 then none
        else some ((b - 0xF0) * 262144 + x1 * 4096 + x2 * 64 + x3, 4)
      | _ => none
    else none

/-- Loop of `u8_to_u32`; `skip` is the number of bytes still belonging to the code point just
decoded; the calls of `u8_to_u32` are idna.c:94, lookup.c:276, decode.c:110; the function is that
of libunistring. -/
def u8DecodeAux : Nat → List Nat → Option (List Nat)
  | _, [] => some []
  | 0, b :: r =>
    match u8_mbtouc (b :: r) with
    | none => none
    | some (c, n) => (u8DecodeAux (n - 1) r).map (c :: ·)
  | k + 1, _ :: r => u8DecodeAux k r

/-- `u8_to_u32`: `none` is EILSEQ; the calls of `u8_to_u32` are idna.c:94, lookup.c:276,
decode.c:110; the function is that of libunistring. -/
def u8Decode (s : List Nat) : Option (List Nat) := u8DecodeAux 0 s

/-- `u8_uctomb`; the calls of `u32_to_u8` are register.c:113, lookup.c:164,473,811,868,
decode.c:197,318; the function is that of libunistring. -/
def u8_uctomb (c : Nat) : Option (List Nat) :=
  if c < 0x80 then some [c]
  else if c < 0x800 then some [0xC0 + c / 64, 0x80 + c % 64]
  else if c < 0x10000 then
    if c < 0xD800 ∨ c ≥ 0xE000 then
      some [0xE0 + c / 4096, 0x80 + c / 64 % 64, 0x80 + c % 64]
    else none
  else if c < 0x110000 then
    some [0xF0 + c / 262144, 0x80 + c / 4096 % 64, 0x80 + c / 64 % 64, 0x80 + c % 64]
  else none

/-- `u32_to_u8`: `none` is EILSEQ; the calls of `u32_to_u8` are register.c:113,
lookup.c:164,473,811,868, decode.c:197,318; the function is that of libunistring. -/
def u8Encode : List Nat → Option (List Nat)
  | [] => some []
  | c :: r =>
    match u8_uctomb c with
    | none => none
    | some bs => (u8Encode r).map (bs ++ ·)

end Idn2
