import Verif.Basic

/-
lib/version.c.  `strverscmp` belongs to the C library and not to the repository; it is written
here after the implementation of the GNU C library (string/strverscmp.c), which is also that of
gnulib.
-/

namespace Idn2

/-- Class of a character: 0 for other than a digit, 1 for 1-9, 2 for 0. `(c == '0') + (isdigit (c)
!= 0)`; part of `strverscmp`, called in version.c:62. -/
def verClass (c : Nat) : Nat :=
  (if c = 0x30 then 1 else 0) + (if 0x30 ≤ c ∧ c ≤ 0x39 then 1 else 0)

/-- States: outside of numbers, in an integral part, in a fractional part, and in a fractional
part of zeros only; part of `strverscmp`, called in version.c:62. -/
inductive VerState where
  | normal | integral | fraction | zeros
  deriving DecidableEq, Repr

/-- `next_state`: after a character of the class; part of `strverscmp`, called in version.c:62. -/
def verNext : VerState → Nat → VerState
  | _, 0 => .normal
  | .normal, 1 => .integral
  | .normal, _ => .zeros
  | .integral, _ => .integral
  | .fraction, _ => .fraction
  | .zeros, 1 => .fraction
  | .zeros, _ => .zeros

/-- What decides at the first difference; part of `strverscmp`, called in version.c:62. -/
inductive VerResult where
  | cmp | len | less | greater
  deriving DecidableEq, Repr

/-- `result_type`: from the state and the classes of the two characters; part of `strverscmp`,
called in version.c:62. -/
def verResult : VerState → Nat → Nat → VerResult
  | .normal, 1, 1 => .len
  | .normal, _, _ => .cmp
  | .integral, 0, 0 => .cmp
  | .integral, 0, _ => .less
  | .integral, _, 0 => .greater
  | .integral, _, _ => .len
  | .fraction, _, _ => .cmp
  | .zeros, 0, 0 => .cmp
  | .zeros, 0, _ => .greater
  | .zeros, _, 0 => .less
  | .zeros, _, _ => .cmp

/-- The character at the front of a string; 0 at its end; part of `strverscmp`, called in
version.c:62. -/
def verHead : List Nat → Nat
  | [] => 0
  | c :: _ => c

/-- The loop of the case LEN: `diff` is the difference of the characters; part of `strverscmp`,
called in version.c:62. -/
def verLen (diff : Int) : List Nat → List Nat → Int
  | [], q => if verClass (verHead q) ≠ 0 then -1 else diff
  | c :: p, q =>
    if verClass c ≠ 0 then
      if verClass (verHead q) = 0 then 1 else verLen diff p q.tail
    else if verClass (verHead q) ≠ 0 then -1 else diff

/-- The main loop, in a state; part of `strverscmp`, called in version.c:62. -/
def verLoop (st : VerState) : List Nat → List Nat → Int
  | p, q =>
    let c1 := verHead p
    let c2 := verHead q
    if c1 = c2 then
      match p with
      | [] => 0
      | _ :: p' => verLoop (verNext st (verClass c1)) p' q.tail
    else
      match verResult st (verClass c1) (verClass c2) with
      | .cmp => (c1 : Int) - c2
      | .len => verLen ((c1 : Int) - c2) p.tail q.tail
      | .less => -1
      | .greater => 1
  termination_by p => p.length

/-- `strverscmp` on strings without the terminating zero; the call is version.c:62. -/
def strverscmp (s t : List Nat) : Int := verLoop .normal s t

/-- `idn2_check_version (req_version)`; lib/version.c:59-66.  `version` is IDN2_VERSION. -/
def idn2_check_version (version : List Nat) (req_version : Option (List Nat)) :
    Option (List Nat) :=
  match req_version with
  | none => some version
  | some r => if strverscmp r version ≤ 0 then some version else none

end Idn2
