import Verif.Model.Lookup
import Verif.Model.Decode
import Verif.Model.Error
import Verif.Spec.CExpr

/-
The names of libidn that lib/idn2.h.in defines.  The argument `f` of a macro is a list of tokens,
which the preprocessor puts where the parameter is; `w` is the value that the compiler gives to the
expression that results.
-/

namespace Idn2

open Spec.CExpr (Tok)

/-- `f|IDN2_NFC_INPUT|IDN2_NONTRANSITIONAL`; idn2.h.in:398-401. -/
def compatFlags (f : List Tok) : List Tok := f ++ [.bar, .num 1, .bar, .num 8]

/-- `Idna_flags`; idn2.h.in:392-396. -/
def IDNA_ALLOW_UNASSIGNED : Nat := IDN2_ALLOW_UNASSIGNED
def IDNA_USE_STD3_ASCII_RULES : Nat := IDN2_USE_STD3_ASCII_RULES

/-- A call of `idna_to_ascii_4i(i,l,o,f)`; idn2.h.in:398. -/
def idna_to_ascii_4i {m : Type → Type} [CMem m] (E : Env) (i : Option (List Nat))
    (o : Option (List Nat)) (w : Nat) : m (Option Rc × Option (List Nat)) :=
  idn2_to_ascii_4i E i o w

/-- A call of `idna_to_ascii_4z(i,o,f)`; idn2.h.in:399. -/
def idna_to_ascii_4z {m : Type → Type} [CMem m] (E : Env) (i : Option (List Nat))
    (o : Option Cell) (w : Nat) : m (Option Rc × Option Cell) :=
  idn2_to_ascii_4z E i o w

/-- A call of `idna_to_ascii_8z(i,o,f)`; idn2.h.in:400. -/
def idna_to_ascii_8z {m : Type → Type} [CMem m] (E : Env) (i : Option (List Nat))
    (o : Option Cell) (w : Nat) : m (Option Rc × Option Cell) :=
  idn2_to_ascii_8z E i o w

/-- A call of `idna_to_ascii_lz(i,o,f)`; idn2.h.in:401. -/
def idna_to_ascii_lz {m : Type → Type} [CMem m] (E : Env) (i : Option (List Nat))
    (o : Option Cell) (w : Nat) : m (Option Rc × Option Cell) :=
  idn2_to_ascii_lz E i o w

end Idn2
