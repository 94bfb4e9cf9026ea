import Verif.Spec.Tables

/-
UTS #46, section 4, step 1 (Map), with the treatment of the STD3 statuses as in the
library.
-/

namespace Idn2.Spec

/-- What a code point is replaced with. -/
def emit (D : Data) (transitional std3 : Bool) (c : Nat) : List Nat :=
  match D.status c with
  | .valid => [c]
  | .mapped => D.mapping c
  | .ignored => []
  | .deviation => if transitional then D.mapping c else [c]
  | .disallowed => [c]
  | .std3Valid => if std3 then [] else [c]
  | .std3Mapped => if std3 then [] else D.mapping c

end Idn2.Spec
