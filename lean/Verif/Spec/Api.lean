import Verif.Model.Lookup
import Verif.Model.Decode
import Verif.Model.Register
import Verif.Spec.Laws

/-
What the properties say about the entry points: the assumptions about the outside world, and
abbreviations for "lookup of this name succeeds with this result" and "fails with this
code".
-/

namespace Idn2

/-- The tables of `E` implement the Unicode data `D`, the data are sane, and NFC behaves as
it should.  (The first two hold for the shipped tables: `World.shipped`.) -/
structure World (E : Env) (D : Data) : Prop where
  tables : Implements E.T D
  uni : E.U.Laws
  data : D.Laws

/-- `idn2_lookup_u8 (s, &out, flags)` returns IDN2_OK and stores a new string `n`. -/
def LookupOk (E : Env) (flags : Nat) (s n : List Nat) : Prop :=
  (idn2_lookup_u8 E (some s) (some (.old 0)) flags : Out _) = .val (none, some (.buf 0 n))

/-- `idn2_lookup_u8 (s, &out, flags)` returns the error `e` and leaves `out` alone. -/
def LookupErr (E : Env) (flags : Nat) (s : List Nat) (e : Rc) : Prop :=
  (idn2_lookup_u8 E (some s) (some (.old 0)) flags : Out _) = .val (some e, some (.old 0))

instance (E : Env) (flags : Nat) (s n : List Nat) : Decidable (LookupOk E flags s n) := by
  unfold LookupOk; infer_instance

instance (E : Env) (flags : Nat) (s : List Nat) (e : Rc) : Decidable (LookupErr E flags s e) := by
  unfold LookupErr; infer_instance

/-- `idn2_to_unicode_8z4z (s, &out, 0)` returns IDN2_OK and stores the code points `u`. -/
def ToUniOk (s u : List Nat) : Prop :=
  (idn2_to_unicode_8z4z (some s) (some (.old 0)) 0 : Out _) = .val (none, some (.buf 0 u))

/-- `idn2_to_unicode_8z4z (s, &out, 0)` returns the error `e` and leaves `out` alone. -/
def ToUniErr (s : List Nat) (e : Rc) : Prop :=
  (idn2_to_unicode_8z4z (some s) (some (.old 0)) 0 : Out _) = .val (some e, some (.old 0))

instance (s u : List Nat) : Decidable (ToUniOk s u) := by
  unfold ToUniOk; infer_instance

instance (s : List Nat) (e : Rc) : Decidable (ToUniErr s e) := by
  unfold ToUniErr; infer_instance

/-- `idn2_register_u8 (ul, al, &out, flags)` returns IDN2_OK and stores `n`. -/
def RegOk (E : Env) (flags : Nat) (ul al : Option (List Nat)) (n : List Nat) : Prop :=
  (idn2_register_u8 E ul al (some (.old 0)) flags : Out _) = .val (none, some (.buf 0 n))

/-- `idn2_register_u8 (ul, al, &out, flags)` returns the error `e` and leaves `out` alone. -/
def RegErr (E : Env) (flags : Nat) (ul al : Option (List Nat)) (e : Rc) : Prop :=
  (idn2_register_u8 E ul al (some (.old 0)) flags : Out _) = .val (some e, some (.old 0))

instance (E : Env) (flags : Nat) (ul al : Option (List Nat)) (n : List Nat) :
    Decidable (RegOk E flags ul al n) := by
  unfold RegOk; infer_instance

instance (E : Env) (flags : Nat) (ul al : Option (List Nat)) (e : Rc) :
    Decidable (RegErr E flags ul al e) := by
  unfold RegErr; infer_instance

end Idn2
