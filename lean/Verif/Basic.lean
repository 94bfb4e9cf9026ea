/-
Basic vocabulary of the model: return codes, machine arithmetic and outcomes.
-/

namespace Idn2

/-- The return codes `Idn2_rc`; lib/idn2.h.in:273-304 (declaration order kept). -/
inductive Rc where
  | malloc | noCodeset | iconvFail
  | encodingError | nfc | punycodeBadInput | punycodeBigOutput | punycodeOverflow
  | tooBigDomain | tooBigLabel | invalidAlabel | ualabelMismatch | invalidFlags
  | notNfc | twoHyphen | hyphenStartEnd | leadingCombining | disallowed
  | contextj | contextjNoRule | contexto | contextoNoRule | unassigned | bidi
  | dotInLabel | invalidTransitional | invalidNontransitional | alabelRoundtripFailed
  deriving DecidableEq, Repr

/-- Outcome of a C function whose only results are "IDN2_OK with a value", "an error
code" or undefined behaviour. -/
inductive Res (α : Type) where
  | ok (a : α)
  | err (e : Rc)
  | ub
  deriving DecidableEq, Repr

namespace Res

/-- Sequencing: errors and undefined behaviour stop the computation. -/
def bind {α β : Type} : Res α → (α → Res β) → Res β
  | ok a, f => f a
  | err e, _ => err e
  | ub, _ => ub

instance : Monad Res where
  pure := ok
  bind := bind

@[simp] theorem pure_eq {α : Type} (a : α) : (pure a : Res α) = ok a := rfl
@[simp] theorem bind_ok {α β : Type} (a : α) (f : α → Res β) : (ok a >>= f) = f a := rfl
@[simp] theorem bind_err {α β : Type} (e : Rc) (f : α → Res β) :
    ((err e : Res α) >>= f) = err e := rfl
@[simp] theorem bind_ub {α β : Type} (f : α → Res β) : ((ub : Res α) >>= f) = ub := rfl

theorem bind_eq_ok {α β : Type} {x : Res α} {f : α → Res β} {b : β} :
    (x >>= f) = ok b ↔ ∃ a, x = ok a ∧ f a = ok b := by
  cases x <;> simp

/-- "Is IDN2_OK". -/
def isOk {α : Type} : Res α → Bool
  | ok _ => true
  | _ => false

end Res

/-- `maxint` of the Punycode coders (the largest `uint32_t`); puny_encode.c:108. -/
def maxint : Nat := 4294967295

/-- Conversion of a mathematical integer to `uint32_t`. -/
def u32 (x : Nat) : Nat := x % 4294967296

/-- `uint32_t` subtraction (wraps). -/
def sub32 (x y : Nat) : Nat := (x + (4294967296 - y % 4294967296)) % 4294967296

/-- `size_t` subtraction on a 64-bit machine (wraps). -/
def sub64 (x y : Nat) : Nat :=
  (x + (18446744073709551616 - y % 18446744073709551616)) % 18446744073709551616

theorem u32_of_lt {x : Nat} (h : x < 4294967296) : u32 x = x := Nat.mod_eq_of_lt h

theorem u32_of_le {x : Nat} (h : x ≤ maxint) : u32 x = x :=
  Nat.mod_eq_of_lt (by simp only [maxint] at h; omega)

theorem sub32_of_le {x y : Nat} (h : y ≤ x) (hx : x < 4294967296) : sub32 x y = x - y := by
  unfold sub32; omega

theorem sub64_of_le {x y : Nat} (h : y ≤ x) (hx : x < 18446744073709551616) :
    sub64 x y = x - y := by
  unfold sub64; omega

end Idn2
