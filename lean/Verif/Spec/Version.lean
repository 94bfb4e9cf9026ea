import Verif.Basic

/-
Version numbers such as 2.3.0 and their order.
-/

namespace Idn2.Spec

/-- `t` is the decimal numeral of `n`, without leading zeros. -/
inductive Numeral : List Nat → Nat → Prop
  | digit {d : Nat} : d < 10 → Numeral [48 + d] d
  | snoc {t : List Nat} {n d : Nat} : Numeral t n → 0 < n → d < 10 →
      Numeral (t ++ [48 + d]) (10 * n + d)

/-- `t` is the version number with the components `ns`, separated by full stops. -/
inductive Dotted : List Nat → List Nat → Prop
  | one {t : List Nat} {n : Nat} : Numeral t n → Dotted [n] t
  | cons {t u : List Nat} {n : Nat} {ns : List Nat} : Numeral t n → Dotted ns u →
      Dotted (n :: ns) (t ++ 0x2E :: u)

/-- Version `a` comes before version `b`: it is smaller in the first component that differs, or
`b` goes on where `a` ends. -/
inductive Before : List Nat → List Nat → Prop
  | ends {b : Nat} {bs : List Nat} : Before [] (b :: bs)
  | smaller {a b : Nat} {as bs : List Nat} : a < b → Before (a :: as) (b :: bs)
  | same {a : Nat} {as bs : List Nat} : Before as bs → Before (a :: as) (a :: bs)

end Idn2.Spec
