import Verif.Spec.ToAsciiNfc

/-
Declarative account of the registration of a U-label under IDN2_NFC_INPUT.
-/

namespace Idn2.Spec

/-- The tests of registration, as a set of bits of idna.h: NFC, 2HYPHEN, HYPHEN_STARTEND,
LEADING_COMBINING, DISALLOWED, CONTEXTJ_RULE, CONTEXTO_RULE, UNASSIGNED, BIDI. -/
def regTests : Nat := 2^0 + 2^1 + 2^2 + 2^3 + 2^4 + 2^6 + 2^9 + 2^10 + 2^11

/-- Registration of the U-label `t` (in UTF-8) gives `n`. -/
def Registers (D : Data) (U : Uni) (t n : List Nat) : Prop :=
  ((∀ c ∈ t, c < 0x80) ∧ t.length ≤ 63 ∧ n = t) ∨
  ∃ q u, (∀ c ∈ q, isScalar c) ∧ (∃ c ∈ q, 0x80 ≤ c) ∧ t = utf8s q ∧ Norm D U q u ∧
    (∀ e, ¬ Fault D U regTests u e) ∧ n = xn ++ Punycode.encode u ∧ n.length ≤ 63

/-- Registration of the U-label `t` (in UTF-8) is refused with `e`. -/
def RegisterErr (D : Data) (U : Uni) (t : List Nat) (e : Rc) : Prop :=
  ((∀ c ∈ t, c < 0x80) ∧ 63 < t.length ∧ e = .tooBigLabel) ∨
  (¬ WellFormed t ∧ e = .encodingError) ∨
  ∃ q, (∀ c ∈ q, isScalar c) ∧ (∃ c ∈ q, 0x80 ≤ c) ∧ t = utf8s q ∧
    ((NormFails D U q ∧ e = .nfc) ∨
     ∃ u, Norm D U q u ∧
      (FirstFault D U regTests u e ∨
        ((∀ e', ¬ Fault D U regTests u e') ∧ TooLong u e)))

/-- `v` is `l`, or what NFC_INPUT makes of it. -/
def NormIf (D : Data) (U : Uni) (flags : Nat) (l v : List Nat) : Prop :=
  if flags.testBit 0 then Norm D U l v else v = l

/-- Registration of the U-label `t`, without an A-label, ends with this result or error. -/
inductive RegisterU (D : Data) (U : Uni) (flags : Nat) (t : List Nat) :
    Except Rc (List Nat) → Prop
  | ascii : (∀ c ∈ t, c < 0x80) → t.length ≤ 63 → RegisterU D U flags t (.ok t)
  | long : (∀ c ∈ t, c < 0x80) → 63 < t.length → RegisterU D U flags t (.error .tooBigLabel)
  | malformed : ¬ WellFormed t → RegisterU D U flags t (.error .encodingError)
  | nfc (q : List Nat) : flags.testBit 0 = true → (∀ c ∈ q, isScalar c) → (∃ c ∈ q, 0x80 ≤ c) →
      t = utf8s q → NormFails D U q → RegisterU D U flags t (.error .nfc)
  | fault (q u : List Nat) (e : Rc) : (∀ c ∈ q, isScalar c) → (∃ c ∈ q, 0x80 ≤ c) → t = utf8s q →
      NormIf D U flags q u → FirstFault D U regTests u e → RegisterU D U flags t (.error e)
  | tooLong (q u : List Nat) (e : Rc) : (∀ c ∈ q, isScalar c) → (∃ c ∈ q, 0x80 ≤ c) →
      t = utf8s q → NormIf D U flags q u → (∀ e, ¬ Fault D U regTests u e) → TooLong u e →
      RegisterU D U flags t (.error e)
  | ulabel (q u : List Nat) : (∀ c ∈ q, isScalar c) → (∃ c ∈ q, 0x80 ≤ c) → t = utf8s q →
      NormIf D U flags q u → (∀ e, ¬ Fault D U regTests u e) →
      (Punycode.encode u).length ≤ 59 → RegisterU D U flags t (.ok (xn ++ Punycode.encode u))

/-- Registration of the A-label `a`, with or without the U-label `ul` beside it, ends with this
result or error.  The flags do not matter. -/
inductive RegisterA (D : Data) (U : Uni) (ul : Option (List Nat)) (a : List Nat) :
    Except Rc (List Nat) → Prop
  | long : 63 < a.length → RegisterA D U ul a (.error .tooBigLabel)
  | shape : a.length ≤ 63 → ¬ (∃ p, p ≠ [] ∧ a = xn ++ p ∧ ∀ c ∈ p, c < 0x80) →
      RegisterA D U ul a (.error .invalidAlabel)
  | undecodable (p : List Nat) (e : Rc) : a.length ≤ 63 → a = xn ++ p → p ≠ [] →
      (∀ c ∈ p, c < 0x80) → Punycode.Decoding 252 p (.error e) → RegisterA D U ul a (.error e)
  | surrogate (p u : List Nat) : a.length ≤ 63 → a = xn ++ p → Decodes p u →
      ¬ (∀ c ∈ u, isScalar c) → RegisterA D U ul a (.error .encodingError)
  | other (p u t : List Nat) : a.length ≤ 63 → a = xn ++ p → Decodes p u →
      (∀ c ∈ u, isScalar c) → ul = some t → t ≠ utf8s u → RegisterA D U ul a (.error .ualabelMismatch)
  | fault (p u : List Nat) (e : Rc) : a.length ≤ 63 → a = xn ++ p → Decodes p u →
      (∀ c ∈ u, isScalar c) → (ul = none ∨ ul = some (utf8s u)) → FirstFault D U regTests u e →
      RegisterA D U ul a (.error e)
  /-- The A-label must be the encoding of the U-label character by character; the case of letters
  matters. -/
  | differs (p u : List Nat) : a.length ≤ 63 → a = xn ++ p → Decodes p u →
      (∀ c ∈ u, isScalar c) → (ul = none ∨ ul = some (utf8s u)) →
      (∀ e, ¬ Fault D U regTests u e) → p ≠ Punycode.encode u →
      RegisterA D U ul a (.error .ualabelMismatch)
  | alabel (p u : List Nat) : a.length ≤ 63 → a = xn ++ p → Decodes p u →
      (∀ c ∈ u, isScalar c) → (ul = none ∨ ul = some (utf8s u)) →
      (∀ e, ¬ Fault D U regTests u e) → p = Punycode.encode u → RegisterA D U ul a (.ok a)

end Idn2.Spec
