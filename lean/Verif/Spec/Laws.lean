import Verif.Model.Env
import Verif.Spec.Tables
import Verif.Spec.Ascii

/-
What is assumed of the world outside the library: laws of NFC normalisation (of
libunistring), and facts about the Unicode data.  The facts about the data are proved for
the files in the repository (Verif/Data/Laws.lean); the laws of NFC are hypotheses.
-/

namespace Idn2

/-- Unicode scalar values. -/
def Spec.isScalar (c : Nat) : Prop := c < 0xD800 ∨ (0xE000 ≤ c ∧ c ≤ 0x10FFFF)

instance (c : Nat) : Decidable (Spec.isScalar c) := by unfold Spec.isScalar; infer_instance

/-- Laws of NFC. -/
structure Uni.Laws (U : Uni) : Prop where
  /-- ASCII text is in NFC. -/
  nfc_ascii : ∀ a, (∀ c ∈ a, c < 0x80) → U.nfc a = some a
  /-- Normalising twice is normalising once. -/
  nfc_idem : ∀ a b, U.nfc a = some b → U.nfc b = some b
  /-- NUL and the full stop neither compose nor reorder: what is on either side of them is
  normalised independently. -/
  nfc_sep : ∀ a c b, c = 0 ∨ c = 0x2E →
    U.nfc (a ++ c :: b) = (U.nfc a).bind fun x => (U.nfc b).map fun y => x ++ c :: y
  /-- Normalisation produces no NUL and no full stop. -/
  nfc_nosep : ∀ a b c, c = 0 ∨ c = 0x2E → c ∉ a → U.nfc a = some b → c ∉ b
  /-- Scalar values are turned into scalar values. -/
  nfc_scalar : ∀ a b, (∀ c ∈ a, Spec.isScalar c) → U.nfc a = some b → ∀ c ∈ b, Spec.isScalar c

/-- Facts about the Unicode data. -/
structure Data.Laws (D : Data) : Prop where
  /-- Lower-case letters, digits and the hyphen are valid. -/
  ldh : ∀ c, Spec.isLowerLDH c → D.status c = .valid ∧ D.prop c = .pvalid
  /-- The full stop is valid for UTS #46 and DISALLOWED for IDNA2008. -/
  dot : D.status 0x2E = .valid ∧ D.prop 0x2E = .disallowed
  /-- Upper-case letters are mapped to lower-case letters and DISALLOWED. -/
  upper : ∀ c, 0x41 ≤ c → c ≤ 0x5A →
    D.status c = .mapped ∧ D.mapping c = [c + 32] ∧ D.prop c = .disallowed
  /-- All other ASCII characters are valid unless STD3 rules are in use; and DISALLOWED. -/
  other : ∀ c, c < 0x80 → ¬ Spec.isLowerLDH c → c ≠ 0x2E → ¬ (0x41 ≤ c ∧ c ≤ 0x5A) →
    D.status c = .std3Valid ∧ D.prop c = .disallowed
  /-- What IDNA2008 allows is valid or a deviation character for UTS #46. -/
  pvalid : ∀ c, D.prop c = .pvalid ∨ D.prop c = .contextj ∨ D.prop c = .contexto →
    D.status c = .valid ∨ D.status c = .deviation
  /-- Mappings consist of scalar values and contain no NUL. -/
  mapping : ∀ c x, x ∈ D.mapping c → x ≠ 0 ∧ Spec.isScalar x
  /-- The three dot variants are mapped to the full stop. -/
  dots : ∀ c, c = 0x3002 ∨ c = 0xFF0E ∨ c = 0xFF61 →
    D.status c = .mapped ∧ D.mapping c = [0x2E]

end Idn2
