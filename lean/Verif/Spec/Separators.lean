import Verif.Spec.Domain

/-
The label separators of a name, and the delimiters of a URL.
-/

namespace Idn2.Spec

/-- The characters that separate labels: the full stop, and with UTS #46 processing also the
ideographic, the fullwidth and the halfwidth full stop. -/
def Separator (tr46 : Bool) (c : Nat) : Prop :=
  c = 0x2E ∨ (tr46 = true ∧ (c = 0x3002 ∨ c = 0xFF0E ∨ c = 0xFF61))

instance (tr46 : Bool) (c : Nat) : Decidable (Separator tr46 c) := by
  unfold Separator; exact inferInstance

/-- The parts of a name between its separators. -/
def partsOf (tr46 : Bool) : List Nat → List (List Nat)
  | [] => [[]]
  | c :: r =>
    if Separator tr46 c then [] :: partsOf tr46 r
    else
      match partsOf tr46 r with
      | [] => [[c]]
      | l :: ls => (c :: l) :: ls

/-- The delimiters of the parts of a URL (RFC 3986, gen-delims): ":", "/", "?", "#", "[", "]"
and "@". -/
def genDelims : List Nat := [0x3A, 0x2F, 0x3F, 0x23, 0x5B, 0x5D, 0x40]

/-- The characters that look like a delimiter or contain one: after lib/IdnaMappingTable.txt. -/
def delimSources (d : Nat) : List Nat :=
  match d with
  | 0x3A => [0x2A74, 0xFE13, 0xFE55, 0xFF1A]
  | 0x2F => [0x2100, 0x2101, 0x2105, 0x2106, 0xFF0F]
  | 0x3F => [0x2047, 0x2048, 0x2049, 0xFE16, 0xFE56, 0xFF1F]
  | 0x23 => [0xFE5F, 0xFF03]
  | 0x5B => [0xFE47, 0xFF3B]
  | 0x5D => [0xFE48, 0xFF3D]
  | 0x40 => [0xFE6B, 0xFF20]
  | _ => []

end Idn2.Spec
