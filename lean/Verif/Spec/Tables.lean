import Verif.Model.Tables

/-
What the tables mean: for every code point its IDNA2008 derived property, its UTS #46
status and its UTS #46 mapping.  `Implements` says that compiled tables answer queries
according to such data.
-/

namespace Idn2

/-- UTS #46 status values; the second column of IdnaMappingTable.txt. -/
inductive Status where
  | valid | mapped | ignored | deviation | disallowed | std3Mapped | std3Valid
  deriving DecidableEq, Repr

/-- The Unicode data the tables are made from. -/
structure Data where
  prop : Nat → IdnaProp
  status : Nat → Status
  mapping : Nat → List Nat
  /-- NFC_Quick_Check: `none` is Yes, 1 is No, 2 is Maybe -/
  qc : Nat → Option Nat

/-- The `TR46_FLG_*` bit of a status; tr46map.h:35-41, gentr46map.c:294-307. -/
def Status.bit : Status → Nat
  | .valid => 1
  | .mapped => 2
  | .ignored => 4
  | .deviation => 8
  | .disallowed => 16
  | .std3Mapped => 32
  | .std3Valid => 64

/-- The compiled tables answer every query about a code point as the data say, without
reading outside of any array. -/
structure Implements (T : Tables) (D : Data) : Prop where
  property : ∀ c, c ≤ 0x10FFFF → property T c = .ok (D.prop c)
  map : ∀ c, c ≤ 0x10FFFF → ∃ m, get_idna_map T c = .ok m ∧
    (∀ s : Status, map_is T m s.bit = .ok (D.status c == s)) ∧
    m.nmappings = (D.mapping c).length ∧ get_map_data T m = .ok (D.mapping c)
  nfcqc : ∀ c, c ≤ 0x10FFFF → get_nfcqc_map T c = .ok (D.qc c)

end Idn2
