import Verif.Basic

/-
The code points that were added in Unicode 12.0, 12.1 and 13.0 and are not disallowed by UTS #46.
The versions are those in the comments of lib/IdnaMappingTable.txt.
-/

namespace Idn2.Spec

/-- The code points, as ranges in order. -/
def newerRanges : List (Nat × Nat) :=
  [(0x8BE, 0x8C7), (0xB55, 0xB55), (0xC77, 0xC77), (0xD04, 0xD04), (0xD81, 0xD81), (0xE86, 0xE86),
   (0xE89, 0xE89), (0xE8C, 0xE8C), (0xE8E, 0xE93), (0xE98, 0xE98), (0xEA0, 0xEA0), (0xEA8, 0xEA9),
   (0xEAC, 0xEAC), (0xEBA, 0xEBA), (0x1ABF, 0x1AC0), (0x1CFA, 0x1CFA), (0x2B97, 0x2B97),
   (0x2BC9, 0x2BC9), (0x2BFF, 0x2BFF), (0x2E4F, 0x2E52), (0x31BB, 0x31BF), (0x32FF, 0x32FF),
   (0x4DB6, 0x4DBF), (0x9FF0, 0x9FFC), (0xA7BA, 0xA7BF), (0xA7C2, 0xA7CA), (0xA7F5, 0xA7F6),
   (0xA82C, 0xA82C), (0xAB66, 0xAB6B), (0x1019C, 0x1019C), (0x10E80, 0x10EA9), (0x10EAB, 0x10EAD),
   (0x10EB0, 0x10EB1), (0x10FB0, 0x10FCB), (0x10FE0, 0x10FF6), (0x11147, 0x11147),
   (0x111CE, 0x111CF), (0x1145A, 0x1145A), (0x1145F, 0x11461), (0x116B8, 0x116B8),
   (0x11900, 0x11906), (0x11909, 0x11909), (0x1190C, 0x11913), (0x11915, 0x11916),
   (0x11918, 0x11935), (0x11937, 0x11938), (0x1193B, 0x11946), (0x11950, 0x11959),
   (0x119A0, 0x119A7), (0x119AA, 0x119D7), (0x119DA, 0x119E4), (0x11A84, 0x11A85),
   (0x11FB0, 0x11FB0), (0x11FC0, 0x11FF1), (0x11FFF, 0x11FFF), (0x16F45, 0x16F4A),
   (0x16F4F, 0x16F4F), (0x16F7F, 0x16F87), (0x16FE2, 0x16FE4), (0x16FF0, 0x16FF1),
   (0x187F2, 0x187F7), (0x18AF3, 0x18CD5), (0x18D00, 0x18D08), (0x1B150, 0x1B152),
   (0x1B164, 0x1B167), (0x1E100, 0x1E12C), (0x1E130, 0x1E13D), (0x1E140, 0x1E149),
   (0x1E14E, 0x1E14F), (0x1E2C0, 0x1E2F9), (0x1E2FF, 0x1E2FF), (0x1E94B, 0x1E94B),
   (0x1ED01, 0x1ED3D), (0x1F10D, 0x1F10F), (0x1F16C, 0x1F16F), (0x1F1AD, 0x1F1AD),
   (0x1F6D5, 0x1F6D7), (0x1F6FA, 0x1F6FC), (0x1F7E0, 0x1F7EB), (0x1F8B0, 0x1F8B1),
   (0x1F90C, 0x1F90F), (0x1F93F, 0x1F93F), (0x1F971, 0x1F972), (0x1F977, 0x1F978),
   (0x1F97B, 0x1F97B), (0x1F9A3, 0x1F9AF), (0x1F9BA, 0x1F9BF), (0x1F9C3, 0x1F9CB),
   (0x1F9CD, 0x1F9CF), (0x1FA00, 0x1FA53), (0x1FA70, 0x1FA74), (0x1FA78, 0x1FA7A),
   (0x1FA80, 0x1FA86), (0x1FA90, 0x1FAA8), (0x1FAB0, 0x1FAB6), (0x1FAC0, 0x1FAC2),
   (0x1FAD0, 0x1FAD6), (0x1FB00, 0x1FB92), (0x1FB94, 0x1FBCA), (0x1FBF0, 0x1FBF9),
   (0x2A6D7, 0x2A6DD), (0x30000, 0x3134A)]

/-- A code point newer than Unicode 11. -/
def Newer (c : Nat) : Prop := ∃ r ∈ newerRanges, r.1 ≤ c ∧ c ≤ r.2

instance (c : Nat) : Decidable (Newer c) := by unfold Newer; infer_instance

end Idn2.Spec
