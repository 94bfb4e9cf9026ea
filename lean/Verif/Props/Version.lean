import Verif.Proof.Version

/-
Property C68: `idn2_check_version`.
-/

namespace Idn2
open Spec

/-- For a required version and a version of the library that are version numbers, the function
returns the version of the library unless it comes before the required one, and a null pointer
then. -/
theorem C68_check_version {r v req version : List Nat} (hr : Dotted r req)
    (hv : Dotted v version) :
    (¬ Before v r → idn2_check_version version (some req) = some version) ∧
    (Before v r → idn2_check_version version (some req) = none) := by
  have h := strverscmp_dotted hr hv
  unfold idn2_check_version
  simp only
  constructor
  · intro hn
    rw [if_pos]
    rcases Classical.em (Before r v) with k | k
    · have := h.1.neg k; omega
    · have := h.1.eq k hn; omega
  · intro hb
    have := h.1.pos hb
    rw [if_neg (by omega)]

/-- Without a required version the function returns the version of the library. -/
theorem C68_null (version : List Nat) : idn2_check_version version none = some version := rfl

/-- The order is total: two version numbers of which neither comes before the other have the
same components, and never does each come before the other. -/
theorem C68_total {a b s t : List Nat} (hs : Dotted a s) (ht : Dotted b t) :
    (Before a b ∨ Before b a ∨ a = b) ∧ ¬ (Before a b ∧ Before b a) := by
  have h := strverscmp_dotted hs ht
  constructor
  · rcases Classical.em (Before a b) with k | k
    · exact Or.inl k
    · rcases Classical.em (Before b a) with k' | k'
      · exact Or.inr (Or.inl k')
      · exact Or.inr (Or.inr (h.2 k k'))
  · rintro ⟨h1, h2⟩
    have := h.1.neg h1
    have := h.1.pos h2
    omega

theorem verLoop_refl (s : List Nat) (st : VerState) : verLoop st s s = 0 := by
  induction s generalizing st with
  | nil => rw [verLoop.eq_def]; simp [verHead]
  | cons c s ih => rw [verLoop_step, ih]

/-- Whatever string the version of the library is, the check for this version succeeds. -/
theorem C68_self (version : List Nat) :
    idn2_check_version version (some version) = some version := by
  unfold idn2_check_version strverscmp
  simp only
  rw [verLoop_refl]
  rfl

/-- "2.10.1": the components are numbers, so this version is later than 2.9 and 2.10. -/
theorem dotted_2_10_1 : Dotted [2, 10, 1] [0x32, 0x2E, 0x31, 0x30, 0x2E, 0x31] :=
  .cons (t := [0x32]) (.digit (d := 2) (by decide))
    (.cons (t := [0x31, 0x30]) (.snoc (t := [0x31]) (.digit (d := 1) (by decide)) (by decide) (d := 0)
      (by decide)) (.one (.digit (d := 1) (by decide))))

theorem dotted_2_9 : Dotted [2, 9] [0x32, 0x2E, 0x39] :=
  .cons (t := [0x32]) (.digit (d := 2) (by decide)) (.one (.digit (d := 9) (by decide)))

example : idn2_check_version [0x32, 0x2E, 0x31, 0x30, 0x2E, 0x31] (some [0x32, 0x2E, 0x39]) =
    some [0x32, 0x2E, 0x31, 0x30, 0x2E, 0x31] :=
  (C68_check_version dotted_2_9 dotted_2_10_1).1 (by
    intro h; cases h with
    | smaller h => omega
    | same h => cases h with
      | smaller h => omega)

example : idn2_check_version [0x32, 0x2E, 0x39] (some [0x32, 0x2E, 0x31, 0x30, 0x2E, 0x31]) =
    none :=
  (C68_check_version dotted_2_10_1 dotted_2_9).2 (.same (.smaller (by decide)))

/-- Numerals with leading zeros are outside of the theorem: `strverscmp` takes them for fractional
parts, so that version "2.1" is good enough for a program that asks for "2.09". -/
example : idn2_check_version [0x32, 0x2E, 0x31] (some [0x32, 0x2E, 0x30, 0x39]) =
    some [0x32, 0x2E, 0x31] := by decide +kernel

end Idn2
