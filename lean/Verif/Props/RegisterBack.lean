import Verif.Props.Collision
import Verif.Props.RegisterExact
import Verif.Props.RegisterIff
import Verif.Props.ToUnicode

/-
Property C82: names registered for different labels are different, and each tells its label.
-/

namespace Idn2
open Spec

variable {D : Data}

/-- What the registered name of a U-label that is not ASCII is the name of. -/
theorem registered_label {E : Env} (W : World E D) {flags : Nat}
    (hk : flags.testBit 0 = true →
      ∀ a b, E.U.nfc a = some b → (∀ c ∈ b, isLowerLDH c) → a = b)
    {t n : List Nat} (hna : ¬ ∀ c ∈ t, c < 0x80) (h : RegOk E flags (some t) none n) :
    ∃ q u, (∀ c ∈ q, isScalar c) ∧ t = utf8s q ∧ NormIf D E.U flags q u ∧ GoodLabel D E.U u ∧
      n = xn ++ Punycode.encode u ∧ Decodes (Punycode.encode u) u ∧ n.length ≤ 63 := by
  have h' := (C65_register_ulabel W flags t (.ok n)).mp h
  generalize hr : (Except.ok n : Except Rc (List Nat)) = r at h'
  cases h' with
  | ascii h1 h2 => exact absurd h1 hna
  | long h1 h2 => cases hr
  | malformed h1 => cases hr
  | nfc => cases hr
  | fault => cases hr
  | tooLong => cases hr
  | ulabel q u h1 h2 h3 h4 h5 h6 =>
    cases hr
    have hlow := good_ascii W.data h5
    have hboth : (∀ c ∈ u, isScalar c) ∧ ∃ c ∈ u, 0x80 ≤ c := by
      unfold NormIf at h4
      by_cases hf : flags.testBit 0 = true
      · rw [if_pos hf] at h4
        refine ⟨norm_scalar W.uni h1 h4, ?_⟩
        rcases h4 with ⟨_, rfl⟩ | ⟨_, h4⟩
        · exact h2
        · apply Classical.byContradiction
          intro hno
          have hall : ∀ c ∈ u, c < 0x80 := fun c hc => by
            apply Classical.byContradiction
            intro hge
            exact hno ⟨c, hc, by omega⟩
          have := hk hf q u h4 fun c hc => hlow c hc (hall c hc)
          subst this
          exact hno h2
      · rw [if_neg hf] at h4
        subst h4
        exact ⟨h1, h2⟩
    refine ⟨q, u, h1, h3, h4, ⟨hboth.1, hboth.2, h5⟩, rfl,
      Decodes.of hboth.1 (fun c hc hlt => isLowerLDH_LDHU (hlow c hc hlt)) hboth.2 h6, ?_⟩
    rw [List.length_append]
    have : xn.length = 4 := rfl
    omega

/-- C82.  The name registered for a U-label that is not ASCII can be registered as an A-label, by
itself or with its U-label beside it; and the to-unicode functions show it as that U-label: the one
that has been handed in, normalised with NFC_INPUT. -/
theorem C82_back {E : Env} (W : World E D) {flags : Nat}
    (hk : flags.testBit 0 = true →
      ∀ a b, E.U.nfc a = some b → (∀ c ∈ b, isLowerLDH c) → a = b)
    {t n : List Nat} (hna : ¬ ∀ c ∈ t, c < 0x80) (h : RegOk E flags (some t) none n) :
    ∃ q u, (∀ c ∈ q, isScalar c) ∧ t = utf8s q ∧ NormIf D E.U flags q u ∧ ToUniOk n u ∧
      ∀ g, RegOk E g none (some n) n ∧ RegOk E g (some (utf8s u)) (some n) n ∧
        RegOk E g (some (utf8s u)) none n := by
  obtain ⟨q, u, h1, h2, h3, hg, rfl, hd, hl⟩ := registered_label W hk hna h
  refine ⟨q, u, h1, h2, h3, ?_, fun g => ⟨?_, ?_, ?_⟩⟩
  · refine (C49_to_unicode_spec _ _).mpr ⟨[u], ?_, rfl, ?_⟩
    · rw [splitDot_nodot (ace_nodot hd)]
      refine .cons (.alabel u ?_ ?_) .nil
      · rfl
      · exact hd
    · have := length_le_encode (scalar_lt hg.scalar)
      rw [List.length_append] at hl
      show ([u] : List (List Nat)) |> joinDot |>.length |> (· ≤ 255)
      simp only [joinDot]
      omega
  · exact (C22_register_alabel W g _ _ _).mpr ⟨rfl, u, hg, rfl, hl, .inl rfl⟩
  · exact (C22_register_alabel W g _ _ _).mpr ⟨rfl, u, hg, rfl, hl, .inr rfl⟩
  · exact (C51_register_good W hg g).mpr ⟨rfl, hl⟩

/-- C82, without ASCII U-labels.  Two U-labels with the same registered name are the same, up to
normalisation with NFC_INPUT. -/
theorem C82_no_collision_partial {E : Env} (W : World E D) {flags : Nat}
    (hk : flags.testBit 0 = true →
      ∀ a b, E.U.nfc a = some b → (∀ c ∈ b, isLowerLDH c) → a = b)
    {t t' n : List Nat} (hna : ¬ ∀ c ∈ t, c < 0x80) (hna' : ¬ ∀ c ∈ t', c < 0x80)
    (h : RegOk E flags (some t) none n) (h' : RegOk E flags (some t') none n) :
    (flags.testBit 0 = false → t = t') ∧
    ∃ q q' u, t = utf8s q ∧ t' = utf8s q' ∧ NormIf D E.U flags q u ∧ NormIf D E.U flags q' u := by
  obtain ⟨q, u, h1, h2, h3, hg, rfl, hd, hl⟩ := registered_label W hk hna h
  obtain ⟨q', u', h1', h2', h3', hg', he, hd', hl'⟩ := registered_label W hk hna' h'
  have := List.append_cancel_left he
  rw [this] at hd
  have hu := hd.unique hd'
  subst hu
  refine ⟨fun hf => ?_, q, q', u, h2, h2', h3, h3'⟩
  unfold NormIf at h3 h3'
  rw [hf] at h3 h3'
  simp only [Bool.false_eq_true, ↓reduceIte] at h3 h3'
  rw [h2, h2', ← h3, ← h3']

/-- C82 fails for ASCII U-labels, which are not tested: "xn--zca" given as U-label is registered
under the same name as "ß". -/
theorem C82_violated : ∃ t t' n, t ≠ t' ∧ RegOk Sample.E 0 (some t) none n ∧
    RegOk Sample.E 0 (some t') none n :=
  ⟨utf8s [0xDF], [0x78, 0x6E, 0x2D, 0x2D, 0x7A, 0x63, 0x61], [0x78, 0x6E, 0x2D, 0x2D, 0x7A, 0x63, 0x61],
    by decide +kernel, by decide +kernel, by decide +kernel⟩

/-- C82, beside it: "fä" is registered as "xn--f-0fa", and that is shown as "fä".  With NFC_INPUT "a"
with U+0340 has the registered name of "a" with U+0300. -/
example : RegOk Sample.E 0 (some (utf8s [0x66, 0xE4])) none
      [0x78, 0x6E, 0x2D, 0x2D, 0x66, 0x2D, 0x30, 0x66, 0x61] ∧
    ToUniOk [0x78, 0x6E, 0x2D, 0x2D, 0x66, 0x2D, 0x30, 0x66, 0x61] [0x66, 0xE4] ∧
    RegOk Sample.E 0 none (some [0x78, 0x6E, 0x2D, 0x2D, 0x66, 0x2D, 0x30, 0x66, 0x61])
      [0x78, 0x6E, 0x2D, 0x2D, 0x66, 0x2D, 0x30, 0x66, 0x61] ∧
    RegOk Sample.E 1 (some (utf8s [0x61, 0x340])) none
      [0x78, 0x6E, 0x2D, 0x2D, 0x30, 0x63, 0x61] ∧
    RegOk Sample.E 1 (some (utf8s [0x61, 0x300])) none
      [0x78, 0x6E, 0x2D, 0x2D, 0x30, 0x63, 0x61] := by
  refine ⟨by decide +kernel, by decide +kernel, by decide +kernel, by decide +kernel,
    by decide +kernel⟩

end Idn2
