import Verif.Proof.Uax15
import Verif.Props.NfcInput
import Verif.Props.Tables

/-
Property C77: what is assumed of the normaliser holds for the algorithm of UAX #15, given facts
about single code points and pairs of code points in its data.
-/

namespace Idn2
open Spec

/-- `U` normalises as UAX #15 says, with the data `X`. -/
structure Spec.Uax15.Normalises (X : Uax15) (U : Uni) : Prop where
  nfc : ∀ s, U.nfc s = some (X.nfc s)
  ccc : ∀ c, U.ccc c = X.ccc c

/-- C77.  The laws of NFC hold for the algorithm of UAX #15. -/
theorem C77_laws {X : Uax15} (hX : X.Laws) {U : Uni} (h : X.Normalises U) : U.Laws :=
  Spec.Uax15.uni_laws hX h.nfc

/-- C77.  The quick check is sound: text for which it answers "yes" is in form C.  The property
NFC_Quick_Check is that of the data `D`. -/
theorem C77_quick {X : Uax15} {D : Data}
    (hD : ∀ c, isScalar c → (D.qc c = none ∨ D.qc c = some 0) → X.Quick c)
    {U : Uni} (h : X.Normalises U) : QuickSound U D := by
  intro l hl hq
  rw [h.nfc, Spec.Uax15.nfc_quick fun c hc => hD c (hl c hc) (hq.yes c hc)]
  intro a c d b e
  rw [← h.ccc, ← h.ccc]
  exact hq.ordered a c d b e

/-- C77.  Two texts have the same normal form iff they are canonically equivalent. -/
theorem C77_equivalent {X : Uax15} (hX : X.Laws) {U : Uni} (h : X.Normalises U) (s t : List Nat) :
    U.nfc s = U.nfc t ↔ X.Equivalent s t := by
  rw [h.nfc, h.nfc, Option.some.injEq]
  exact Spec.Uax15.nfc_eq_iff hX

/-- C77.  Lookup without TR46 processing (bit 6) and with IDN2_NFC_INPUT (bit 0) does not tell
apart canonically equivalent names, if they have no supplementary characters and none of their
labels becomes ASCII (see C36). -/
theorem C77_lookup {E : Env} {D : Data} (W : World E D) {X : Uax15} (hX : X.Laws)
    (h : X.Normalises E.U)
    (hD : ∀ c, isScalar c → (D.qc c = none ∨ D.qc c = some 0) → X.Quick c)
    {flags : Nat} (h0 : flags.testBit 0 = true) (h6 : flags.testBit 6 = true) {u v : List Nat}
    (hu : ∀ c ∈ u, isScalar c) (hu0 : 0 ∉ u) (hub : ∀ c ∈ u, c < 0x10000)
    (huk : KeepsNonAscii E.U u)
    (hv : ∀ c ∈ v, isScalar c) (hv0 : 0 ∉ v) (hvb : ∀ c ∈ v, c < 0x10000)
    (hvk : KeepsNonAscii E.U v) (he : X.Equivalent u v) :
    (∀ n, LookupOk E flags (utf8s u) n ↔ LookupOk E flags (utf8s v) n) ∧
    ∀ e, LookupErr E flags (utf8s u) e ↔ LookupErr E flags (utf8s v) e := by
  have hq := C77_quick hD h
  have e1 := h.nfc u
  have e2 := h.nfc v
  rw [← Spec.Uax15.nfc_eq_iff hX |>.mpr he] at e2
  obtain ⟨a1, a2⟩ := C36_nfc_input_partial W hq hu hu0 hub huk h0 h6 e1
  obtain ⟨b1, b2⟩ := C36_nfc_input_partial W hq hv hv0 hvb hvk h0 h6 e2
  exact ⟨fun n => (a1 n).trans (b1 n).symm, fun e => (a2 e).trans (b2 e).symm⟩

/-! ### A part of the real data: Hangul, and three letters -/

namespace Mini

/-- Hangul syllables of the forms LV and LVT. -/
def isSyllable (c : Nat) : Prop := 0xAC00 ≤ c ∧ c < 0xAC00 + 11172

instance (c : Nat) : Decidable (isSyllable c) := by unfold isSyllable; infer_instance

/-- U+0323 (dot below), U+0300 and U+0340 (grave accent), "à", "ạ", and Hangul. -/
def X : Uax15 where
  ccc c := if c = 0x300 ∨ c = 0x340 then 230 else if c = 0x323 then 220 else 0
  decomp c :=
    if c = 0xE0 then [0x61, 0x300] else if c = 0x1EA1 then [0x61, 0x323]
    else if c = 0x340 then [0x300]
    else if isSyllable c then
      let s := c - 0xAC00
      let l := 0x1100 + s / 588
      let v := 0x1161 + s % 588 / 28
      if s % 28 = 0 then [l, v] else [l, v, 0x11A7 + s % 28]
    else [c]
  comp a b :=
    if a = 0x61 ∧ b = 0x300 then some 0xE0 else if a = 0x61 ∧ b = 0x323 then some 0x1EA1
    else if 0x1100 ≤ a ∧ a < 0x1100 + 19 ∧ 0x1161 ≤ b ∧ b < 0x1161 + 21 then
      some (0xAC00 + ((a - 0x1100) * 21 + (b - 0x1161)) * 28)
    else if isSyllable a ∧ (a - 0xAC00) % 28 = 0 ∧ 0x11A7 < b ∧ b < 0x11A7 + 28 then
      some (a + (b - 0x11A7))
    else none

theorem decomp_self {c : Nat} (h1 : c ≠ 0xE0) (h2 : c ≠ 0x1EA1) (h3 : c ≠ 0x340)
    (h4 : ¬ isSyllable c) : X.decomp c = [c] := by
  simp only [X, if_neg h1, if_neg h2, if_neg h3, if_neg h4]

theorem decomp_syllable {c : Nat} (h : isSyllable c) : X.decomp c =
    if (c - 0xAC00) % 28 = 0 then
      [0x1100 + (c - 0xAC00) / 588, 0x1161 + (c - 0xAC00) % 588 / 28]
    else [0x1100 + (c - 0xAC00) / 588, 0x1161 + (c - 0xAC00) % 588 / 28,
      0x11A7 + (c - 0xAC00) % 28] := by
  have := h.1
  simp only [X, if_neg (show c ≠ 0xE0 by omega), if_neg (show c ≠ 0x1EA1 by omega),
    if_neg (show c ≠ 0x340 by omega), if_pos h]

theorem mem_decomp {c x : Nat} (h : x ∈ X.decomp c) :
    (x = c ∧ c ≠ 0xE0 ∧ c ≠ 0x1EA1 ∧ c ≠ 0x340 ∧ ¬ isSyllable c) ∨
    x = 0x61 ∨ x = 0x300 ∨ x = 0x323 ∨ (0x1100 ≤ x ∧ x < 0x1100 + 19) ∨
    (0x1161 ≤ x ∧ x < 0x1161 + 21) ∨ (0x11A7 < x ∧ x < 0x11A7 + 28) := by
  by_cases h1 : c = 0xE0
  · subst h1
    have : X.decomp 0xE0 = [0x61, 0x300] := by decide
    rw [this] at h
    simp at h
    omega
  by_cases h2 : c = 0x1EA1
  · subst h2
    have : X.decomp 0x1EA1 = [0x61, 0x323] := by decide
    rw [this] at h
    simp at h
    omega
  by_cases h3 : c = 0x340
  · subst h3
    have : X.decomp 0x340 = [0x300] := by decide
    rw [this] at h
    simp at h
    omega
  by_cases h4 : isSyllable c
  · rw [decomp_syllable h4] at h
    unfold isSyllable at h4
    have b1 : (c - 0xAC00) / 588 < 19 := by omega
    have b2 : (c - 0xAC00) % 588 / 28 < 21 := by omega
    split at h
    · simp at h
      omega
    · simp at h
      omega
  · rw [decomp_self h1 h2 h3 h4] at h
    simp at h
    exact Or.inl ⟨h, h1, h2, h3, h4⟩

/-- What is composed. -/
theorem comp_some {a b c : Nat} (h : X.comp a b = some c) :
    (a = 0x61 ∧ b = 0x300 ∧ c = 0xE0) ∨ (a = 0x61 ∧ b = 0x323 ∧ c = 0x1EA1) ∨
    (0x1100 ≤ a ∧ a < 0x1100 + 19 ∧ 0x1161 ≤ b ∧ b < 0x1161 + 21 ∧
      c = 0xAC00 + ((a - 0x1100) * 21 + (b - 0x1161)) * 28) ∨
    (isSyllable a ∧ (a - 0xAC00) % 28 = 0 ∧ 0x11A7 < b ∧ b < 0x11A7 + 28 ∧
      c = a + (b - 0x11A7)) := by
  simp only [X] at h
  split at h
  · rename_i g; injection h with h; exact Or.inl ⟨g.1, g.2, h.symm⟩
  split at h
  · rename_i g; injection h with h; exact Or.inr (Or.inl ⟨g.1, g.2, h.symm⟩)
  split at h
  · rename_i g
    injection h with h
    exact Or.inr (Or.inr (Or.inl ⟨g.1, g.2.1, g.2.2.1, g.2.2.2, h.symm⟩))
  split at h
  · rename_i g
    injection h with h
    exact Or.inr (Or.inr (Or.inr ⟨g.1, g.2.1, g.2.2.1, g.2.2.2, h.symm⟩))
  · cases h

theorem comp_none {b : Nat} (h1 : b ≠ 0x300) (h2 : b ≠ 0x323)
    (h3 : ¬ (0x1161 ≤ b ∧ b < 0x1161 + 21)) (h4 : ¬ (0x11A7 < b ∧ b < 0x11A7 + 28)) (a : Nat) :
    X.comp a b = none := by
  cases h : X.comp a b with
  | none => rfl
  | some c =>
    rcases comp_some h with g | g | g | g
    · omega
    · omega
    · omega
    · exact absurd ⟨g.2.2.1, g.2.2.2.1⟩ h4

theorem laws : X.Laws where
  full c x hx := by
    rcases mem_decomp hx with ⟨rfl, h1, h2, h3, h4⟩ | h
    · exact decomp_self h1 h2 h3 h4
    · exact decomp_self (by omega) (by omega) (by omega) (by unfold isSyllable; omega)
  parts a b c h := by
    rcases comp_some h with ⟨rfl, rfl, rfl⟩ | ⟨rfl, rfl, rfl⟩ | ⟨a1, a2, b1, b2, hc⟩ |
      ⟨ha, hm, b1, b2, hc⟩
    · decide
    · decide
    · have hs : isSyllable c := by unfold isSyllable; omega
      rw [decomp_syllable hs,
        decomp_self (c := a) (by omega) (by omega) (by omega) (by unfold isSyllable; omega),
        decomp_self (c := b) (by omega) (by omega) (by omega) (by unfold isSyllable; omega),
        if_pos (by omega)]
      show [_, _] = [a, b]
      rw [List.cons.injEq, List.cons.injEq]
      exact ⟨by omega, by omega, rfl⟩
    · have ha' := ha
      unfold isSyllable at ha
      have hs : isSyllable c := by unfold isSyllable; omega
      rw [decomp_syllable hs, decomp_syllable ha', if_pos hm,
        decomp_self (c := b) (by omega) (by omega) (by omega) (by unfold isSyllable; omega),
        if_neg (by omega)]
      show [_, _, _] = [_, _, b]
      rw [List.cons.injEq, List.cons.injEq, List.cons.injEq]
      exact ⟨by omega, by omega, by omega, rfl⟩
  ascii c hc := by
    refine ⟨?_, decomp_self (by omega) (by omega) (by omega) (by unfold isSyllable; omega),
      comp_none (by omega) (by omega) (by omega) (by omega)⟩
    simp only [X]
    rw [if_neg (by omega), if_neg (by omega)]
  sep c hc b := by
    cases h : X.comp c b with
    | none => rfl
    | some d =>
      rcases comp_some h with g | g | g | g
      · omega
      · omega
      · omega
      · have := g.1.1
        omega
  nosep c hc := by
    refine ⟨fun a b h => ?_, fun x hx => ?_⟩
    · rcases comp_some h with g | g | g | g
      · omega
      · omega
      · omega
      · have := g.1.1
        omega
    · rcases mem_decomp hx with g | g
      · exact g.1.symm
      · omega
  scalar := by
    refine ⟨fun c hc x hx => ?_, fun a b c _ _ h => ?_⟩
    · rcases mem_decomp hx with ⟨rfl, _⟩ | g
      · exact hc
      · unfold isScalar; omega
    · unfold isScalar
      rcases comp_some h with g | g | g | g
      · omega
      · omega
      · omega
      · have := g.1.1
        have := g.1.2
        omega

/-- The quick-check property, as far as it concerns these characters. -/
theorem quick {c : Nat} (h1 : c ≠ 0x300) (h2 : c ≠ 0x323) (h3 : c ≠ 0x340)
    (h4 : ¬ (0x1161 ≤ c ∧ c < 0x1161 + 21)) (h5 : ¬ (0x11A7 < c ∧ c < 0x11A7 + 28)) :
    X.Quick c where
  mark h := by
    simp only [X] at h
    rw [if_neg (by omega), if_neg (by omega)] at h
    exact absurd rfl h
  starter _ := by
    by_cases e1 : c = 0xE0
    · subst e1
      exact ⟨0x61, [0x300], by decide, by decide,
        comp_none (by decide) (by decide) (by decide) (by decide), by decide, by decide⟩
    by_cases e2 : c = 0x1EA1
    · subst e2
      exact ⟨0x61, [0x323], by decide, by decide,
        comp_none (by decide) (by decide) (by decide) (by decide), by decide, by decide⟩
    by_cases e3 : isSyllable c
    · have e3' := e3
      unfold isSyllable at e3
      have b1 : (c - 0xAC00) / 588 < 19 := by omega
      have b2 : (c - 0xAC00) % 588 / 28 < 21 := by omega
      have hL : ∀ a, X.comp a (0x1100 + (c - 0xAC00) / 588) = none :=
        comp_none (by omega) (by omega) (by omega) (by omega)
      have hL0 : X.ccc (0x1100 + (c - 0xAC00) / 588) = 0 := by
        simp only [X]
        rw [if_neg (by omega), if_neg (by omega)]
      have hV : X.ccc (0x1161 + (c - 0xAC00) % 588 / 28) = 0 := by
        simp only [X]
        rw [if_neg (by omega), if_neg (by omega)]
      have hLV : X.comp (0x1100 + (c - 0xAC00) / 588) (0x1161 + (c - 0xAC00) % 588 / 28) =
          some (c - (c - 0xAC00) % 28) := by
        simp only [X]
        rw [if_neg (by omega), if_neg (by omega), if_pos (by omega), Option.some.injEq]
        omega
      rw [decomp_syllable e3']
      split
      · rename_i h0
        refine ⟨_, _, rfl, hL0, hL, ?_, by simp⟩
        rw [List.foldlM_cons, hLV, h0]
        rfl
      · rename_i h0
        refine ⟨_, _, rfl, hL0, hL, ?_, ?_⟩
        · rw [List.foldlM_cons, hLV]
          rw [Option.bind_eq_bind, Option.bind_some, List.foldlM_cons]
          have : X.comp (c - (c - 0xAC00) % 28) (0x11A7 + (c - 0xAC00) % 28) = some c := by
            simp only [X]
            rw [if_neg (by omega), if_neg (by omega), if_neg (by omega),
              if_pos ⟨by unfold isSyllable; omega, by omega, by omega, by omega⟩, Option.some.injEq]
            omega
          rw [this]
          rfl
        · simp only [List.pairwise_cons, List.mem_singleton, forall_eq, List.not_mem_nil,
            false_implies, implies_true, List.Pairwise.nil, and_true, hV]
          exact Nat.zero_le _
    · exact ⟨c, [], decomp_self e1 e2 h3 e3, by
        simp only [X]
        rw [if_neg (by omega), if_neg (by omega)],
        comp_none h1 h2 h4 h5, rfl, .nil⟩

/-- Sample functions with this normaliser. -/
def U : Uni := { Sample.U with nfc := fun s => some (X.nfc s), ccc := X.ccc }

theorem normalises : X.Normalises U := ⟨fun _ => rfl, fun _ => rfl⟩

/-- The shipped data says "maybe" or "no" of all the characters that may change. -/
theorem shipped_quick (c : Nat) (_ : isScalar c)
    (h : Shipped.D.qc c = none ∨ Shipped.D.qc c = some 0) : X.Quick c := by
  have key : ∀ x ∈ [0x300, 0x323, 0x340] ++ List.range' 0x1161 21 ++ List.range' 0x11A8 27,
      ¬ (Shipped.D.qc x = none ∨ Shipped.D.qc x = some 0) := by decide +kernel
  refine quick ?_ ?_ ?_ ?_ ?_
  · rintro rfl; exact key _ (by decide) h
  · rintro rfl; exact key _ (by decide) h
  · rintro rfl; exact key _ (by decide) h
  · intro g
    exact key c (by simp only [List.mem_append, List.mem_range'_1]; omega) h
  · intro g
    exact key c (by simp only [List.mem_append, List.mem_range'_1]; omega) h

end Mini

/-- The shipped tables with a normaliser for Hangul and some Latin. -/
example : World (Env.mk Shipped.T Mini.U) Shipped.D ∧ QuickSound Mini.U Shipped.D :=
  ⟨World.shipped (C77_laws Mini.laws Mini.normalises),
    C77_quick Mini.shipped_quick Mini.normalises⟩

-- "à" with a dot below, written in two orders; "각" from its three parts and from two
example : Mini.U.nfc [0x61, 0x300, 0x323] = some [0x1EA1, 0x300] ∧
    Mini.U.nfc [0xE0, 0x323] = some [0x1EA1, 0x300] ∧
    Mini.X.Equivalent [0xE0, 0x323] [0x1EA1, 0x340] ∧
    Mini.U.nfc [0x1100, 0x1161, 0x11A8] = some [0xAC01] ∧
    Mini.U.nfc [0xAC00, 0x11A8] = some [0xAC01] ∧
    ¬ Mini.X.Equivalent [0xAC00, 0x11A8] [0xAC00] := by
  unfold Uax15.Equivalent
  decide +kernel

-- "à" in parts, with IDN2_NO_TR46 and IDN2_NFC_INPUT
example : LookupOk ⟨Sample.T, Mini.U⟩ 65 (utf8s [0x61, 0x300]) [0x78, 0x6E, 0x2D, 0x2D, 0x30, 0x63, 0x61] ∧
    LookupOk ⟨Sample.T, Mini.U⟩ 65 (utf8s [0xE0]) [0x78, 0x6E, 0x2D, 0x2D, 0x30, 0x63, 0x61] := by
  decide +kernel

end Idn2
