import Verif.Props.Conform
import Verif.Props.Codes

/-
Property C97: where lookup is not ToASCII of UTS #46, one name for each of the side conditions.
-/

namespace Idn2
open Spec

theorem punycodes_LDHU {t v : List Nat} (h : Uts46.Punycodes t v) (ht : ∀ c ∈ t, isLDHU c) :
    ∀ c ∈ v, c < 0x80 → isLDHU c := by
  intro c hc hlt
  obtain ⟨r, hr⟩ := h.head
  apply ht
  rw [← hr]
  have : c ∈ Punycode.basics v := by unfold Punycode.basics; simp [hc, hlt]
  have hh : Punycode.headPart v = headOf (Punycode.basics v) := rfl
  rw [hh]
  simp [headOf, this]

/-- A text has at most one meaning as Punycode. -/
theorem punycodes_unique {t v w : List Nat} (h : Uts46.Punycodes t v) (ht : ∀ c ∈ t, isLDHU c)
    (h59 : t.length ≤ 59) (hw : Decodes t w) : v = w :=
  (punycodes_decodes h (punycodes_LDHU h ht) h59).unique hw

/-- What ToASCII says about the name after normalisation. -/
theorem toASCII_labels {D : Data} {U : Uni} {tr std3 : Bool} {u n x : List Nat}
    {vs : List (List Nat)} (h : Uts46.ToASCII D U tr std3 u vs n)
    (hx : U.nfc (u.flatMap (Uts46.mapOne D tr std3)) = some x) :
    Each (Uts46.Converted D U tr std3) (splitDot x) vs := by
  obtain ⟨⟨_, ⟨y, hy, he⟩, _⟩, _, _⟩ := h
  rw [hx] at hy
  injection hy with hy
  rw [hy]
  exact he

theorem converted_ulabel {D : Data} {U : Uni} {tr std3 : Bool} {l v : List Nat}
    (h : Uts46.Converted D U tr std3 l v) (hx : ¬ xn <+: l) : v = l := by
  cases h with
  | alabel t _ h1 => exact absurd ⟨t, h1.symm⟩ hx
  | ulabel => rfl

/-- Empty labels: "a..b" is looked up, ToASCII refuses it. -/
theorem C97_violated_empty :
    LookupOk Sample.E 0 [0x61, 0x2E, 0x2E, 0x62] [0x61, 0x2E, 0x2E, 0x62] ∧
      ∀ vs n, ¬ Uts46.ToASCII Sample.D Sample.U false false [0x61, 0x2E, 0x2E, 0x62] vs n := by
  refine ⟨by decide +kernel, fun vs n h => ?_⟩
  have he := toASCII_labels (x := [0x61, 0x2E, 0x2E, 0x62]) h (by decide +kernel)
  rw [show splitDot [0x61, 0x2E, 0x2E, 0x62] = [[0x61], [], [0x62]] by decide] at he
  obtain ⟨_, _, hd⟩ := h
  cases he with
  | cons a he =>
    cases he with
    | cons b he =>
      cases he with
      | cons c he =>
        cases he
        have ha := converted_ulabel a (by decide)
        have hb := converted_ulabel b (by decide)
        have hc := converted_ulabel c (by decide)
        subst ha hb hc
        have := hd.label [] (by decide)
        exact absurd this.1 (by decide)

/-- The root alone: "." is looked up, ToASCII refuses it. -/
theorem C97_violated_root :
    LookupOk Sample.E 0 [0x2E] [0x2E] ∧
      ∀ vs n, ¬ Uts46.ToASCII Sample.D Sample.U false false [0x2E] vs n := by
  refine ⟨by decide +kernel, fun vs n h => ?_⟩
  have he := toASCII_labels (x := [0x2E]) h (by decide +kernel)
  rw [show splitDot [0x2E] = [[], []] by decide] at he
  obtain ⟨_, _, hd⟩ := h
  cases he with
  | cons a he =>
    cases he with
    | cons b he =>
      cases he
      have ha := converted_ulabel a (by decide)
      have hb := converted_ulabel b (by decide)
      subst ha hb
      have := hd.label [] (by decide)
      exact absurd this.1 (by decide)

/-- The Bidi rule for whole names: "1.א" is looked up, ToASCII refuses it. -/
theorem C97_violated_bidi :
    (∃ n, LookupOk Sample.E 0 (utf8s [0x31, 0x2E, 0x5D0]) n) ∧
      ∀ vs n, ¬ Uts46.ToASCII Sample.D Sample.U false false [0x31, 0x2E, 0x5D0] vs n := by
  refine ⟨⟨[0x31, 0x2E, 0x78, 0x6E, 0x2D, 0x2D, 0x34, 0x64, 0x62], by decide +kernel⟩,
    fun vs n h => ?_⟩
  have he := toASCII_labels (x := [0x31, 0x2E, 0x5D0]) h (by decide +kernel)
  rw [show splitDot [0x31, 0x2E, 0x5D0] = [[0x31], [0x5D0]] by decide] at he
  have hb := h.processing.bidi
  cases he with
  | cons a he =>
    cases he with
    | cons b he =>
      cases he
      have ha := converted_ulabel a (by decide)
      have hb' := converted_ulabel b (by decide)
      subst ha hb'
      obtain ⟨c, r, h1, h2⟩ := hb ⟨[0x5D0], by simp, 0x5D0, by simp, by decide +kernel⟩ [0x31]
        (by simp) (by simp)
      cases h1
      have : Sample.U.bidi 0x31 = .EN := by decide +kernel
      rw [this] at h2
      rcases h2 with ⟨h2 | h2, _⟩ | ⟨h2, _⟩ <;> cases h2

/-- STD3 rules: "a_b" is looked up as "ab", ToASCII refuses it. -/
theorem C97_violated_std3 :
    LookupOk Sample.E 32 [0x61, 0x5F, 0x62] [0x61, 0x62] ∧
      ∀ vs n, ¬ Uts46.ToASCII Sample.D Sample.U false true [0x61, 0x5F, 0x62] vs n := by
  refine ⟨by decide +kernel, fun vs n h => ?_⟩
  exact h.processing.allowed 0x5F (by simp) (by decide +kernel)

/-- "a-lca", "a¨". -/
theorem decodes_diaeresis : Decodes [0x61, 0x2D, 0x6C, 0x63, 0x61] [0x61, 0xA8] :=
  decodes_iff.mp (by decide +kernel)

/-- A character that ought to be mapped: the A-label of "a¨" is looked up, ToASCII refuses it. -/
theorem C97_violated_mapped :
    LookupOk Sample.E 0 [0x78, 0x6E, 0x2D, 0x2D, 0x61, 0x2D, 0x6C, 0x63, 0x61]
        [0x78, 0x6E, 0x2D, 0x2D, 0x61, 0x2D, 0x6C, 0x63, 0x61] ∧
      ∀ vs n, ¬ Uts46.ToASCII Sample.D Sample.U false false
        [0x78, 0x6E, 0x2D, 0x2D, 0x61, 0x2D, 0x6C, 0x63, 0x61] vs n := by
  refine ⟨by decide +kernel, fun vs n h => ?_⟩
  have he := toASCII_labels (x := [0x78, 0x6E, 0x2D, 0x2D, 0x61, 0x2D, 0x6C, 0x63, 0x61]) h
    (by decide +kernel)
  rw [show splitDot [0x78, 0x6E, 0x2D, 0x2D, 0x61, 0x2D, 0x6C, 0x63, 0x61] =
    [[0x78, 0x6E, 0x2D, 0x2D, 0x61, 0x2D, 0x6C, 0x63, 0x61]] by decide] at he
  cases he with
  | cons a he =>
    cases a with
    | alabel t v h1 h2 h3 =>
      cases h1
      have := punycodes_unique h2 decodes_diaeresis.chars (by decide) decodes_diaeresis
      subst this
      rcases h3.chars 0xA8 (by simp) with h | ⟨_, h⟩
      · exact absurd h (by decide +kernel)
      · exact absurd h (by decide +kernel)
    | ulabel h1 => exact h1 ⟨[0x61, 0x2D, 0x6C, 0x63, 0x61], rfl⟩

/-- "ab-m1t", "a", ZERO WIDTH JOINER, "b". -/
theorem decodes_joiner : Decodes [0x61, 0x62, 0x2D, 0x6D, 0x31, 0x74] [0x61, 0x200D, 0x62] :=
  decodes_iff.mp (by decide +kernel)

/-- The joiners in transitional processing: the A-label of "a", ZERO WIDTH JOINER, "b" is looked
up, ToASCII refuses it. -/
theorem C97_violated_joiner :
    LookupOk Sample.E 4 [0x78, 0x6E, 0x2D, 0x2D, 0x61, 0x62, 0x2D, 0x6D, 0x31, 0x74]
        [0x78, 0x6E, 0x2D, 0x2D, 0x61, 0x62, 0x2D, 0x6D, 0x31, 0x74] ∧
      ∀ vs n, ¬ Uts46.ToASCII Sample.D Sample.U true false
        [0x78, 0x6E, 0x2D, 0x2D, 0x61, 0x62, 0x2D, 0x6D, 0x31, 0x74] vs n := by
  refine ⟨by decide +kernel, fun vs n h => ?_⟩
  have he := toASCII_labels (x := [0x78, 0x6E, 0x2D, 0x2D, 0x61, 0x62, 0x2D, 0x6D, 0x31, 0x74]) h
    (by decide +kernel)
  rw [show splitDot [0x78, 0x6E, 0x2D, 0x2D, 0x61, 0x62, 0x2D, 0x6D, 0x31, 0x74] =
    [[0x78, 0x6E, 0x2D, 0x2D, 0x61, 0x62, 0x2D, 0x6D, 0x31, 0x74]] by decide] at he
  cases he with
  | cons a he =>
    cases a with
    | alabel t v h1 h2 h3 =>
      cases h1
      have := punycodes_unique h2 decodes_joiner.chars (by decide) decodes_joiner
      subst this
      rcases h3.joiners 1 0x200D rfl (.inr rfl) with ⟨h, _⟩ | ⟨_, c, _, h, h'⟩
      · cases h
      · cases h
        exact absurd h' (by decide +kernel)
    | ulabel h1 => exact h1 ⟨[0x61, 0x62, 0x2D, 0x6D, 0x31, 0x74], rfl⟩

/-! ### The length -/

/-- Three labels of 50 letters "à". -/
def longNfc : List Nat :=
  List.replicate 50 0xE0 ++ 0x2E :: (List.replicate 50 0xE0 ++ 0x2E :: List.replicate 50 0xE0)

/-- The same, decomposed. -/
def longNfd : List Nat := longNfc.flatMap fun c => if c = 0xE0 then [0x61, 0x300] else [c]

/-- "xn--0ca" followed by 49 letters "a". -/
def longAce : List Nat := [0x78, 0x6E, 0x2D, 0x2D, 0x30, 0x63] ++ List.replicate 50 0x61

theorem long_ok : LookupOk Sample.E 0 (utf8s longNfc) (joinDot [longAce, longAce, longAce]) := by
  decide +kernel

/-- Labels without right-to-left characters. -/
theorem bidiName_ltr {U : Uni} {vs : List (List Nat)}
    (h : ∀ v ∈ vs, ∀ c ∈ v, ¬ (U.bidi c = .R ∨ U.bidi c = .AL ∨ U.bidi c = .AN)) :
    BidiNameRule U vs := by
  rintro ⟨v, hv, c, hc, hr⟩
  exact absurd hr (h v hv c hc)

theorem long_toASCII : Uts46.ToASCII Sample.D Sample.U false false longNfc
      (List.replicate 3 (List.replicate 50 0xE0)) (joinDot [longAce, longAce, longAce]) ∧
    Uts46.Extra Sample.D false false (List.replicate 3 (List.replicate 50 0xE0)) := by
  have hl : ∀ R vs, (∀ l v, ¬ xn <+: l → R l v → v = l) → Each R (splitDot longNfc) vs →
      vs = List.replicate 3 (List.replicate 50 0xE0) := by
    intro R vs hR he
    rw [show splitDot longNfc = List.replicate 3 (List.replicate 50 0xE0) by decide +kernel] at he
    have := each_map_eq (g := id) (each_imp_mem (S := fun l v => v = l) he fun l hl v h =>
      hR l v (by rw [List.eq_of_mem_replicate hl]; decide +kernel) h) fun _ _ h => h
    rw [this, List.map_id]
  obtain ⟨vs, h1, h2⟩ := C97_sound_partial World.sample (f := 0) (u := longNfc) (by decide +kernel)
    (by decide) (by decide) (by decide +kernel) (by decide +kernel) long_ok (by decide) (by
      rintro vs ⟨x, hx, he⟩
      rw [show Sample.E.U.nfc (longNfc.flatMap (Uts46.mapOne Sample.D (Nat.testBit 0 2)
        (Nat.testBit 0 5))) = some longNfc by decide +kernel] at hx
      injection hx with hx
      subst hx
      rw [hl _ vs (by
        intro l v hx h
        cases h with
        | alabel t _ h1 => exact absurd ⟨t, h1.symm⟩ hx
        | ulabel => rfl) he]
      exact ⟨by decide +kernel, bidiName_ltr (by decide +kernel), by decide +kernel,
        fun h => absurd h (by decide)⟩)
  have := hl _ vs (fun l v hx h => converted_ulabel h hx)
    (toASCII_labels h1 (x := longNfc) (by decide +kernel))
  subst this
  exact ⟨h1, h2⟩

/-- The length: with the letters of three labels decomposed, ToASCII gives what it gives for the
composed letters, and lookup refuses the name as too long. -/
theorem C97_violated_length :
    LookupErr Sample.E 0 (utf8s longNfd) .tooBigDomain ∧
      Uts46.ToASCII Sample.D Sample.U false false longNfd
        (List.replicate 3 (List.replicate 50 0xE0)) (joinDot [longAce, longAce, longAce]) ∧
      Uts46.Extra Sample.D false false (List.replicate 3 (List.replicate 50 0xE0)) := by
  obtain ⟨h1, h2⟩ := long_toASCII
  refine ⟨by decide +kernel, ⟨⟨by decide +kernel, ⟨longNfc, by decide +kernel,
    toASCII_labels h1 (by decide +kernel)⟩, h1.processing.bidi⟩, h1.result, h1.length⟩, h2⟩

/-- The composed form satisfies the hypotheses of completeness. -/
example : LookupOk Sample.E 0 (utf8s longNfc) (joinDot [longAce, longAce, longAce]) :=
  C97_complete World.sample Sample.ruled (by decide) (by decide) (by decide) (by decide +kernel)
    (by decide +kernel) long_toASCII.1 long_toASCII.2 (by decide +kernel)

/-! ### The tables in the repository -/

theorem Shipped.joiners : Shipped.D.prop 0x200C = .contextj ∧ Shipped.D.prop 0x200D = .contextj := by
  decide +kernel

/-- C97 for the tables in the repository and any normaliser with the laws of NFC. -/
theorem C97_shipped_partial {U : Uni} (h : U.Laws) {f : Nat} (hc : ¬ Conflict f)
    (f6 : f.testBit 6 = false) (f7 : f.testBit 7 = false) {u n : List Nat}
    (hs : ∀ c ∈ u, isScalar c) (h0 : 0 ∉ u) (hin : f.testBit 5 = true → ∀ c ∈ u, ¬ Std3 Shipped.D c)
    (hside : ∀ vs, Uts46.Names Shipped.D U (f.testBit 2) (f.testBit 5) u vs →
      Uts46.Side Shipped.D U (f.testBit 2) (f.testBit 5) vs)
    (hl : (u.flatMap (Uts46.mapOne Shipped.D (f.testBit 2) (f.testBit 5))).length < 255) :
    LookupOk ⟨Shipped.T, U⟩ f (utf8s u) n ↔
      ∃ vs, Uts46.ToASCII Shipped.D U (f.testBit 2) (f.testBit 5) u vs n ∧
        Uts46.Extra Shipped.D (f.testBit 2) (f.testBit 5) vs := by
  constructor
  · exact fun h1 => C97_sound_partial (World.shipped h) Shipped.joiners f6 f7 hs h0 h1 hin hside
  · rintro ⟨vs, h1, h2⟩
    exact C97_complete (World.shipped h) Shipped.ruled hc f6 f7 hs h0 h1 h2 hl

end Idn2
