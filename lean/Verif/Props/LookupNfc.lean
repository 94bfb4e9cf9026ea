import Verif.Proof.LookupNfc

/-
Lookup and registration under IDN2_NFC_INPUT without conditions on the name: the part of C48,
C51 and C52 that needs an exact account of the check that precedes normalising (C36).
-/

namespace Idn2
open Spec

/-- C36, exactly.  Under IDN2_NFC_INPUT a well-formed label is left alone if the quick check,
applied to the code points that do not follow a supplementary one, says yes; otherwise it is
normalised. -/
theorem C36_exact {E : Env} {D : Data} (W : World E D) {l : List Nat} (hl : ∀ c ∈ l, isScalar c) :
    (∀ v, (u8_to_u32_nfc E (utf8s l) true : Out _) = .val (.ok (v, 0)) ↔ Norm D E.U l v) ∧
    ((u8_to_u32_nfc E (utf8s l) true : Out _) = .val (.error .nfc) ↔ NormFails D E.U l) := by
  rw [u8_to_u32_nfc_out]
  rcases u8nfcP_true W hl with ⟨w, h1, h2⟩ | ⟨h1, h2⟩
  · rw [h1, Res.bind_ok]
    constructor
    · intro v
      constructor
      · intro h
        injection h with h
        injection h with h
        injection h with h
        exact h ▸ h2
      · intro h; rw [h2.unique h]; rfl
    · exact ⟨fun h => (by injection h with h; cases h), fun h => (h2.not_fails h).elim⟩
  · rw [h1, Res.bind_err]
    constructor
    · intro v
      exact ⟨fun h => (by injection h with h; cases h), fun h => (h.not_fails h2).elim⟩
    · exact ⟨fun _ => h2, fun _ => rfl⟩

/-- "a" + U+0300 is normalised; U+20000 hides the U+0340 behind it, but not the one after that. -/
example : looked [0x20000, 0x340] = [0x20000] ∧ looked [0x20000, 0x340, 0x340] = [0x20000, 0x340] ∧
    (u8_to_u32_nfc Sample.E (utf8s [0x61, 0x300]) true : Out _) = .val (.ok ([0xE0], 0)) ∧
    (u8_to_u32_nfc Sample.E (utf8s [0x20000, 0x340]) true : Out _) =
      .val (.ok ([0x20000, 0x340], 0)) ∧
    (u8_to_u32_nfc Sample.E (utf8s [0x20000, 0x340, 0x340]) true : Out _) =
      .val (.ok ([0x20000, 0x300, 0x300], 0)) := by
  decide +kernel

/-- C48, for the flags left out by `C48_lookup_spec`: NO_TR46 (bit 6) with NFC_INPUT (bit 0). -/
theorem C48_lookup_nfc {E : Env} {D : Data} (W : World E D) {flags : Nat} {s n : List Nat}
    (h0 : 0 ∉ s) (hb0 : flags.testBit 0 = true) (hb6 : flags.testBit 6 = true) :
    LookupOk E flags s n ↔ ¬ Conflict flags ∧
      ∃ u, (∀ c ∈ u, isScalar c) ∧ s = utf8s u ∧ ToAsciiNfc D E.U flags u n := by
  have key : ∀ f, set_default_flags flags = .ok f → ∀ u, (∀ c ∈ u, isScalar c) → s = utf8s u →
      (lookupP E D f s = .ok n ↔ ToAsciiNfc D E.U flags u n) := by
    rintro f hf u hu rfl
    have hu0 : 0 ∉ u := fun h => h0 ((utf8s_zero_iff hu).mpr h)
    have h6 : has f IDN2_NO_TR46 = true := by
      rw [set_default_flags_bits hf _ (by decide), (flag_bits flags).2.2.2.2.2.1, hb6]
    have hl : ∀ ds, Each (fun l d => labelP E l f = .ok d) (splitDot (utf8s u)) ds ↔
        Each (LabelToNfc D E.U flags) (splitDot u) ds := by
      intro ds
      rw [splitDot_utf8s hu, each_map_iff]
      apply each_iff_mem
      intro l hl d
      exact labelP_nfc_iff W hf hb0 (fun c hc => hu c (mem_of_mem_splitDot hl hc))
        (fun hc => hu0 (mem_of_mem_splitDot hl hc))
    rw [lookupP_ok_iff]
    unfold ToAsciiNfc
    rw [h6]
    simp only [↓reduceIte]
    constructor
    · rintro ⟨src, ds, rfl, h1, h2, h3⟩
      exact ⟨ds, (hl ds).mp h1, h2, h3⟩
    · rintro ⟨ds, h1, h2, h3⟩
      exact ⟨_, ds, rfl, (hl ds).mpr h1, h2, h3⟩
  constructor
  · intro h
    obtain ⟨u, hu, hs⟩ := C37_utf8 W h0 h
    obtain ⟨f, hf, hp⟩ := lookupF_ok_iff.mp ((LookupOk_iff W h0).mp h)
    refine ⟨fun hc => ?_, u, hu, hs, (key f hf u hu hs).mp hp⟩
    rw [set_default_flags_eq, if_pos hc] at hf
    cases hf
  · rintro ⟨hc, u, hu, hs, ht⟩
    obtain ⟨f, hf⟩ := set_default_flags_ok hc
    exact (LookupOk_iff W h0).mpr (lookupF_ok_iff.mpr ⟨f, hf, (key f hf u hu hs).mpr ht⟩)

/-- "a" + U+0300 is converted as "à" is. -/
example : ToAsciiNfc Sample.D Sample.U 65 [0x61, 0x300, 0x2E, 0x62]
    [0x78, 0x6E, 0x2D, 0x2D, 0x30, 0x63, 0x61, 0x2E, 0x62] := by
  have h : LookupOk Sample.E 65 (utf8s [0x61, 0x300, 0x2E, 0x62])
      [0x78, 0x6E, 0x2D, 0x2D, 0x30, 0x63, 0x61, 0x2E, 0x62] := by decide +kernel
  obtain ⟨_, u, hu, hs, ht⟩ :=
    (C48_lookup_nfc World.sample (by decide) (by decide) (by decide)).mp h
  exact utf8s_inj (by unfold isScalar; decide) hu hs ▸ ht

/-- C52, for the flags left out by `C52_lookup_error`. -/
theorem C52_lookup_error_nfc {E : Env} {D : Data} (W : World E D) {flags : Nat} {u : List Nat}
    {e : Rc} (hu : ∀ c ∈ u, isScalar c) (hu0 : 0 ∉ u) (hb0 : flags.testBit 0 = true)
    (hb6 : flags.testBit 6 = true) (hc : ¬ Conflict flags) (h : LookupErr E flags (utf8s u) e) :
    ToAsciiErrNfc D E.U flags u e := by
  obtain ⟨f, hf⟩ := set_default_flags_ok hc
  rw [LookupErr_iff W (zero_mem_utf8s hu0)] at h
  unfold lookupF at h
  rw [hf] at h
  simp only at h
  have h6 : has f IDN2_NO_TR46 = true := by
    rw [set_default_flags_bits hf _ (by decide), (flag_bits flags).2.2.2.2.2.1, hb6]
  rw [lookupP_noTr46 h6, loopL_err_iff, splitDot_utf8s hu] at h
  obtain ⟨pre, l, post, ds, k1, k2, k3, k4⟩ := h
  obtain ⟨pre', r, e1, rfl, e2⟩ := List.map_eq_append_iff.mp k1
  obtain ⟨l', post', rfl, rfl, rfl⟩ := List.map_eq_cons_iff.mp e2
  have hmem : ∀ a ∈ splitDot u, (∀ c ∈ a, isScalar c) ∧ 0 ∉ a := fun a ha =>
    ⟨fun c hc => hu c (mem_of_mem_splitDot ha hc), fun hc => hu0 (mem_of_mem_splitDot ha hc)⟩
  have hto : ∀ a ∈ splitDot u, ∀ d, labelP E (utf8s a) f = .ok d → LabelToNfc D E.U flags a d :=
    fun a ha d => (labelP_nfc_iff W hf hb0 (hmem a ha).1 (hmem a ha).2).mp
  have hl' : l' ∈ splitDot u := by rw [e1]; simp
  refine ⟨pre', l', post', ds, e1, ?_, k3, ?_⟩
  · rw [each_map_iff] at k2
    exact each_imp_mem k2 fun a ha d => hto a (by rw [e1]; simp [ha]) d
  · rcases k4 with k4 | ⟨d, g1, g2, g3⟩
    · exact Or.inl (labelP_nfc_err W hf hb0 (hmem l' hl').1 (hmem l' hl').2 k4)
    · refine Or.inr ⟨d, hto l' hl' d g1, g2, ?_⟩
      simpa using g3

/-! ### The two accounts exclude each other -/

theorem firstErr_exclusive {ok : List Nat → List Nat → Prop} {er : List Nat → Rc → Prop}
    (hu : ∀ l d d', ok l d → ok l d' → d = d') (hx : ∀ l d e, er l e → ok l d → False)
    {ls ds : List (List Nat)} {e : Rc} (h : FirstErr ok er ls e) (hds : Each ok ls ds)
    (hlen : (joinDot ds).length ≤ if ds.getLast? = some [] then 254 else 253) : False := by
  obtain ⟨pre, l, post, es, k1, k2, k3, k4⟩ := h
  rw [k1] at hds
  obtain ⟨b1, b, b2, rfl, g1, g2, g3⟩ := each_split hds
  have : b1 = es := each_unique (R := ok) hu g1 k2
  subst this
  rcases k4 with k4 | ⟨d, m1, _, m2⟩
  · exact hx _ _ _ k4 g2
  · have := hu _ _ _ g2 m1
    subst this
    by_cases hpost : post = []
    · subst hpost
      cases g3
      rw [List.getLast?_append] at hlen
      simp only [List.getLast?_singleton, Option.some_or, Option.some.injEq] at hlen
      simp only [true_and] at m2
      omega
    · rw [if_neg (fun h => hpost h.1)] at m2
      have hb2 : b2 ≠ [] := by
        rintro rfl
        cases g3
        exact hpost rfl
      have e1 : b1 ++ b :: b2 = (b1 ++ [b]) ++ b2 := by simp
      rw [e1] at hlen
      have := joinDot_append_lt (a := b1 ++ [b]) (by simp) hb2
      split at hlen <;> rename_i hl
      · rw [List.getLast?_append] at hl
        cases hq : b2.getLast? with
        | none => exact hb2 (List.getLast?_eq_none_iff.mp hq)
        | some y => omega
      · omega

theorem labelToNfc_unique {D : Data} {U : Uni} {flags : Nat} {l d d' : List Nat}
    (h : LabelToNfc D U flags l d) (h' : LabelToNfc D U flags l d') : d = d' := by
  cases h with
  | ascii h1 h2 h3 =>
    cases h' with
    | ascii => rfl
    | alabel t u v g1 g2 => exact absurd ⟨g1, t, g2.symm⟩ h2
    | ulabel v g => exact (not_both h1 g).elim
  | alabel t u v h1 h2 h3 h4 h5 =>
    subst h2
    cases h' with
    | ascii _ g => exact absurd ⟨h1, t, rfl⟩ g
    | alabel t' u' v' g1 g2 g3 g4 g5 =>
      have := h3.unique (xn_cancel g2 ▸ g3)
      subst this
      rw [h5.unique g5]
    | ulabel v g => exact (not_both (decodes_ascii h3) g).elim
  | ulabel v h1 h2 =>
    cases h' with
    | ascii g => exact (not_both g h1).elim
    | alabel t u v g1 g2 g3 => subst g2; exact (not_both (decodes_ascii g3) h1).elim
    | ulabel v' g1 g2 => rw [h2.unique g2]

/-- The three shapes of a conversion, with the parts the account determines. -/
theorem labelToNfc_cases {D : Data} {U : Uni} {flags : Nat} {l d : List Nat}
    (h : LabelToNfc D U flags l d) :
    ((∀ c ∈ l, c < 0x80) ∧ ¬ (flags.testBit 7 = false ∧ xn <+: l) ∧ l.length ≤ 63) ∨
    (flags.testBit 7 = false ∧ (∀ c ∈ l, c < 0x80) ∧ ∃ t, l = xn ++ t ∧ ∃ u, Decodes t u ∧
      (∀ c ∈ u, isScalar c) ∧ ∃ v, Norm D U u v ∧ (∀ e, ¬ Fault D U (labelTests flags) v e) ∧
      t.map asciiLower = (Punycode.encode v).map asciiLower ∧ (Punycode.encode v).length ≤ 59) ∨
    ((∃ c ∈ l, 0x80 ≤ c) ∧ ∃ v, Norm D U l v ∧ (∀ e, ¬ Fault D U (labelTests flags) v e) ∧
      (flags.testBit 7 = false → (∃ c ∈ v, 0x80 ≤ c) ∧ ∀ c ∈ v, c < 0x80 → isLDHU c) ∧
      (Punycode.encode v).length ≤ 59) := by
  cases h with
  | ascii h1 h2 h3 => exact Or.inl ⟨h1, h2, h3⟩
  | alabel t u v h1 h2 h3 h4 h5 h6 h7 h8 =>
    refine Or.inr (Or.inl ⟨h1, h2 ▸ decodes_ascii h3, t, h2, u, h3, h4, v, h5, h6, h7, ?_⟩)
    have := congrArg List.length h7
    simp only [List.length_map] at this
    omega
  | ulabel v h1 h2 h3 h4 h5 => exact Or.inr (Or.inr ⟨h1, v, h2, h3, h4, h5⟩)

theorem labelErrNfc_not_to {D : Data} {U : Uni} {flags : Nat} {l d : List Nat} {e : Rc}
    (h : LabelErrNfc D U flags l e) (h' : LabelToNfc D U flags l d) : False := by
  rcases labelToNfc_cases h' with ⟨g1, g2, g3⟩ | ⟨g1, g2, t, rfl, u, g3, g4, v, g5, g6, g7, g8⟩ |
    ⟨g1, v, g2, g3, g4, g5⟩
  · cases h with
    | long _ _ h => omega
    | undecodable _ h1 _ h3 => obtain ⟨t, rfl, _⟩ := h3; exact g2 ⟨h1, t, rfl⟩
    | surrogate t _ h1 h2 => exact g2 ⟨h1, t, h2.symm⟩
    | alabelNfc t _ h1 h2 => exact g2 ⟨h1, t, h2.symm⟩
    | alabelFault t _ _ _ h1 h2 => exact g2 ⟨h1, t, h2.symm⟩
    | alabelLong t _ _ _ h1 h2 => exact g2 ⟨h1, t, h2.symm⟩
    | alabelOther t _ _ h1 h2 => exact g2 ⟨h1, t, h2.symm⟩
    | ulabelNfc h1 => exact not_both g1 h1
    | ulabelFault _ _ h1 => exact not_both g1 h1
    | ulabelLong _ _ h1 => exact not_both g1 h1
    | ulabelOther _ h1 => exact not_both g1 h1
  · cases h with
    | long _ h2 _ => exact h2 ⟨g1, t, rfl⟩
    | undecodable _ h1 _ h3 =>
      exact undecodable_not h3 rfl g3
    | surrogate t' u' h1 h2 h3 h4 => exact h4 (g3.unique (xn_cancel h2 ▸ h3) ▸ g4)
    | alabelNfc t' u' h1 h2 h3 h4 h5 =>
      have := g3.unique (xn_cancel h2 ▸ h3)
      subst this
      exact g5.not_fails h5
    | alabelFault t' u' v' _ h1 h2 h3 h4 h5 h6 =>
      have := g3.unique (xn_cancel h2 ▸ h3)
      subst this
      have := g5.unique h5
      subst this
      exact g6 e h6.fault
    | alabelLong t' u' v' _ h1 h2 h3 h4 h5 h6 h7 =>
      have := g3.unique (xn_cancel h2 ▸ h3)
      subst this
      have := g5.unique h5
      subst this
      have := h7.1
      omega
    | alabelOther t' u' v' h1 h2 h3 h4 h5 h6 h7 h8 =>
      have ht := xn_cancel h2
      subst ht
      have := g3.unique h3
      subst this
      have := g5.unique h5
      subst this
      exact h8 g7
    | ulabelNfc h1 => exact not_both g2 h1
    | ulabelFault _ _ h1 => exact not_both g2 h1
    | ulabelLong _ _ h1 => exact not_both g2 h1
    | ulabelOther _ h1 => exact not_both g2 h1
  · cases h with
    | long h1 => exact not_both h1 g1
    | undecodable _ _ h2 => exact not_both h2 g1
    | surrogate t' u' h1 h2 h3 => subst h2; exact not_both (decodes_ascii h3) g1
    | alabelNfc t' u' h1 h2 h3 => subst h2; exact not_both (decodes_ascii h3) g1
    | alabelFault t' u' v' _ h1 h2 h3 => subst h2; exact not_both (decodes_ascii h3) g1
    | alabelLong t' u' v' _ h1 h2 h3 => subst h2; exact not_both (decodes_ascii h3) g1
    | alabelOther t' u' v' h1 h2 h3 => subst h2; exact not_both (decodes_ascii h3) g1
    | ulabelNfc _ h2 => exact g2.not_fails h2
    | ulabelFault v' _ _ h2 h3 =>
      have := g2.unique h2
      subst this
      exact g3 e h3.fault
    | ulabelLong v' _ _ h2 h3 h4 =>
      have := g2.unique h2
      subst this
      have := h4.1
      omega
    | ulabelOther v' _ h2 h3 h4 h5 h6 =>
      have := g2.unique h2
      subst this
      exact h6 (g4 h5)

/-- C52 under NFC_INPUT and NO_TR46: a name with an error has no result. -/
theorem C52_exclusive_nfc {D : Data} {U : Uni} {flags : Nat} {u n : List Nat} {e : Rc}
    (h : ToAsciiErrNfc D U flags u e) (h' : ToAsciiNfc D U flags u n) : False := by
  obtain ⟨ds, h1, rfl, h2⟩ := h'
  exact firstErr_exclusive (ok := LabelToNfc D U flags) (er := LabelErrNfc D U flags)
    (fun _ _ _ h h' => labelToNfc_unique h h') (fun _ _ _ h h' => labelErrNfc_not_to h h') h h1 h2

/-- With supplementary characters: U+20000 U+0340 is not normalised, hence refused. -/
example : LookupErr Sample.E 65 (utf8s [0x20000, 0x340]) .notNfc ∧
    ToAsciiErrNfc Sample.D Sample.U 65 [0x20000, 0x340] .notNfc := by
  have h : LookupErr Sample.E 65 (utf8s [0x20000, 0x340]) .notNfc := by decide +kernel
  exact ⟨h, C52_lookup_error_nfc World.sample (by unfold isScalar; decide) (by decide) (by decide)
    (by decide) (by decide) h⟩

/-! ### Registration -/

/-- C51 with NFC_INPUT, for every label. -/
theorem C51_register_norm {E : Env} {D : Data} (W : World E D) {flags : Nat}
    (hf : flags.testBit 0 = true) {s n : List Nat} :
    RegOk E flags (some s) none n ↔
      ((∀ c ∈ s, c < 0x80) ∧ s.length ≤ 63 ∧ n = s) ∨
      ∃ q u, (∀ c ∈ q, isScalar c) ∧ (∃ c ∈ q, 0x80 ≤ c) ∧ s = utf8s q ∧ Norm D E.U q u ∧
        (∀ e, ¬ Fault D E.U regTests u e) ∧ n = acePrefix ++ Punycode.encode u ∧ n.length ≤ 63 := by
  rw [RegOk_ul]
  constructor
  · intro h
    rcases regUP_ok W h with h | ⟨q, p, hq, hna, hp, hs, hv, hn, henc⟩
    · exact Or.inl h
    · right
      rw [has_nfc, hf] at hp
      obtain ⟨hqs, rfl⟩ := u8Decode_some_iff.mp hq
      refine ⟨q, p, hqs, hna, rfl, (u8nfcP_iff_norm W hqs).mp hp, hv, hn, ?_⟩
      have := ((C04_encode_correct _ _ (by omega) (by omega)).mp henc).2.2.2.2
      rw [hn]
      simp only [List.length_append, acePrefix, List.length_cons, List.length_nil]
      omega
  · unfold regUP
    rintro (⟨ha, hl, rfl⟩ | ⟨q, u, hqs, hna, rfl, hnm, hv, rfl, hl⟩)
    · rw [if_pos ((ascii_p_iff _).mpr ha), if_neg (by omega)]
    · have hus := hnm.scalar W.uni hqs
      rw [not_ascii_utf8s hqs hna, has_nfc, hf, (u8nfcP_iff_norm W hqs).mpr hnm]
      simp only [Bool.false_eq_true, ↓reduceIte, Res.bind_ok]
      rw [registerMask_eq,
        (labelTestP_ok_iff W.tables (fun c hc => isScalar_le (hus c hc)) regTests).mpr hv]
      simp only [List.length_append, acePrefix, List.length_cons, List.length_nil] at hl
      rw [Res.bind_ok, encode_ok_short (by omega) (by omega) (encodable_scalar hus) (by omega),
        Res.bind_ok]

/-- C51, errors, with NFC_INPUT. -/
theorem C51_register_error_norm {E : Env} {D : Data} (W : World E D) {flags : Nat}
    (hf : flags.testBit 0 = true) {s : List Nat} {e : Rc}
    (h : RegErr E flags (some s) none e) :
    ((∀ c ∈ s, c < 0x80) ∧ 63 < s.length ∧ e = .tooBigLabel) ∨
    ((∀ u, (∀ c ∈ u, isScalar c) → s ≠ utf8s u) ∧ e = .encodingError) ∨
    ∃ q, (∀ c ∈ q, isScalar c) ∧ (∃ c ∈ q, 0x80 ≤ c) ∧ s = utf8s q ∧
      ((NormFails D E.U q ∧ e = .nfc) ∨
       ∃ u, Norm D E.U q u ∧
        (FirstFault D E.U regTests u e ∨
          ((∀ e', ¬ Fault D E.U regTests u e') ∧ TooLong u e))) := by
  rw [RegErr_ul] at h
  unfold regUP at h
  split at h
  · rename_i ha
    rw [ascii_p_iff] at ha
    split at h
    · injection h with h
      exact Or.inl ⟨ha, by omega, h.symm⟩
    · cases h
  · rename_i ha
    rw [ascii_p_iff] at ha
    right
    rw [has_nfc, hf] at h
    cases hq : u8Decode s with
    | none =>
      left
      unfold u8nfcP at h
      rw [hq] at h
      refine ⟨fun u hu hs => ?_, by injection h with h; exact h.symm⟩
      rw [u8Decode_some_iff.mpr ⟨hu, hs⟩] at hq
      cases hq
    | some q =>
      right
      obtain ⟨hqs, rfl⟩ := u8Decode_some_iff.mp hq
      have hna : ∃ c ∈ q, 0x80 ≤ c := by
        apply Classical.byContradiction
        intro hn
        apply ha
        have hq' : ∀ c ∈ q, c < 0x80 := by
          intro c hc
          apply Classical.byContradiction
          intro hge
          exact hn ⟨c, hc, by omega⟩
        have := u8Decode_ascii hq'
        obtain ⟨_, h2⟩ := u8Decode_some_iff.mp this
        rw [← h2]
        exact hq'
      refine ⟨q, hqs, hna, rfl, ?_⟩
      rcases u8nfcP_true W hqs with ⟨v, hv, hnm⟩ | ⟨hv, hnm⟩
      · right
        refine ⟨v, hnm, ?_⟩
        have hvs := hnm.scalar W.uni hqs
        rw [hv, Res.bind_ok, registerMask_eq] at h
        have hle : ∀ c ∈ v, c ≤ 0x10FFFF := fun c hc => isScalar_le (hvs c hc)
        cases ht : labelTestP E regTests v with
        | ub => rw [ht] at h; cases h
        | err e' =>
          rw [ht] at h
          injection h with h
          subst h
          exact Or.inl ((labelTestP_first W.tables hle).mp ht)
        | ok x =>
          rw [ht, Res.bind_ok] at h
          right
          cases hp : punycode_encode 60 59 v with
          | ok y => rw [hp] at h; cases h
          | ub => rw [hp] at h; cases h
          | err e' =>
            rw [hp] at h
            injection h with h
            subst h
            exact ⟨(labelTestP_ok_iff W.tables hle regTests).mp ht,
              encode_fail (by omega) (encodable_scalar hvs) hp⟩
      · rw [hv, Res.bind_err] at h
        injection h with h
        exact Or.inl ⟨hnm, h.symm⟩

/-- "a" + U+0300 is registered as "à"; U+20000 U+0340 is refused. -/
example : RegOk Sample.E 1 (some (utf8s [0x61, 0x300])) none
      [0x78, 0x6E, 0x2D, 0x2D, 0x30, 0x63, 0x61] ∧
    RegErr Sample.E 1 (some (utf8s [0x20000, 0x340])) none .notNfc := by
  decide +kernel

end Idn2
