import Verif.Props.ToAscii

/-
Properties C12, C21, C34, C35, C44: what the labels of a lookup result are, and what happens
when the result is converted again.
-/

namespace Idn2
open Spec

/-- A label that stands behind an A-label in a lookup result. -/
structure Spec.Behind (D : Data) (U : Uni) (flags : Nat) (u : List Nat) : Prop where
  scalar : ∀ c ∈ u, isScalar c
  nonascii : ∃ c ∈ u, 0x80 ≤ c
  ascii : ∀ c ∈ u, c < 0x80 → isLDHU c
  length : (Punycode.encode u).length ≤ 59
  tests : ∀ e, ¬ Fault D U (labelTests flags) u e
  tr46 : flags.testBit 6 = false → ∀ e, ¬ Fault D U (tr46TestsA flags) u e

/-- A label of a lookup result that is not an A-label. -/
structure Spec.Plain (D : Data) (U : Uni) (flags : Nat) (d : List Nat) : Prop where
  ascii : ∀ c ∈ d, c < 0x80
  noxn : ¬ xn <+: d
  length : d.length ≤ 63
  tr46 : flags.testBit 6 = false → ∀ e, ¬ Fault D U (tr46Tests flags) d e

theorem testBits_tr46 (flags : Nat) :
    (∀ k, k ≠ 12 → k ≠ 13 → (tr46Tests flags).testBit k = (tr46TestsA flags).testBit k) ∧
    (tr46TestsA flags).testBit 4 = false ∧ (tr46TestsA flags).testBit 5 = false ∧
    (tr46TestsA flags).testBit 6 = false ∧ (tr46TestsA flags).testBit 7 = false ∧
    (tr46TestsA flags).testBit 8 = false ∧ (tr46TestsA flags).testBit 9 = false ∧
    (tr46TestsA flags).testBit 10 = false ∧ (tr46TestsA flags).testBit 11 = false ∧
    (tr46TestsA flags).testBit 12 = false ∧ (tr46TestsA flags).testBit 13 = true ∧
    (tr46TestsA flags).testBit 14 = !flags.testBit 5 ∧
    (tr46Tests flags).testBit 12 = flags.testBit 2 ∧
    (tr46Tests flags).testBit 13 = !flags.testBit 2 := by
  refine ⟨?_, ?_⟩
  · intro k h12 h13
    unfold tr46Tests tr46TestsA
    by_cases hk : k < 15
    · have : ∀ b2 b5 : Bool, ∀ k : Nat, k < 15 → k ≠ 12 → k ≠ 13 →
          (2 ^ 0 + 2 ^ 1 + 2 ^ 2 + 2 ^ 3 + (if b2 then 2 ^ 12 else 2 ^ 13) +
            (if b5 then 0 else 2 ^ 14)).testBit k =
          (2 ^ 0 + 2 ^ 1 + 2 ^ 2 + 2 ^ 3 + 2 ^ 13 + (if b5 then 0 else 2 ^ 14)).testBit k := by
        decide
      exact this _ _ k hk h12 h13
    · have h1 : ∀ b2 b5 : Bool, (2 ^ 0 + 2 ^ 1 + 2 ^ 2 + 2 ^ 3 + (if b2 then 2 ^ 12 else 2 ^ 13) +
            (if b5 then 0 else 2 ^ 14)) < 2 ^ 15 := by decide
      have h2 : ∀ b5 : Bool, (2 ^ 0 + 2 ^ 1 + 2 ^ 2 + 2 ^ 3 + 2 ^ 13 +
            (if b5 then 0 else 2 ^ 14)) < 2 ^ 15 := by decide
      have hp : 2 ^ 15 ≤ 2 ^ k := Nat.pow_le_pow_right (by omega) (by omega)
      rw [Nat.testBit_lt_two_pow (Nat.lt_of_lt_of_le (h1 _ _) hp),
        Nat.testBit_lt_two_pow (Nat.lt_of_lt_of_le (h2 _) hp)]
  · unfold tr46Tests tr46TestsA
    cases flags.testBit 2 <;> cases flags.testBit 5 <;> decide

/-- What is valid in the chosen processing is valid in nontransitional processing. -/
theorem tr46Tests_weaken {D : Data} {U : Uni} {flags : Nat} {u : List Nat}
    (h : ∀ e, ¬ Fault D U (tr46Tests flags) u e) : ∀ e, ¬ Fault D U (tr46TestsA flags) u e := by
  obtain ⟨hk, k4, k5, k6, k7, k8, k9, k10, k11, k12, k13, k14, t12, t13⟩ := testBits_tr46 flags
  intro e hf
  cases hf with
  | nfc h1 h2 => exact h _ (.nfc (by rw [hk 0 (by omega) (by omega)]; exact h1) h2)
  | notNfc t h1 h2 h3 => exact h _ (.notNfc t (by rw [hk 0 (by omega) (by omega)]; exact h1) h2 h3)
  | twoHyphen h1 h2 h3 => exact h _ (.twoHyphen (by rw [hk 1 (by omega) (by omega)]; exact h1) h2 h3)
  | hyphenStartEnd h1 h2 =>
    exact h _ (.hyphenStartEnd (by rw [hk 2 (by omega) (by omega)]; exact h1) h2)
  | leadingCombining c h1 h2 h3 =>
    exact h _ (.leadingCombining c (by rw [hk 3 (by omega) (by omega)]; exact h1) h2 h3)
  | disallowed c h1 => rw [k4] at h1; cases h1
  | contextjAny c h1 => rw [k5] at h1; cases h1
  | contextj pos c h1 => rw [k6] at h1; cases h1
  | contextjNoRule c h1 => rw [k6] at h1; cases h1
  | contextoAny c h1 => rw [k7] at h1; cases h1
  | contextoNoRule c h1 => rw [k8, k9] at h1; simp at h1
  | contexto pos c h1 => rw [k9] at h1; cases h1
  | unassigned c h1 => rw [k10] at h1; cases h1
  | bidi h1 => rw [k11] at h1; cases h1
  | dotInLabel h1 h2 =>
    refine h _ (.dotInLabel ?_ h2)
    rw [t12, t13]
    cases flags.testBit 2 <;> simp
  | invalidTransitional c h1 => rw [k12] at h1; cases h1
  | invalidNontransitional c h1 h2 h3 h4 =>
    have k14' := hk 14 (by omega) (by omega)
    cases hb : flags.testBit 2 with
    | false =>
      rw [hb] at t12 t13
      exact h _ (.invalidNontransitional c t12 (by simpa using t13) h3 (by rw [k14']; exact h4))
    | true =>
      rw [hb] at t12
      refine h _ (.invalidTransitional c t12 h3 (fun hv => h4 ?_))
      rw [k14'] at hv
      rcases hv with hv | hv | hv
      · exact Or.inl hv
      · exact absurd hv.1 (by simp)
      · exact Or.inr (Or.inr hv)

theorem encode_chars_LDHU {t u : List Nat} (hd : Decodes t u)
    (hl : t.map asciiLower = (Punycode.encode u).map asciiLower) (ht : t.length ≤ 59) :
    ∀ c ∈ u, c < 0x80 → isLDHU c := by
  have hlen : t.length = (Punycode.encode u).length := by
    have := congrArg List.length hl; simpa using this
  have hul := hd.length
  have henc : punycode_encode 59 59 u = .ok (Punycode.encode u) :=
    encode_ok_any (by omega) (by omega) hd.encodable hd.nonascii (by omega) (by omega)
  have hr := decodes_iff.mp (redecode (decodes_iff.mpr hd) henc hl)
  intro c hc hlt
  exact hr.chars c ((enc_shape (by omega) (by omega) henc).keep c hc hlt)

theorem labelTo_result {D : Data} {U : Uni} {flags : Nat} (h7 : flags.testBit 7 = false)
    {l d : List Nat} (hl : ∀ c ∈ l, isScalar c)
    (ht : flags.testBit 6 = false → Tr46Label D U flags l) (h : LabelTo D U flags l d) :
    Plain D U flags d ∨ ∃ u, Behind D U flags u ∧ d = xn ++ Punycode.encode u := by
  rcases h with ⟨h1, h2, h3⟩ | ⟨t, u, h1, h2, h3, h4, h5, h6, h8⟩ | ⟨h1, h2, h3, h4⟩
  · have hx : ¬ xn <+: l := fun hx => h2 ⟨h7, hx⟩
    refine Or.inl ⟨h1, hx, h3, fun h6 => ?_⟩
    rcases ht h6 with ⟨t, u, rfl, _⟩ | ⟨_, h⟩
    · exact absurd ⟨t, rfl⟩ hx
    · exact h
  · have hlen : t.length = (Punycode.encode u).length := by
      have := congrArg List.length h6; simpa using this
    exact Or.inr ⟨u, ⟨h4, h3.nonascii, encode_chars_LDHU h3 h6 h8, by omega, h5,
      fun hb => tr46Label_decoded (ht hb) h2 h3⟩, rfl⟩
  · refine Or.inr ⟨l, ⟨hl, h1, h3 h7, h4, h2, fun hb => ?_⟩, rfl⟩
    rcases ht hb with ⟨t, u, rfl, hd, _⟩ | ⟨_, h⟩
    · exfalso
      obtain ⟨c, hc, hge⟩ := h1
      rcases List.mem_append.mp hc with hc | hc
      · unfold xn at hc; simp at hc; omega
      · have := LDHU_lt (hd.chars c hc); omega
    · exact tr46Tests_weaken h

/-- The labels of a lookup result, when A-labels are checked (bit 7 off). -/
theorem result_labels {E : Env} {D : Data} (W : World E D) {flags : Nat} {s n : List Nat}
    (h0 : 0 ∉ s) (h7 : flags.testBit 7 = false) (h : LookupOk E flags s n) :
    n.length ≤ nameLimit (splitDot n) ∧ ∀ d ∈ splitDot n, Plain D E.U flags d ∨
      ∃ u, Behind D E.U flags u ∧ d = xn ++ Punycode.encode u := by
  obtain ⟨f, hf, hp⟩ := lookupF_ok_iff.mp ((LookupOk_iff W h0).mp h)
  obtain ⟨src, ds, hs0, hsrc, heach, hn, hsp, hlen, hds⟩ := lookupP_ok W h0 hp
  refine ⟨hsp ▸ hlen, ?_⟩
  by_cases hb : flags.testBit 0 = true ∧ flags.testBit 6 = true
  · rw [hsp]
    intro d hd
    obtain ⟨l, hl, hr⟩ := each_mem_right heach hd
    have hl0 : 0 ∉ l := fun hc => hs0 (mem_of_mem_splitDot hl hc)
    have hr7 : has f IDN2_NO_ALABEL_ROUNDTRIP = false := by
      rw [set_default_flags_bits hf _ (by decide), (flag_bits flags).2.2.2.2.2.2, h7]
    have ace : ∀ p enc, Converted E f p enc → d = acePrefix ++ enc →
        ∃ u, Behind D E.U flags u ∧ d = xn ++ Punycode.encode u := by
      rintro p enc hc rfl
      obtain ⟨rfl, _, _, _, hcap⟩ := (C04_encode_correct _ _ (by omega) (by omega)).mp hc.encode
      have hdec := decodes_iff.mp (hc.dec hr7)
      refine ⟨p, ⟨hc.scalar, hdec.nonascii, ?_, hcap, (labelTestIf_ok_iff W hf hc.scalar).mp hc.test,
        fun h6 => ?_⟩, rfl⟩
      · intro c hcp hlt
        exact hdec.chars c ((enc_shape (by omega) (by omega) hc.encode).keep c hcp hlt)
      · rw [hb.2] at h6; cases h6
    rcases (labelP_ok_iff W.tables W.uni hl0).mp hr with ⟨h1, h2, h3, rfl⟩ |
      ⟨_, _, t, u, src8, p, enc, _, _, _, _, hc, hd, _⟩ | ⟨_, p, enc, _, hc, hd⟩
    · refine Or.inl ⟨h1, ?_, h3, fun h6 => ?_⟩
      · intro hx
        have := isAce_iff.mpr ⟨hr7, prefix_iff.mp hx⟩
        rw [h2] at this; cases this
      · rw [hb.2] at h6; cases h6
    · exact Or.inr (ace p enc hc hd)
    · exact Or.inr (ace p enc hc hd)
  · obtain ⟨_, u, hu, rfl, x, ds', hpr, he, hn', _⟩ := (C48_lookup_spec W h0 hb).mp h
    have hxs : ∀ c ∈ x, isScalar c := by
      unfold Processed at hpr
      split at hpr
      · rw [hpr]; exact hu
      · have hm := mapText_scalar W.data flags hu
        unfold mapText at hm
        rw [(flag_bits flags).2.2.1, (flag_bits flags).2.2.2.2.1] at hm
        exact W.uni.nfc_scalar _ x hm hpr.2.2.1
    have htr : flags.testBit 6 = false → ∀ l ∈ splitDot x, Tr46Label D E.U flags l := by
      intro h6
      unfold Processed at hpr
      rw [h6] at hpr
      simp only [Bool.false_eq_true, ↓reduceIte] at hpr
      exact hpr.2.2.2
    have hres : ∀ d ∈ ds', Plain D E.U flags d ∨
        ∃ u, Behind D E.U flags u ∧ d = xn ++ Punycode.encode u := by
      intro d hd
      obtain ⟨l, hl, hr⟩ := each_mem_right he hd
      exact labelTo_result h7 (fun c hc => hxs c (mem_of_mem_splitDot hl hc))
        (fun h6 => htr h6 l hl) hr
    have hne : ds' ≠ [] := by
      rintro rfl
      cases hs : splitDot x with
      | nil => exact splitDot_ne_nil x hs
      | cons a b => rw [hs] at he; cases he
    have hnd : ∀ d ∈ ds', 0x2E ∉ d := by
      intro d hd
      obtain ⟨l, hl, hr⟩ := each_mem_right he hd
      have hld := mem_splitDot_nodot hl
      have ace : ∀ u, (∀ c ∈ u, c < 0x80 → c ≠ 0x2E) → 0x2E ∉ xn ++ Punycode.encode u := by
        intro u hu hc
        rcases List.mem_append.mp hc with hc | hc
        · simp [xn] at hc
        · rw [encode_eq_head, List.mem_append, headOf, List.mem_append] at hc
          rcases hc with (hc | hc) | hc
          · unfold Punycode.basics at hc
            simp at hc
            exact hu _ hc (by omega) rfl
          · split at hc <;> simp at hc
          · obtain ⟨k, hk, hkk⟩ := List.mem_map.mp hc
            have := isLDHU_digitChar (codes_lt _ _ k hk)
            rw [hkk] at this
            unfold isLDHU at this; omega
      rcases hr with ⟨_, _, _⟩ | ⟨t, v, h1, h2, h3, h4, h5, h6, h8⟩ | ⟨h1, h2, h3, h4⟩
      · exact hld
      · apply ace
        rintro c hc hlt rfl
        have := encode_chars_LDHU h3 h6 h8 _ hc hlt
        unfold isLDHU at this; omega
      · apply ace
        rintro c hc _ rfl
        exact hld hc
    rw [hn', splitDot_joinDot hne hnd]
    exact hres

/-! ### C35 -/

/-- C35.  With A-labels being checked, every label of the result that begins with "xn--" is the
encoding of a label that passes the tests of IDNA2008 (unless processing is transitional) and
those of UTS #46 (unless it is off), and the Punycode decoder gives that label back. -/
theorem C35_alabel_genuine {E : Env} {D : Data} (W : World E D) {flags : Nat} {s n : List Nat}
    (h0 : 0 ∉ s) (h7 : flags.testBit 7 = false) (h : LookupOk E flags s n) {t : List Nat}
    (ht : xn ++ t ∈ splitDot n) :
    ∃ u, punycode_decode 63 63 t = .ok u ∧ t = Punycode.encode u ∧ (∀ c ∈ u, isScalar c) ∧
      (∃ c ∈ u, 0x80 ≤ c) ∧ (∀ e, ¬ Fault D E.U (labelTests flags) u e) ∧
      (flags.testBit 6 = false → ∀ e, ¬ Fault D E.U (tr46TestsA flags) u e) := by
  rcases (result_labels W h0 h7 h).2 _ ht with hp | ⟨u, hb, he⟩
  · exact absurd ⟨t, rfl⟩ hp.noxn
  · have := List.append_cancel_left he
    subst this
    have hl := length_le_encode (scalar_lt hb.scalar)
    have := hb.length
    exact ⟨u, decode_encode (by omega) (by omega) hb.ascii (encodable_scalar hb.scalar) hb.nonascii
      (by omega), rfl, hb.scalar, hb.nonascii, hb.tests, hb.tr46⟩

-- "xn--f-0fa" is fä; a wrong digit, an encoding of ASCII only and a disallowed character are
-- refused; without the check they are let through
example : LookupOk Sample.E 0 [0x78, 0x6E, 0x2D, 0x2D, 0x66, 0x2D, 0x30, 0x66, 0x61]
      [0x78, 0x6E, 0x2D, 0x2D, 0x66, 0x2D, 0x30, 0x66, 0x61] ∧
    LookupErr Sample.E 0 [0x78, 0x6E, 0x2D, 0x2D, 0x66, 0x2D] .punycodeBadInput ∧
    LookupOk Sample.E 192 [0x78, 0x6E, 0x2D, 0x2D, 0x66, 0x2D]
      [0x78, 0x6E, 0x2D, 0x2D, 0x66, 0x2D] := by decide +kernel

/-! ### Characters that survive UTS #46 processing -/

theorem tr46A_char {D : Data} {U : Uni} {flags : Nat} {u : List Nat}
    (h : ∀ e, ¬ Fault D U (tr46TestsA flags) u e) :
    (∀ c ∈ u, Tr46Valid D false (!flags.testBit 5) c) ∧ 0x2E ∉ u := by
  obtain ⟨_, _, _, _, _, _, _, _, _, k12, k13, k14, _, _⟩ := testBits_tr46 flags
  constructor
  · intro c hc
    apply Classical.byContradiction
    intro hn
    exact h _ (.invalidNontransitional c k12 k13 hc (by rw [k14]; exact hn))
  · intro hc
    exact h _ (.dotInLabel (Or.inr k13) hc)

theorem ascii_cases {D : Data} (hD : D.Laws) {c : Nat} (hc : c < 0x80) :
    (D.status c = .valid ∧ (isLowerLDH c ∨ c = 0x2E)) ∨
    (D.status c = .mapped ∧ 0x41 ≤ c ∧ c ≤ 0x5A) ∨ D.status c = .std3Valid := by
  by_cases h1 : isLowerLDH c
  · exact Or.inl ⟨(hD.ldh c h1).1, Or.inl h1⟩
  · by_cases h2 : c = 0x2E
    · subst h2; exact Or.inl ⟨hD.dot.1, Or.inr rfl⟩
    · by_cases h3 : 0x41 ≤ c ∧ c ≤ 0x5A
      · exact Or.inr (Or.inl ⟨(hD.upper c h3.1 h3.2).1, h3⟩)
      · exact Or.inr (Or.inr (hD.other c hc h1 h2 h3).1)

/-- ASCII characters that are valid are not changed by the mapping. -/
theorem ascii_valid {D : Data} (hD : D.Laws) {c : Nat} (hc : c < 0x80) {tr std3 : Bool}
    (h : Tr46Valid D tr (!std3) c) : emit D tr std3 c = [c] ∧ D.status c ≠ .disallowed ∧
      ¬ (0x41 ≤ c ∧ c ≤ 0x5A) ∧ (std3 = true → isLowerLDH c ∨ c = 0x2E) := by
  rcases ascii_cases hD hc with ⟨h1, h2⟩ | ⟨h1, h2⟩ | h1
  · refine ⟨by unfold emit; rw [h1], by rw [h1]; simp, ?_, fun _ => h2⟩
    rcases h2 with h2 | h2
    · unfold isLowerLDH at h2; omega
    · omega
  · unfold Tr46Valid at h
    rw [h1] at h
    simp at h
  · unfold Tr46Valid at h
    rw [h1] at h
    simp at h
    subst h
    refine ⟨by unfold emit; rw [h1]; rfl, by rw [h1]; simp, ?_, by simp⟩
    intro h3
    rw [(hD.upper c h3.1 h3.2).1] at h1
    cases h1

theorem encode_mem {u : List Nat} {c : Nat} (h : c ∈ Punycode.encode u) :
    (c ∈ u ∧ c < 0x80) ∨ isLowerLDH c := by
  rw [encode_eq_head, List.mem_append, headOf, List.mem_append] at h
  rcases h with (h | h) | h
  · unfold Punycode.basics at h
    simp at h
    exact Or.inl h
  · split at h
    · cases h
    · simp at h; subst h; exact Or.inr (Or.inr (Or.inr rfl))
  · obtain ⟨k, hk, rfl⟩ := List.mem_map.mp h
    exact Or.inr (digitChar_lower (codes_lt _ _ k hk))

theorem lowerLDH_valid {D : Data} (hD : D.Laws) {c : Nat} (h : isLowerLDH c) (tr allow : Bool) :
    Tr46Valid D tr allow c := Or.inl (hD.ldh c h).1

theorem plain_nodot {D : Data} {U : Uni} {flags : Nat} {d : List Nat}
    (h : ∀ e, ¬ Fault D U (tr46Tests flags) d e) :
    ∀ c ∈ d, Tr46Valid D false (!flags.testBit 5) c := (tr46A_char (tr46Tests_weaken h)).1

/-- The characters of a result of UTS #46 processing. -/
theorem result_chars {E : Env} {D : Data} (W : World E D) {flags : Nat} {s n : List Nat}
    (h0 : 0 ∉ s) (h6 : flags.testBit 6 = false) (h7 : flags.testBit 7 = false)
    (h : LookupOk E flags s n) :
    ∀ c ∈ n, c < 0x80 ∧ Tr46Valid D false (!flags.testBit 5) c := by
  intro c hc
  have hlt : c < 0x80 := by have := C08_lookup_ascii W h0 h c hc; omega
  refine ⟨hlt, ?_⟩
  rw [← joinDot_splitDot n] at hc
  rcases mem_joinDot hc with rfl | ⟨d, hd, hcd⟩
  · exact Or.inl W.data.dot.1
  · rcases (result_labels W h0 h7 h).2 d hd with hp | ⟨u, hb, rfl⟩
    · exact plain_nodot (hp.tr46 h6) c hcd
    · rcases List.mem_append.mp hcd with hc | hc
      · apply lowerLDH_valid W.data
        unfold xn at hc; unfold isLowerLDH; simp at hc; omega
      · rcases encode_mem hc with hc | hc
        · exact (tr46A_char (hb.tr46 h6)).1 c hc.1
        · exact lowerLDH_valid W.data hc _ _

/-- C34.  With UTS #46 processing, STD3 rules (bit 5) and A-labels being checked, the result
consists of lower-case letters, digits, hyphens and full stops. -/
theorem C34_std3_alphabet {E : Env} {D : Data} (W : World E D) {flags : Nat} {s n : List Nat}
    (h0 : 0 ∉ s) (h5 : flags.testBit 5 = true) (h6 : flags.testBit 6 = false)
    (h7 : flags.testBit 7 = false) (h : LookupOk E flags s n) :
    ∀ c ∈ n, isLowerLDH c ∨ c = 0x2E := by
  intro c hc
  obtain ⟨hlt, hv⟩ := result_chars W h0 h6 h7 h c hc
  exact (ascii_valid W.data hlt hv).2.2.2 h5

-- "A_b": the underscore is kept without STD3 rules and dropped with them
example : LookupOk Sample.E 0 [0x41, 0x5F, 0x62] [0x61, 0x5F, 0x62] ∧
    LookupOk Sample.E 32 [0x41, 0x5F, 0x62] [0x61, 0x62] := by decide +kernel

/-! ### C12: idempotence -/

theorem labelTo_self {D : Data} {U : Uni} {flags : Nat} (h7 : flags.testBit 7 = false)
    {u : List Nat} (hb : Behind D U flags u) :
    Decodes (Punycode.encode u) u ∧
      LabelTo D U flags (xn ++ Punycode.encode u) (xn ++ Punycode.encode u) := by
  have hl := length_le_encode (scalar_lt hb.scalar)
  have hlen := hb.length
  have hd := decodes_iff.mp (decode_encode (phys := 63) (cap := 63) (by omega) (by omega) hb.ascii
    (encodable_scalar hb.scalar) hb.nonascii (by omega))
  exact ⟨hd, .alabel _ u h7 rfl hd hb.scalar hb.tests rfl hlen⟩

theorem ace_scalar_ascii {D : Data} {U : Uni} {flags : Nat} {d : List Nat}
    (h : Plain D U flags d ∨ ∃ u, Behind D U flags u ∧ d = xn ++ Punycode.encode u) :
    ∀ c ∈ d, c < 0x80 := by
  rcases h with hp | ⟨u, hb, rfl⟩
  · exact hp.ascii
  · intro c hc
    rcases List.mem_append.mp hc with hc | hc
    · unfold xn at hc; simp at hc; omega
    · rcases encode_mem hc with h | h
      · exact h.2
      · unfold isLowerLDH at h; omega

theorem ascii_utf8s {u : List Nat} (h : ∀ c ∈ u, c < 0x80) : utf8s u = u := by
  have h8 := u8Encode_utf8s (u := u) (fun c hc => by have := h c hc; unfold isScalar; omega)
  rw [u8Encode_ascii h] at h8
  injection h8 with h8
  exact h8.symm

/-- C12.  With A-labels being checked (bit 7 off), lookup of a result gives the same result
again. -/
theorem C12_idempotent {E : Env} {D : Data} (W : World E D) {flags : Nat} {s n : List Nat}
    (h0 : 0 ∉ s) (h7 : flags.testBit 7 = false) (h : LookupOk E flags s n) :
    LookupOk E flags n n := by
  have hasc : ∀ c ∈ n, c < 0x80 := fun c hc => by have := C08_lookup_ascii W h0 h c hc; omega
  have hn0 : 0 ∉ n := fun hc => by have := C08_lookup_ascii W h0 h 0 hc; omega
  have hns : ∀ c ∈ n, isScalar c := fun c hc => by have := hasc c hc; unfold isScalar; omega
  obtain ⟨hlen, hres⟩ := result_labels W h0 h7 h
  obtain ⟨f, hf, _⟩ := lookupF_ok_iff.mp ((LookupOk_iff W h0).mp h)
  have hconf : ¬ Conflict flags := by
    intro hc
    rw [set_default_flags_eq, if_pos hc] at hf
    cases hf
  have hlab : ∀ d ∈ splitDot n, LabelTo D E.U flags d d := by
    intro d hd
    rcases hres d hd with hp | ⟨u, hb, rfl⟩
    · exact .ascii hp.ascii (fun hx => hp.noxn hx.2) hp.length
    · exact (labelTo_self h7 hb).2
  by_cases hb : flags.testBit 0 = true ∧ flags.testBit 6 = true
  · -- the label step directly
    have h6f : has f IDN2_NO_TR46 = true := by
      rw [set_default_flags_bits hf _ (by decide), (flag_bits flags).2.2.2.2.2.1, hb.2]
    have h2 : flags.testBit 2 = false := by
      cases h2 : flags.testBit 2 with
      | false => rfl
      | true => exact absurd (Or.inr (Or.inl ⟨hb.2, Or.inl h2⟩)) hconf
    rw [LookupOk_iff W hn0, lookupF_ok_iff]
    refine ⟨f, hf, lookupP_ok_iff.mpr ⟨n, splitDot n, by rw [if_pos h6f], ?_,
      (joinDot_splitDot n).symm, hlen⟩⟩
    have key := (labels_iff (ds := splitDot n) W hf hns hn0 (fun l hl => Or.inr ⟨
      W.uni.nfc_ascii l (ace_scalar_ascii (hres l hl)), ?_⟩)).mpr (each_refl hlab)
    · rwa [ascii_utf8s hasc] at key
    · rintro t u rfl hd
      rcases hres _ hl with hp | ⟨v, hb', he⟩
      · exact absurd ⟨t, rfl⟩ hp.noxn
      · have := List.append_cancel_left he
        subst this
        have h1 := decodes_iff.mpr hd
        rw [decodes_iff.mpr (labelTo_self h7 hb').1] at h1
        injection h1 with h1
        subst h1
        refine fault_free_nfc ?_ hb'.tests
        unfold labelTests
        rw [h2]
        cases flags.testBit 5 <;> cases flags.testBit 6 <;> decide
  · rw [C48_lookup_spec W hn0 hb]
    refine ⟨hconf, n, hns, (ascii_utf8s hasc).symm, n, splitDot n, ?_, each_refl hlab,
      (joinDot_splitDot n).symm, hlen⟩
    unfold Processed
    cases h6 : flags.testBit 6 with
    | true => rfl
    | false =>
      simp only [Bool.false_eq_true, ↓reduceIte]
      have hch := result_chars W h0 h6 h7 h
      have hself : n.flatMap (emit D (flags.testBit 2) (flags.testBit 5)) = n := by
        apply flatMap_self
        intro c hc
        obtain ⟨hlt, hv⟩ := hch c hc
        have := (ascii_valid W.data hlt hv)
        rcases ascii_cases W.data hlt with ⟨h1, _⟩ | ⟨h1, h2⟩ | h1
        · unfold emit; rw [h1]
        · exact absurd h2 this.2.2.1
        · have := this.1
          unfold emit at this ⊢
          rw [h1] at this ⊢
          exact this
      rw [hself]
      refine ⟨fun c hc => (ascii_valid W.data (hch c hc).1 (hch c hc).2).2.1, ?_,
        W.uni.nfc_ascii n hasc, ?_⟩
      · unfold nameLimit at hlen
        split at hlen <;> omega
      · intro d hd
        rcases hres d hd with hp | ⟨u, hb', rfl⟩
        · exact .ulabel hp.noxn (hp.tr46 h6)
        · exact .alabel _ u rfl (labelTo_self h7 hb').1 (hb'.tr46 h6)

-- "Fä.xn--F-0FA" gives "xn--f-0fa.xn--f-0fa", which stays
example : LookupOk Sample.E 0 [0x46, 0xC3, 0xA4, 0x2E, 0x78, 0x6E, 0x2D, 0x2D, 0x46, 0x2D, 0x30, 0x46, 0x41]
      [0x78, 0x6E, 0x2D, 0x2D, 0x66, 0x2D, 0x30, 0x66, 0x61, 0x2E,
       0x78, 0x6E, 0x2D, 0x2D, 0x66, 0x2D, 0x30, 0x66, 0x61] := by decide +kernel

-- with IDN2_NO_ALABEL_ROUNDTRIP (128) the result for " ä" is refused when looked up again
example : LookupOk Sample.E 128 [0x20, 0xC3, 0xA4] [0x78, 0x6E, 0x2D, 0x2D, 0x20, 0x2D, 0x30, 0x66, 0x61] ∧
    LookupErr Sample.E 128 [0x78, 0x6E, 0x2D, 0x2D, 0x20, 0x2D, 0x30, 0x66, 0x61] .punycodeBadInput := by
  decide +kernel

end Idn2
