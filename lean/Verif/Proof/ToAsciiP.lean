import Verif.Spec.ToAscii
import Verif.Props.Register

/-
The closed form of lookup is the declarative account of it.
-/

namespace Idn2
open Spec

/-! ### Encodings of labels with any ASCII characters -/

/-- Replace every ASCII character. -/
def blank (c : Nat) : Nat := if c < 0x80 then 0x61 else c

theorem insertionsAt_blank {m : Nat} (hm : 0x80 ≤ m) (u : List Nat) (seen : Nat) :
    Punycode.insertionsAt m seen (u.map blank) = Punycode.insertionsAt m seen u := by
  induction u generalizing seen with
  | nil => rfl
  | cons x r ih =>
    simp only [List.map_cons, Punycode.insertionsAt, ih]
    unfold blank
    by_cases hx : x < 0x80
    · rw [if_pos hx, if_neg (by omega), if_pos (by omega), if_neg (by omega), if_pos (by omega)]
    · rw [if_neg hx]

theorem insertions_blank (u : List Nat) :
    Punycode.insertions (u.map blank) = Punycode.insertions u := by
  have : ∀ L : List Nat, (∀ m ∈ L, 0x80 ≤ m) →
      (L.flatMap fun m => Punycode.insertionsAt m 0 (u.map blank)) =
        L.flatMap fun m => Punycode.insertionsAt m 0 u := by
    intro L hL
    induction L with
    | nil => rfl
    | cons m L ih =>
      rw [List.flatMap_cons, List.flatMap_cons, insertionsAt_blank (hL m List.mem_cons_self),
        ih fun x hx => hL x (List.mem_cons_of_mem _ hx)]
  unfold Punycode.insertions Punycode.insertionsFrom
  apply this
  intro m hm
  have := List.mem_range'_1.mp hm
  omega

theorem basics_blank (u : List Nat) :
    (Punycode.basics (u.map blank)).length = (Punycode.basics u).length := by
  unfold Punycode.basics
  induction u with
  | nil => rfl
  | cons x r ih =>
    simp only [List.map_cons]
    by_cases hx : x < 0x80
    · have : blank x < 0x80 := by unfold blank; rw [if_pos hx]; omega
      rw [List.filter_cons_of_pos (by simpa using this), List.filter_cons_of_pos (by simpa using hx)]
      simp [ih]
    · have : ¬ blank x < 0x80 := by unfold blank; rw [if_neg hx]; exact hx
      rw [List.filter_cons_of_neg (by simpa using this), List.filter_cons_of_neg (by simpa using hx),
        ih]

theorem encode_blank_length (u : List Nat) :
    (Punycode.encode (u.map blank)).length = (Punycode.encode u).length := by
  have hb := basics_blank u
  have hnil : Punycode.basics (u.map blank) = [] ↔ Punycode.basics u = [] := by
    rw [← List.length_eq_zero_iff, hb, List.length_eq_zero_iff]
  unfold Punycode.encode Punycode.headPart
  rw [hb, insertions_blank]
  simp only [List.length_append, hb, hnil]

theorem encode_ok_any {phys cap : Nat} {u : List Nat} (hp : cap ≤ phys)
    (h64 : cap < 18446744073709551616) (henc : Punycode.Encodable u)
    (hna : ∃ c ∈ u, 0x80 ≤ c) (hu : u.length ≤ 3855) (hcap : (Punycode.encode u).length ≤ cap) :
    punycode_encode phys cap u = .ok (Punycode.encode u) := by
  have hb : punycode_encode phys cap (u.map blank) = .ok (Punycode.encode (u.map blank)) := by
    apply encode_ok hp h64
    · intro c hc hlt
      obtain ⟨x, _, rfl⟩ := List.mem_map.mp hc
      unfold blank at hlt ⊢
      split
      · unfold isLDHU; omega
      · rename_i h; rw [if_neg h] at hlt; omega
    · intro c hc
      obtain ⟨x, hx, rfl⟩ := List.mem_map.mp hc
      have := henc x hx
      unfold blank
      split <;> omega
    · obtain ⟨c, hc, hge⟩ := hna
      refine ⟨c, List.mem_map.mpr ⟨c, hc, ?_⟩, hge⟩
      unfold blank; rw [if_neg (by omega)]
    · simpa using hu
    · rw [encode_blank_length]; exact hcap
  obtain ⟨_, hl, _, hd, _⟩ := (C04_encode_correct _ _ hp h64).mp hb
  refine (C04_encode_correct _ _ hp h64).mpr ⟨rfl, by simpa using hl, henc, ?_, hcap⟩
  unfold Punycode.allDeltas at hd ⊢
  rwa [insertions_blank, basics_blank] at hd

/-! ### Flags -/

theorem labelMask_eq {flags f : Nat} (hf : set_default_flags flags = .ok f)
    (hb : flags.testBit 2 = false) : labelMask f = labelTests flags := by
  have h5 : has f IDN2_USE_STD3_ASCII_RULES = flags.testBit 5 := by
    rw [set_default_flags_bits hf _ (by decide), (flag_bits flags).2.2.2.2.1]
  have h3 : has f IDN2_NONTRANSITIONAL = !flags.testBit 6 := by
    rw [set_default_flags_eq] at hf
    by_cases hc : Conflict flags
    · rw [if_pos hc] at hf; cases hf
    · rw [if_neg hc] at hf
      rw [hb] at hf
      rw [(flag_bits f).2.2.2.1]
      cases h6 : flags.testBit 6 with
      | false =>
        rw [h6] at hf
        simp at hf
        rw [← hf, Nat.testBit_or, show IDN2_NONTRANSITIONAL = 2 ^ 3 from rfl, Nat.testBit_two_pow]
        simp
      | true =>
        rw [h6] at hf
        simp at hf
        rw [← hf]
        unfold Conflict at hc
        rw [h6] at hc
        cases h3 : flags.testBit 3 with
        | false => rfl
        | true => simp [h3] at hc
  unfold labelMask labelTests
  rw [h3, h5, hb]
  cases flags.testBit 6 <;> cases flags.testBit 5 <;> decide

theorem labelTestIf_ok_iff {E : Env} {D : Data} (W : World E D) {flags f : Nat}
    (hf : set_default_flags flags = .ok f) {p : List Nat} (hp : ∀ c ∈ p, isScalar c) :
    labelTestIf E f p = .ok () ↔ ∀ e, ¬ Fault D E.U (labelTests flags) p e := by
  have h2 : has f IDN2_TRANSITIONAL = flags.testBit 2 := by
    rw [set_default_flags_bits hf _ (by decide), (flag_bits flags).2.2.1]
  unfold labelTestIf
  rw [h2]
  cases hb : flags.testBit 2 with
  | true =>
    simp only [↓reduceIte, true_iff]
    intro e h
    unfold labelTests at h
    rw [hb] at h
    cases h <;> simp_all
  | false =>
    simp only [Bool.false_eq_true, ↓reduceIte]
    rw [labelTestP_ok_iff W.tables (fun c hc => isScalar_le (hp c hc)), labelMask_eq hf hb]

theorem tr46Mask_eq {flags f : Nat} (hf : set_default_flags flags = .ok f) :
    tr46Mask f = tr46Tests flags ∧ addStd3 f TR46_NONTRANSITIONAL_CHECK = tr46TestsA flags := by
  have h2 : has f IDN2_TRANSITIONAL = flags.testBit 2 := by
    rw [set_default_flags_bits hf _ (by decide), (flag_bits flags).2.2.1]
  have h5 : has f IDN2_USE_STD3_ASCII_RULES = flags.testBit 5 := by
    rw [set_default_flags_bits hf _ (by decide), (flag_bits flags).2.2.2.2.1]
  unfold tr46Mask addStd3 tr46Tests tr46TestsA
  rw [h2, h5]
  cases flags.testBit 2 <;> cases flags.testBit 5 <;> decide

/-! ### Decoding -/

theorem decodes_iff {t u : List Nat} : punycode_decode 63 63 t = .ok u ↔ Decodes t u := by
  rw [decode_iff (by omega) (by omega)]
  exact ⟨fun ⟨h1, h2, h3, h4, h5⟩ => ⟨h1, h2, h3, h4, h5⟩,
    fun ⟨h1, h2, h3, h4, h5⟩ => ⟨h1, h2, h3, h4, h5⟩⟩

theorem c_tolower_eq : c_tolower = asciiLower := rfl

theorem prefix_iff {l : List Nat} : xn <+: l ↔ ∃ t, l = acePrefix ++ t := by
  unfold xn acePrefix
  exact ⟨fun ⟨t, h⟩ => ⟨t, h.symm⟩, fun ⟨t, h⟩ => ⟨t, h.symm⟩⟩

theorem take_ace_iff {l : List Nat} : (l.length ≥ 4 ∧ l.take 4 = acePrefix) ↔ xn <+: l := by
  rw [prefix_iff]
  constructor
  · rintro ⟨_, h⟩
    exact ⟨l.drop 4, by rw [← h, List.take_append_drop]⟩
  · rintro ⟨t, rfl⟩
    simp [acePrefix]

theorem asOpt_none {r : Res Unit} : asOpt r = .ok none ↔ r = .ok () := by
  cases r <;> simp [asOpt]

theorem LDHU_lt {c : Nat} (h : isLDHU c) : c < 0x80 := by unfold isLDHU at h; omega

theorem encodable_le {u : List Nat} (h : Punycode.Encodable u) : ∀ c ∈ u, c ≤ 0x10FFFF :=
  fun c hc => (h c hc).1

/-- One label in UTS #46 processing. -/
theorem tr46LabelP_iff {E : Env} {D : Data} (W : World E D) {flags f : Nat}
    (hf : set_default_flags flags = .ok f) {l : List Nat} (hl : ∀ c ∈ l, isScalar c) :
    tr46LabelP E f l = .ok none ↔ Tr46Label D E.U flags l := by
  obtain ⟨hm, hmA⟩ := tr46Mask_eq hf
  unfold tr46LabelP
  by_cases hx : xn <+: l
  · rw [if_pos (take_ace_iff.mpr hx)]
    obtain ⟨t, rfl⟩ := prefix_iff.mp hx
    have hdrop : (acePrefix ++ t).drop 4 = t := by simp [acePrefix]
    rw [hdrop]
    have hts : ∀ c ∈ t, isScalar c := fun c hc => hl c (List.mem_append_right _ hc)
    rw [u8Encode_utf8s hts]
    simp only [Res.bind_eq_ok, asOpt_none, hmA]
    constructor
    · rintro ⟨u, hd, ht⟩
      have hd' := decodes_iff.mp hd
      have hta : ∀ c ∈ t, c < 0x80 := by
        have h8 := u8Encode_utf8s hts
        exact (u8Encode_all_ascii h8).mp fun c hc => LDHU_lt (hd'.chars c hc)
      have h8 := u8Encode_utf8s hts
      rw [u8Encode_ascii hta] at h8
      injection h8 with h8
      rw [← h8] at hd'
      exact .alabel t u rfl hd' ((labelTestP_ok_iff W.tables (encodable_le hd'.encodable) _).mp ht)
    · rintro (⟨t', u, h1, hd, ht⟩ | ⟨h, _⟩)
      · have := List.append_cancel_left h1
        subst this
        refine ⟨u, ?_, (labelTestP_ok_iff W.tables (encodable_le hd.encodable) _).mpr ht⟩
        have h8 := u8Encode_utf8s hts
        rw [u8Encode_ascii fun c hc => LDHU_lt (hd.chars c hc)] at h8
        injection h8 with h8
        rw [← h8]
        exact decodes_iff.mpr hd
      · exact absurd hx h
  · rw [if_neg (fun h => hx (take_ace_iff.mp h)), asOpt_none, hm,
      labelTestP_ok_iff W.tables (fun c hc => isScalar_le (hl c hc))]
    constructor
    · exact fun h => .ulabel hx h
    · rintro (⟨t, u, rfl, _⟩ | ⟨_, h⟩)
      · exact absurd ⟨t, rfl⟩ hx
      · exact h

/-- One label in `label`, when normalising changes nothing. -/
theorem labelP_iff {E : Env} {D : Data} (W : World E D) {flags f : Nat}
    (hf : set_default_flags flags = .ok f) {l d : List Nat} (hl : ∀ c ∈ l, isScalar c)
    (h0 : 0 ∉ l)
    (hn : flags.testBit 0 = false ∨ (E.U.nfc l = some l ∧
      ∀ t u, l = xn ++ t → Decodes t u → E.U.nfc u = some u)) :
    labelP E (utf8s l) f = .ok d ↔ LabelTo D E.U flags l d := by
  have hs0 : 0 ∉ utf8s l := zero_mem_utf8s h0
  have h7 : has f IDN2_NO_ALABEL_ROUNDTRIP = flags.testBit 7 := by
    rw [set_default_flags_bits hf _ (by decide), (flag_bits flags).2.2.2.2.2.2]
  have hb0 : has f IDN2_NFC_INPUT = flags.testBit 0 := by
    rw [set_default_flags_bits hf _ (by decide), (flag_bits flags).1]
  have hnfc : u8nfcP E (utf8s l) (has f IDN2_NFC_INPUT) = .ok l := by
    rcases hn with h | h
    · rw [hb0, h]; exact u8nfcP_false E hl
    · exact u8nfcP_stable W hl h.1 _
  have hnfcA : ∀ t u, l = xn ++ t → Decodes t u → (∀ c ∈ u, isScalar c) →
      u8nfcP E (utf8s u) (has f IDN2_NFC_INPUT) = .ok u := by
    intro t u h1 h2 hu
    rcases hn with h | h
    · rw [hb0, h]; exact u8nfcP_false E hu
    · exact u8nfcP_stable W hu (h.2 t u h1 h2) _
  have hasc : (∀ c ∈ utf8s l, c < 0x80) ↔ ∀ c ∈ l, c < 0x80 :=
    (u8Encode_all_ascii (u8Encode_utf8s hl))
  have hself : (∀ c ∈ l, c < 0x80) → utf8s l = l := by
    intro h
    have h8 := u8Encode_utf8s hl
    rw [u8Encode_ascii h] at h8
    injection h8 with h8
    exact h8.symm
  rw [labelP_ok_iff W.tables W.uni hs0]
  constructor
  · rintro (⟨h1, h2, h3, rfl⟩ | ⟨h1, h2, t, u, src8, p, enc, h3, h4, h5, h6, hc, rfl, hlow⟩ |
      ⟨h1, p, enc, h2, hc, rfl⟩)
    · have ha := hasc.mp h1
      have hsl := hself ha
      rw [hsl] at h2 h3 ⊢
      refine .ascii ha ?_ h3
      rintro ⟨h71, hx⟩
      have := isAce_iff.mpr ⟨h7.trans h71, prefix_iff.mp hx⟩
      rw [h2] at this; cases this
    · have ha := hasc.mp h1
      rw [hself ha] at h3
      have hd := decodes_iff.mp h4
      obtain ⟨hu, rfl⟩ := u8Encode_some_iff.mp h5
      rw [hnfcA t u h3 hd hu] at h6
      injection h6 with h6
      subst h6
      obtain ⟨rfl, _, _, _, hcap⟩ := (C04_encode_correct _ _ (by omega) (by omega)).mp hc.encode
      have hlen : t.length = (Punycode.encode u).length := by
        rw [← lowerS_length t, hlow, lowerS_length]
      exact .alabel t u (h7 ▸ h2) h3 hd hu ((labelTestIf_ok_iff W hf hu).mp hc.test) hlow
        (by omega)
    · rw [hnfc] at h2
      injection h2 with h2
      subst h2
      obtain ⟨rfl, _, _, _, hcap⟩ := (C04_encode_correct _ _ (by omega) (by omega)).mp hc.encode
      have hna : ∃ c ∈ l, 0x80 ≤ c := by
        apply Classical.byContradiction
        intro hn
        apply h1
        rw [hasc]
        intro c hc
        apply Classical.byContradiction
        intro hlt
        exact hn ⟨c, hc, by omega⟩
      refine .ulabel hna ((labelTestIf_ok_iff W hf hl).mp hc.test) ?_ hcap
      intro h71 c hcl hlt
      have hd := decodes_iff.mp (hc.dec (h7.trans h71))
      exact hd.chars c ((enc_shape (by omega) (by omega) hc.encode).keep c hcl hlt)
  · rintro (⟨h1, h2, h3⟩ | ⟨t, u, h1, h2, h3, h4, h5, h6, h7'⟩ | ⟨h1, h2, h3, h4⟩)
    · left
      rw [hself h1]
      refine ⟨h1, ?_, h3, rfl⟩
      rw [Bool.eq_false_iff]
      intro hace
      obtain ⟨h8, h9⟩ := isAce_iff.mp hace
      exact h2 ⟨h7 ▸ h8, prefix_iff.mpr h9⟩
    · right; left
      have hta : ∀ c ∈ t, c < 0x80 := fun c hc => LDHU_lt (h3.chars c hc)
      have hla : ∀ c ∈ l, c < 0x80 := by
        rw [h2]
        intro c hc
        rcases List.mem_append.mp hc with hc | hc
        · unfold xn at hc; simp at hc; omega
        · exact hta c hc
      have hlen : t.length = (Punycode.encode u).length := by
        have := congrArg List.length h6; simpa using this
      have hul := h3.length
      have hle := length_le_encode (scalar_lt h4)
      have henc : punycode_encode 59 59 u = .ok (Punycode.encode u) :=
        encode_ok_any (by omega) (by omega) h3.encodable h3.nonascii (by omega) (by omega)
      refine ⟨hasc.mpr hla, h7.trans h1, t, u, utf8s u, u, Punycode.encode u, ?_,
        decodes_iff.mpr h3, u8Encode_utf8s h4, hnfcA t u h2 h3 h4,
        ⟨h4, (labelTestIf_ok_iff W hf h4).mpr h5, henc,
          fun _ => redecode (decodes_iff.mpr h3) henc h6⟩, rfl, h6⟩
      rw [hself hla]; exact h2
    · right; right
      have hle := length_le_encode (scalar_lt hl)
      have hnasc : ¬ ∀ c ∈ utf8s l, c < 0x80 := by
        rw [hasc]
        intro h
        obtain ⟨c, hc, hge⟩ := h1
        have := h c hc
        omega
      refine ⟨hnasc, l, Punycode.encode l, hnfc, ⟨hl, (labelTestIf_ok_iff W hf hl).mpr h2,
        encode_ok_any (by omega) (by omega) (encodable_scalar hl) h1 (by omega) h4, ?_⟩, rfl⟩
      intro h71
      exact decode_encode (by omega) (by omega) (h3 (h7 ▸ h71)) (encodable_scalar hl) h1 (by omega)

end Idn2
