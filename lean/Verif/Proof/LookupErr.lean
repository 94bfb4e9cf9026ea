import Verif.Props.ToAscii
import Verif.Props.RegisterIff
import Verif.Spec.ToAsciiErr
import Verif.Props.PunyEncode
import Verif.Proof.FirstFault
import Verif.Props.ToUnicode

/-
The error codes of the closed forms of lookup.
-/

namespace Idn2
open Spec

/-! ### The label loop -/

theorem loopL_err_aux {E : Env} {flags : Nat} {ls : List (List Nat)} {e : Rc} (name : List Nat) :
    loopL E flags ls name = .err e ↔ ∃ pre l post ds, ls = pre ++ l :: post ∧
      Each (fun l d => labelP E l flags = .ok d) pre ds ∧
      (ds ≠ [] → (name ++ joinDot ds).length ≤ 253) ∧
      (labelP E l flags = .err e ∨ ∃ d, labelP E l flags = .ok d ∧ e = .tooBigDomain ∧
        (if post = [] ∧ d = [] then 254 else 253) < (name ++ joinDot (ds ++ [d])).length) := by
  induction ls generalizing name with
  | nil =>
    constructor
    · intro h; cases h
    · rintro ⟨pre, l, post, ds, h, _⟩
      simp at h
  | cons l ls ih =>
    by_cases hls : ls = []
    · subst hls
      simp only [loopL]
      constructor
      · intro h
        refine ⟨[], l, [], [], rfl, .nil, by simp, ?_⟩
        cases hd : labelP E l flags with
        | ub => rw [hd] at h; cases h
        | err e' => rw [hd] at h; injection h with h; left; rw [h]
        | ok d =>
          rw [hd, Res.bind_ok] at h
          right
          refine ⟨d, rfl, ?_⟩
          by_cases hc : name.length + d.length > 255 - (if d.length = 0 then 1 else 2)
          · rw [if_pos hc] at h
            injection h with h
            refine ⟨h.symm, ?_⟩
            simp only [List.nil_append, joinDot, List.length_append, true_and]
            by_cases hd0 : d = []
            · subst hd0; simp only [List.length_nil, ↓reduceIte] at hc ⊢; omega
            · rw [if_neg (by simpa using hd0)] at hc
              rw [if_neg hd0]; omega
          · rw [if_neg hc] at h; cases h
      · rintro ⟨pre, l', post, ds, h1, h2, _, h4⟩
        cases pre with
        | cons x pre => simp at h1
        | nil =>
          injection h1 with h1 h5
          subst h1; subst h5
          cases h2
          rcases h4 with h4 | ⟨d, hd, rfl, hlt⟩
          · rw [h4]; rfl
          · rw [hd, Res.bind_ok, if_pos]
            simp only [List.nil_append, joinDot, List.length_append, true_and] at hlt
            by_cases hd0 : d = []
            · subst hd0; simp only [List.length_nil, ↓reduceIte] at hlt ⊢; omega
            · rw [if_neg (by simpa using hd0)]
              rw [if_neg hd0] at hlt; omega
    · rw [loopL_cons hls]
      constructor
      · intro h
        cases hd : labelP E l flags with
        | ub => rw [hd] at h; cases h
        | err e' =>
          rw [hd] at h
          injection h with h
          exact ⟨[], l, ls, [], rfl, .nil, by simp, Or.inl (by rw [hd, h])⟩
        | ok d =>
          rw [hd, Res.bind_ok] at h
          split at h
          · rename_i hc
            injection h with h
            refine ⟨[], l, ls, [], rfl, .nil, by simp, Or.inr ⟨d, hd, h.symm, ?_⟩⟩
            rw [if_neg (fun h => hls h.1)]
            simp only [List.nil_append, joinDot, List.length_append]
            omega
          · rename_i hc
            obtain ⟨pre, l', post, ds, h1, h2, h3, h4⟩ := (ih _).mp h
            refine ⟨l :: pre, l', post, d :: ds, by rw [h1]; rfl, .cons hd h2, ?_, ?_⟩
            · intro _
              by_cases hds : ds = []
              · subst hds; simp only [joinDot, List.length_append]; omega
              · have := h3 hds
                rw [joinDot_cons hds]
                simp only [List.append_assoc, List.singleton_append] at this
                exact this
            · rcases h4 with h4 | ⟨d', g1, g2, g3⟩
              · exact Or.inl h4
              · right
                refine ⟨d', g1, g2, ?_⟩
                rw [List.cons_append, joinDot_cons (by simp)]
                simp only [List.append_assoc, List.singleton_append] at g3
                exact g3
      · rintro ⟨pre, l', post, ds, h1, h2, h3, h4⟩
        cases pre with
        | nil =>
          injection h1 with h1 h5
          subst h1; subst h5
          cases h2
          rcases h4 with h4 | ⟨d, hd, rfl, hlt⟩
          · rw [h4]; rfl
          · rw [hd, Res.bind_ok, if_pos]
            rw [if_neg (fun h => hls h.1)] at hlt
            simp only [List.nil_append, joinDot, List.length_append] at hlt
            omega
        | cons x pre =>
          injection h1 with h1 h5
          subst h1
          cases h2 with
          | cons hd h2 =>
            rename_i d ds
            rw [hd, Res.bind_ok]
            have h3 := h3 (by simp)
            have hj : d.length ≤ (joinDot (d :: ds)).length := length_le_joinDot List.mem_cons_self
            rw [List.length_append] at h3
            rw [if_neg (by omega)]
            refine (ih _).mpr ⟨pre, l', post, ds, h5, h2, ?_, ?_⟩
            · intro hds
              rw [joinDot_cons hds] at h3
              simp only [List.length_append, List.length_cons, List.length_nil] at h3 ⊢
              omega
            · rcases h4 with h4 | ⟨d', g1, g2, g3⟩
              · exact Or.inl h4
              · right
                refine ⟨d', g1, g2, ?_⟩
                rw [List.cons_append, joinDot_cons (by simp)] at g3
                simp only [List.append_assoc, List.singleton_append]
                exact g3

theorem loopL_err_iff {E : Env} {flags : Nat} {ls : List (List Nat)} {e : Rc} :
    loopL E flags ls [] = .err e ↔ FirstErr (fun l d => labelP E l flags = .ok d)
      (fun l e => labelP E l flags = .err e) ls e := by
  rw [loopL_err_aux]
  constructor
  · rintro ⟨pre, l, post, ds, h1, h2, h3, h4⟩
    refine ⟨pre, l, post, ds, h1, h2, ?_, h4⟩
    by_cases hds : ds = []
    · subst hds; simp [joinDot]
    · exact h3 hds
  · rintro ⟨pre, l, post, ds, h1, h2, h3, h4⟩
    exact ⟨pre, l, post, ds, h1, h2, fun _ => h3, h4⟩

/-! ### One label -/

theorem c_strncasecmp_not_err (n : Nat) (a b : List Nat) (e : Rc) : c_strncasecmp n a b ≠ .err e := by
  induction n generalizing a b with
  | zero => simp [c_strncasecmp]
  | succ n ih =>
    cases a <;> cases b <;> simp only [c_strncasecmp] <;> try simp
    split
    · simp
    · split
      · exact ih _ _
      · simp

theorem labelTestIf_err {E : Env} {D : Data} (W : World E D) {flags f : Nat}
    (hf : set_default_flags flags = .ok f) {p : List Nat} (hp : ∀ c ∈ p, isScalar c) {e : Rc}
    (h : labelTestIf E f p = .err e) : FirstFault D E.U (labelTests flags) p e := by
  have h2 : has f IDN2_TRANSITIONAL = flags.testBit 2 := by
    rw [set_default_flags_bits hf _ (by decide), (flag_bits flags).2.2.1]
  unfold labelTestIf at h
  rw [h2] at h
  cases hb : flags.testBit 2 with
  | true => rw [hb] at h; cases h
  | false =>
    rw [hb] at h
    simp only [Bool.false_eq_true, ↓reduceIte] at h
    rw [labelMask_eq hf hb] at h
    exact (labelTestP_first W.tables fun c hc => isScalar_le (hp c hc)).mp h

/-- The encoder's error for a label that is too long. -/
theorem encode_fail {phys : Nat} {v : List Nat} {e : Rc} (hp : 59 ≤ phys)
    (hE : Punycode.Encodable v) (h : punycode_encode phys 59 v = .err e) : TooLong v e := by
  refine ⟨?_, ?_⟩
  · apply Classical.byContradiction
    intro hn
    rw [encode_ok_short hp (by omega) hE (by omega)] at h
    cases h
  · split
    · rename_i hv
      rcases C55_encode_error hp (by omega) h with ⟨h1, _⟩ | ⟨_, h1⟩ | ⟨h1, _⟩
      · subst h1
        exact absurd h (C63_no_overflow hp (by omega) (by omega))
      · exact absurd hE h1
      · exact h1
    · rename_i hv
      have := (C63_encode_exact (phys := phys) (cap := 59) v (.error .punycodeOverflow) hp
        (by omega)).mp (.long (by unfold Punycode.max32; omega))
      rw [h] at this
      injection this

theorem labelP_err {E : Env} {D : Data} (W : World E D) {flags f : Nat}
    (hf : set_default_flags flags = .ok f) {l : List Nat} {e : Rc} (hl : ∀ c ∈ l, isScalar c)
    (h0 : 0 ∉ l)
    (hn : flags.testBit 0 = false ∨ (E.U.nfc l = some l ∧
      ∀ t u, l = xn ++ t → Decodes t u → E.U.nfc u = some u))
    (h : labelP E (utf8s l) f = .err e) : LabelErr D E.U flags l e := by
  have hs0 : 0 ∉ utf8s l := zero_mem_utf8s h0
  have h7 : has f IDN2_NO_ALABEL_ROUNDTRIP = flags.testBit 7 := by
    rw [set_default_flags_bits hf _ (by decide), (flag_bits flags).2.2.2.2.2.2]
  have hb0 : has f IDN2_NFC_INPUT = flags.testBit 0 := by
    rw [set_default_flags_bits hf _ (by decide), (flag_bits flags).1]
  have hnfc : u8nfcP E (utf8s l) (has f IDN2_NFC_INPUT) = .ok l := by
    rcases hn with h | h
    · rw [hb0, h]; exact u8nfcP_false E hl
    · exact u8nfcP_stable W hl h.1 _
  have hnfcA : ∀ t u, l = xn ++ t → Decodes t u → (∀ c ∈ u, isScalar c) →
      u8nfcP E (utf8s u) (has f IDN2_NFC_INPUT) = .ok u := by
    intro t u h1 h2 hu
    rcases hn with h | h
    · rw [hb0, h]; exact u8nfcP_false E hu
    · exact u8nfcP_stable W hu (h.2 t u h1 h2) _
  have hasc : (∀ c ∈ utf8s l, c < 0x80) ↔ ∀ c ∈ l, c < 0x80 :=
    (u8Encode_all_ascii (u8Encode_utf8s hl))
  have hself : (∀ c ∈ l, c < 0x80) → utf8s l = l := by
    intro h
    have h8 := u8Encode_utf8s hl
    rw [u8Encode_ascii h] at h8
    injection h8 with h8
    exact h8.symm
  unfold labelP at h
  split at h
  · rename_i ha
    have ha := hasc.mp ((ascii_p_iff _).mp ha)
    rw [hself ha] at h hs0
    by_cases hace : isAce f l = true
    · rw [if_pos hace] at h
      obtain ⟨h71, t, rfl⟩ := isAce_iff.mp hace
      rw [h7] at h71
      have hx : acePrefix ++ t = xn ++ t := rfl
      have hdrop : (acePrefix ++ t).drop 4 = t := by simp [acePrefix]
      rw [hdrop] at h
      cases hd : punycode_decode 63 63 t with
      | ub => rw [hd] at h; cases h
      | err e' =>
        rw [hd] at h
        injection h with h
        subst h
        exact .undecodable _ h71 ha ⟨t, rfl, decoding63_iff.mp hd⟩
      | ok u =>
        have hD := decodes_iff.mp hd
        rw [hd, Res.bind_ok] at h
        by_cases hu : ∀ c ∈ u, isScalar c
        · rw [u8Encode_utf8s hu] at h
          simp only at h
          unfold labelConvertP at h
          rw [hnfcA t u rfl hD hu, Res.bind_ok] at h
          cases ht : labelTestIf E f u with
          | ub => rw [ht] at h; cases h
          | err e' =>
            rw [ht] at h
            injection h with h
            subst h
            exact .alabelFault t u _ h71 rfl hD hu (labelTestIf_err W hf hu ht)
          | ok _ =>
            rw [ht, Res.bind_ok] at h
            have hv := (labelTestIf_ok_iff W hf hu).mp ht
            have hlen : t.length = (Punycode.encode u).length := by
              rw [← hD.canon, canonPuny_length]
            have hul := hD.length
            by_cases h59 : t.length ≤ 59
            · have hne : t.map asciiLower ≠ (Punycode.encode u).map asciiLower := by
                intro heq
                have hto : LabelTo D E.U flags (acePrefix ++ t) (xn ++ Punycode.encode u) :=
                  .alabel t u h71 rfl hD hu hv heq h59
                have hok := (labelP_iff W hf hl h0 hn).mpr hto
                rw [hself ha] at hok
                unfold labelP at hok
                rw [if_pos ((ascii_p_iff _).mpr ha), if_pos hace, hdrop, hd, Res.bind_ok,
                  u8Encode_utf8s hu] at hok
                simp only at hok
                unfold labelConvertP at hok
                rw [hnfcA t u rfl hD hu, Res.bind_ok, ht, Res.bind_ok, h] at hok
                cases hok
              have he : e = .alabelRoundtripFailed := by
                unfold labelFinish at h
                rw [encode_ok_short (by omega) (by omega) hD.encodable (by omega), Res.bind_ok] at h
                simp only at h
                split at h
                · injection h with h; exact h.symm
                · have hcmp := c_strncasecmp_not_err (acePrefix ++ t).length (acePrefix ++ t)
                    (acePrefix ++ Punycode.encode u)
                  cases hc : c_strncasecmp (acePrefix ++ t).length (acePrefix ++ t)
                    (acePrefix ++ Punycode.encode u) with
                  | ub => rw [hc] at h; cases h
                  | err e' => exact absurd hc (hcmp e')
                  | ok b =>
                    rw [hc, Res.bind_ok] at h
                    split at h
                    · cases h
                    · injection h with h; exact h.symm
              rw [he]
              exact .alabelOther t u h71 rfl hD hu hv h59 hne
            · have he : e = .punycodeBigOutput := by
                unfold labelFinish at h
                rw [C55_encode_space (by omega) (by omega) hD.encodable hD.nonascii (by omega),
                  if_pos (by omega)] at h
                injection h with h
                exact h.symm
              rw [he]
              exact .alabelLong t u h71 rfl hD hu hv (by omega)
        · rw [u8Encode_none hu] at h
          injection h with h
          subst h
          exact .surrogate t u h71 rfl hD hu
    · rw [if_neg hace] at h
      split at h
      · rename_i hlen
        injection h with h
        subst h
        refine .long ha ?_ hlen
        rintro ⟨h71, hx⟩
        exact hace (isAce_iff.mpr ⟨h7.trans h71, prefix_iff.mp hx⟩)
      · cases h
  · rename_i ha
    have hna : ∃ c ∈ l, 0x80 ≤ c := by
      apply Classical.byContradiction
      intro hn
      apply ha
      rw [ascii_p_iff, hasc]
      intro c hc
      apply Classical.byContradiction
      intro hlt
      exact hn ⟨c, hc, by omega⟩
    unfold labelConvertP at h
    rw [hnfc, Res.bind_ok] at h
    cases ht : labelTestIf E f l with
    | ub => rw [ht] at h; cases h
    | err e' =>
      rw [ht] at h
      injection h with h
      subst h
      exact .ulabelFault _ hna (labelTestIf_err W hf hl ht)
    | ok _ =>
      rw [ht, Res.bind_ok] at h
      have hv := (labelTestIf_ok_iff W hf hl).mp ht
      have hE := encodable_scalar hl
      have hle := length_le_encode (scalar_lt hl)
      by_cases h59 : (Punycode.encode l).length ≤ 59
      · have henc := encode_ok_short (phys := 59) (cap := 59) (by omega) (by omega) hE h59
        have hnl : ¬ (flags.testBit 7 = false → ∀ c ∈ l, c < 0x80 → isLDHU c) := by
          intro hld
          have hok := (labelP_iff W hf hl h0 hn).mpr (.ulabel hna hv hld h59)
          unfold labelP at hok
          rw [if_neg ha] at hok
          unfold labelConvertP at hok
          rw [hnfc, Res.bind_ok, ht, Res.bind_ok, h] at hok
          cases hok
        rw [Classical.not_imp] at hnl
        have he : e = .alabelRoundtripFailed := by
          unfold labelFinish at h
          rw [henc, Res.bind_ok] at h
          simp only at h
          rw [h7, hnl.1] at h
          simp only [Bool.false_eq_true, ↓reduceIte] at h
          split at h
          · cases h
          · injection h with h; exact h.symm
          · split at h
            · injection h with h; exact h.symm
            · cases h
        rw [he]
        exact .ulabelOther hna hv h59 hnl.1 hnl.2
      · unfold labelFinish at h
        cases hp : punycode_encode 59 59 l with
        | ub => rw [hp] at h; cases h
        | ok enc =>
          have := ((C04_encode_correct _ _ (by omega) (by omega)).mp hp).2.2.2.2
          omega
        | err e' =>
          rw [hp] at h
          injection h with h
          subst h
          exact .ulabelLong _ hna hv (encode_fail (by omega) hE hp)

/-! ### UTS #46 -/

theorem asOpt_some {r : Res Unit} {e : Rc} : asOpt r = .ok (some e) ↔ r = .err e := by
  cases r <;> simp [asOpt]

theorem asOpt_err {r : Res Unit} {e : Rc} : asOpt r ≠ .err e := by
  cases r <;> simp [asOpt]

theorem utf8s_undecodable {t : List Nat} (hts : ∀ c ∈ t, isScalar c) {u : List Nat} :
    Decodes (utf8s t) u ↔ Decodes t u := by
  have h8 := u8Encode_utf8s hts
  constructor
  · intro hd
    have hta : ∀ c ∈ t, c < 0x80 :=
      (u8Encode_all_ascii h8).mp fun c hc => LDHU_lt (hd.chars c hc)
    rw [u8Encode_ascii hta] at h8
    injection h8 with h8
    rwa [← h8] at hd
  · intro hd
    rw [u8Encode_ascii fun c hc => LDHU_lt (hd.chars c hc)] at h8
    injection h8 with h8
    rwa [← h8]

theorem not_ldhu {c : Nat} (h : 0x80 ≤ c) : ¬ isLDHU c := by
  unfold isLDHU; omega

/-- Text that is not ASCII is refused, in UTF-8 or not. -/
theorem decoding_utf8s {t : List Nat} (hts : ∀ c ∈ t, isScalar c) {e : Rc} :
    Punycode.Decoding 63 (utf8s t) (.error e) ↔ Punycode.Decoding 63 t (.error e) := by
  have h8 := u8Encode_utf8s hts
  by_cases hta : ∀ c ∈ t, c < 0x80
  · rw [u8Encode_ascii hta] at h8
    injection h8 with h8
    rw [← h8]
  · have hta8 : ¬ ∀ c ∈ utf8s t, c < 0x80 := fun h => hta ((u8Encode_all_ascii h8).mp h)
    have key : ∀ {s : List Nat}, (¬ ∀ c ∈ s, c < 0x80) →
        (Punycode.Decoding 63 s (.error e) ↔ e = .punycodeBadInput) := by
      intro s hs
      obtain ⟨c, hc⟩ := Classical.not_forall.mp hs
      obtain ⟨hc, hlt⟩ := Classical.not_imp.mp hc
      have hd : Punycode.Decoding 63 s (.error .punycodeBadInput) :=
        .char ⟨c, hc, not_ldhu (by omega)⟩
      constructor
      · intro h
        obtain ⟨y, _, hy⟩ := C62_unique (cap := 63) s (by omega)
        have := (hy _ h).trans (hy _ hd).symm
        injection this
      · rintro rfl; exact hd
    rw [key hta, key hta8]

theorem undecodable_iff {t : List Nat} :
    (∃ e, Punycode.Decoding 63 t (.error e)) ↔ ¬ ∃ u, Decodes t u := by
  constructor
  · rintro ⟨e, h⟩ ⟨u, hu⟩
    have := decoding63_iff.mpr h
    rw [decodes_iff.mpr hu] at this
    cases this
  · intro h
    obtain ⟨y, hy, _⟩ := C62_unique (cap := 63) t (by omega)
    cases y with
    | error e => exact ⟨e, hy⟩
    | ok u =>
      exact absurd ⟨u, decodes_iff.mp ((C62_decode_exact (phys := 63) t (.ok u) (by omega)
        (by omega)).mp hy)⟩ h

theorem undecodable_not {l : List Nat} {e : Rc} (h : Undecodable l e) {t u : List Nat}
    (hl : l = xn ++ t) (hd : Decodes t u) : False := by
  obtain ⟨t', h1, h2⟩ := h
  rw [hl] at h1
  have := List.append_cancel_left h1
  subst this
  exact undecodable_iff.mp ⟨e, h2⟩ ⟨u, hd⟩

theorem tr46LabelP_cases {E : Env} {D : Data} (W : World E D) {flags f : Nat}
    (hf : set_default_flags flags = .ok f) {l : List Nat} (hl : ∀ c ∈ l, isScalar c) :
    (∀ e, tr46LabelP E f l = .err e → Undecodable l e) ∧
    (∀ r, tr46LabelP E f l = .ok r → ∀ e, ¬ Undecodable l e) ∧
    (∀ e, tr46LabelP E f l = .ok (some e) → Tr46Fault D E.U flags l e) := by
  obtain ⟨hm, hmA⟩ := tr46Mask_eq hf
  unfold tr46LabelP
  by_cases hx : xn <+: l
  · rw [if_pos (take_ace_iff.mpr hx)]
    obtain ⟨t, rfl⟩ := prefix_iff.mp hx
    have hdrop : (acePrefix ++ t).drop 4 = t := by simp [acePrefix]
    rw [hdrop]
    have hts : ∀ c ∈ t, isScalar c := fun c hc => hl c (List.mem_append_right _ hc)
    rw [u8Encode_utf8s hts]
    simp only [hmA]
    cases hd : punycode_decode 63 63 (utf8s t) with
    | ub => exact ⟨fun e h => (by cases h), fun r h => (by cases h), fun e h => (by cases h)⟩
    | err e' =>
      refine ⟨fun e h => ?_, fun r h => (by cases h), fun e h => (by cases h)⟩
      injection h with h
      subst h
      exact ⟨t, rfl, (decoding_utf8s hts).mp (decoding63_iff.mp hd)⟩
    | ok u =>
      have hD := (utf8s_undecodable hts).mp (decodes_iff.mp hd)
      rw [Res.bind_ok]
      refine ⟨fun e h => absurd h asOpt_err, fun r h e he => ?_, fun e h => ?_⟩
      · exact undecodable_not he rfl hD
      · exact .alabel t u rfl hD
          ((labelTestP_first W.tables (encodable_le hD.encodable)).mp (asOpt_some.mp h))
  · rw [if_neg (fun h => hx (take_ace_iff.mp h)), hm]
    refine ⟨fun e h => absurd h asOpt_err, fun r h e he => ?_, fun e h => ?_⟩
    · obtain ⟨t, h1, _⟩ := he
      exact hx ⟨t, h1.symm⟩
    · exact .ulabel hx ((labelTestP_first W.tables (fun c hc => isScalar_le (hl c hc))).mp
        (asOpt_some.mp h))

theorem tr46LabelsP_cases {E : Env} {D : Data} (W : World E D) {flags f : Nat}
    (hf : set_default_flags flags = .ok f) {ls : List (List Nat)}
    (hl : ∀ l ∈ ls, ∀ c ∈ l, isScalar c) (r : Option Rc) :
    (∀ e, tr46LabelsP E f ls r = .err e → ∃ pre l post, ls = pre ++ l :: post ∧
      (∀ l' ∈ pre, ∀ e', ¬ Undecodable l' e') ∧ Undecodable l e) ∧
    (∀ e, tr46LabelsP E f ls r = .ok (some e) → (∀ l ∈ ls, ∀ e', ¬ Undecodable l e') ∧
      ((r = some e ∧ ∀ l ∈ ls, Tr46Label D E.U flags l) ∨
      ∃ pre l post, ls = pre ++ l :: post ∧ Tr46Fault D E.U flags l e ∧
        ∀ l' ∈ post, Tr46Label D E.U flags l')) := by
  induction ls generalizing r with
  | nil =>
    refine ⟨fun e h => (by cases h), fun e h => ⟨(by simp), Or.inl ⟨?_, (by simp)⟩⟩⟩
    injection h
  | cons l ls ih =>
    obtain ⟨c1, c2, c3⟩ := tr46LabelP_cases W hf (hl l List.mem_cons_self)
    have hiff := tr46LabelP_iff W hf (hl l List.mem_cons_self)
    have ih := fun r => ih (fun x hx => hl x (List.mem_cons_of_mem _ hx)) r
    simp only [tr46LabelsP]
    cases hp : tr46LabelP E f l with
    | ub => exact ⟨fun e h => (by cases h), fun e h => (by cases h)⟩
    | err e' =>
      refine ⟨fun e h => ?_, fun e h => (by cases h)⟩
      injection h with h
      subst h
      exact ⟨[], l, ls, rfl, by simp, c1 _ hp⟩
    | ok o =>
      rw [Res.bind_ok]
      have hnu := c2 _ hp
      refine ⟨fun e h => ?_, fun e h => ?_⟩
      · obtain ⟨pre, l', post, g1, g2, g3⟩ := (ih _).1 e h
        refine ⟨l :: pre, l', post, by rw [g1]; rfl, ?_, g3⟩
        intro x hx
        rcases List.mem_cons.mp hx with rfl | hx
        · exact hnu
        · exact g2 x hx
      · obtain ⟨g1, g2⟩ := (ih _).2 e h
        refine ⟨?_, ?_⟩
        · intro x hx
          rcases List.mem_cons.mp hx with rfl | hx
          · exact hnu
          · exact g1 x hx
        · rcases g2 with ⟨g2, g3⟩ | ⟨pre, l', post, g2, g3, g4⟩
          · cases o with
            | none =>
              left
              refine ⟨g2, ?_⟩
              intro x hx
              rcases List.mem_cons.mp hx with rfl | hx
              · exact hiff.mp hp
              · exact g3 x hx
            | some e' =>
              right
              injection g2 with g2
              subst g2
              exact ⟨[], l, ls, rfl, c3 _ hp, g3⟩
          · right
            exact ⟨l :: pre, l', post, by rw [g2]; rfl, g3, g4⟩

end Idn2
