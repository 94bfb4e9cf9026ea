import Verif.Props.LookupErr

/-
The label conversion under IDN2_NFC_INPUT, without conditions on the label.
-/

namespace Idn2
open Spec

theorem looked_cons_cons (c d : Nat) (r : List Nat) :
    looked (c :: d :: r) = if c < 0x10000 then c :: looked (d :: r) else c :: looked r := by
  rw [looked]

theorem quickYes_cons {U : Uni} {D : Data} {c : Nat} {l : List Nat} :
    QuickYes U D (c :: l) ↔ (D.qc c = none ∨ D.qc c = some 0) ∧
      (∀ d b, l = d :: b → U.ccc c ≤ U.ccc d ∨ U.ccc d = 0) ∧ QuickYes U D l := by
  constructor
  · rintro ⟨h1, h2⟩
    exact ⟨h1 c List.mem_cons_self, fun d b h => h2 [] c d b (by rw [h]; rfl),
      fun x hx => h1 x (List.mem_cons_of_mem _ hx),
      fun a x y b h => h2 (c :: a) x y b (by rw [h]; rfl)⟩
  · rintro ⟨h1, h2, h3, h4⟩
    refine ⟨fun x hx => ?_, fun a x y b h => ?_⟩
    · rcases List.mem_cons.mp hx with rfl | hx
      · exact h1
      · exact h3 x hx
    · cases a with
      | nil =>
        injection h with e1 e2
        subst e1
        exact h2 y b e2
      | cons z a =>
        injection h with e1 e2
        exact h4 a x y b e2

/-- `_isNFC` answers 0 exactly when the quick check of the code points it looks at does not answer
"yes". -/
theorem isNFCLoop_iff {E : Env} {D : Data} (hI : Implements E.T D) {l : List Nat}
    (hl : ∀ c ∈ l, c ≤ 0x10FFFF) {last : Nat} {r v : Int} (hr : r ≠ 0)
    (h : isNFCLoop E false l last r = .ok v) :
    v ≠ 0 ↔ (∀ c b, looked l = c :: b → last ≤ E.U.ccc c ∨ E.U.ccc c = 0) ∧
      QuickYes E.U D (looked l) := by
  generalize hn : l.length = n
  induction n using Nat.strongRecOn generalizing l last r with
  | _ n ih =>
    cases l with
    | nil =>
      simp only [isNFCLoop] at h
      injection h with h
      subst h
      simp only [looked, hr, ne_eq, not_false_eq_true, true_iff]
      exact ⟨by simp, ⟨by simp, by simp⟩⟩
    | cons ch rest =>
      have hch := hl ch List.mem_cons_self
      have hhead : ∃ b, looked (ch :: rest) = ch :: b := by
        cases rest with
        | nil => exact ⟨[], rfl⟩
        | cons d r =>
          rw [looked_cons_cons]
          split
          · exact ⟨_, rfl⟩
          · exact ⟨_, rfl⟩
      obtain ⟨tl, htl⟩ := hhead
      simp only [isNFCLoop] at h
      by_cases hc : last > E.U.ccc ch ∧ E.U.ccc ch ≠ 0
      · rw [if_pos hc] at h
        injection h with h
        subst h
        constructor
        · intro h; exact absurd rfl h
        · rintro ⟨h1, _⟩
          have := h1 ch tl htl
          omega
      · rw [if_neg hc, hI.nfcqc ch hch, Res.bind_ok] at h
        have hc' : last ≤ E.U.ccc ch ∨ E.U.ccc ch = 0 := by omega
        -- the tail that the loop goes on with
        have key : ∀ {r : Int}, r ≠ 0 →
            isNFCLoop E (decide (ch ≥ 0x10000)) rest (E.U.ccc ch) r = .ok v →
            (v ≠ 0 ↔ (∀ c b, tl = c :: b → E.U.ccc ch ≤ E.U.ccc c ∨ E.U.ccc c = 0) ∧
              QuickYes E.U D tl) := by
          intro r hr h
          cases rest with
          | nil =>
            have : tl = [] := by
              have : looked [ch] = [ch] := rfl
              rw [this] at htl
              injection htl with _ htl
              exact htl.symm
            subst this
            simp only [isNFCLoop] at h
            injection h with h
            subst h
            simp only [hr, ne_eq, not_false_eq_true, true_iff]
            exact ⟨by simp, ⟨by simp, by simp⟩⟩
          | cons d r' =>
            rw [looked_cons_cons] at htl
            by_cases hb : ch < 0x10000
            · rw [if_pos hb] at htl
              injection htl with _ htl
              rw [show decide (ch ≥ 0x10000) = false from decide_eq_false (by omega)] at h
              have := ih (d :: r').length (by simp only [List.length_cons] at hn ⊢; omega)
                (fun c hc => hl c (List.mem_cons_of_mem _ hc)) hr h rfl
              rw [htl] at this
              exact this
            · rw [if_neg hb] at htl
              injection htl with _ htl
              rw [show decide (ch ≥ 0x10000) = true from decide_eq_true (by omega)] at h
              simp only [isNFCLoop] at h
              have := ih r'.length (by simp only [List.length_cons] at hn ⊢; omega)
                (fun c hc => hl c (List.mem_cons_of_mem _ (List.mem_cons_of_mem _ hc))) hr h rfl
              rw [htl] at this
              exact this
        rw [htl, quickYes_cons]
        have hfirst : (∀ c b, ch :: tl = c :: b → last ≤ E.U.ccc c ∨ E.U.ccc c = 0) := by
          intro c b h
          injection h with h _
          subst h
          exact hc'
        have fin : (D.qc ch = none ∨ D.qc ch = some 0) → (v ≠ 0 ↔
            (∀ c b, tl = c :: b → E.U.ccc ch ≤ E.U.ccc c ∨ E.U.ccc c = 0) ∧ QuickYes E.U D tl) →
            (v ≠ 0 ↔ (∀ c b, ch :: tl = c :: b → last ≤ E.U.ccc c ∨ E.U.ccc c = 0) ∧
              (D.qc ch = none ∨ D.qc ch = some 0) ∧
              (∀ d b, tl = d :: b → E.U.ccc ch ≤ E.U.ccc d ∨ E.U.ccc d = 0) ∧
              QuickYes E.U D tl) := by
          intro h1 h2
          rw [h2]
          exact ⟨fun h => ⟨hfirst, h1, h⟩, fun h => h.2.2⟩
        cases hq : D.qc ch with
        | none =>
          rw [hq] at h
          have := fin (Or.inl hq) (key hr h)
          rw [hq] at this
          exact this
        | some k =>
          rw [hq] at h
          simp only at h
          by_cases hk : k = 0
          · subst hk
            have := fin (Or.inr hq) (key (r := -1) (by decide) h)
            rw [hq] at this
            exact this
          · rw [if_pos (by simpa using hk)] at h
            injection h with h
            subst h
            constructor
            · intro h; exact absurd rfl h
            · rintro ⟨_, h1 | h1, _⟩
              · cases h1
              · injection h1 with h1; exact absurd h1 hk

theorem isNFC_iff {E : Env} {D : Data} (hI : Implements E.T D) {l : List Nat}
    (hl : ∀ c ∈ l, c ≤ 0x10FFFF) {v : Int} (h : isNFC E l = .ok v) :
    v ≠ 0 ↔ QuickYes E.U D (looked l) := by
  rw [isNFCLoop_iff hI hl (by decide) h]
  exact ⟨fun h => h.2, fun h => ⟨fun _ _ _ => Or.inl (Nat.zero_le _), h⟩⟩

/-- What IDN2_NFC_INPUT does to a well-formed label. -/
theorem u8nfcP_true {E : Env} {D : Data} (W : World E D) {l : List Nat}
    (hl : ∀ c ∈ l, isScalar c) :
    (∃ v, u8nfcP E (utf8s l) true = .ok v ∧ Norm D E.U l v) ∨
    (u8nfcP E (utf8s l) true = .err .nfc ∧ NormFails D E.U l) := by
  obtain ⟨v, hv⟩ := isNFC_ne_ub W.tables (fun c hc => isScalar_le (hl c hc))
  have hiff := isNFC_iff W.tables (fun c hc => isScalar_le (hl c hc)) hv
  unfold u8nfcP
  rw [u8Decode_some_iff.mpr ⟨hl, rfl⟩]
  simp only [↓reduceIte]
  rw [hv, Res.bind_ok]
  by_cases h0 : v = 0
  · rw [if_pos h0]
    have hq : ¬ QuickYes E.U D (looked l) := fun h => hiff.mpr h h0
    cases hx : E.U.nfc l with
    | none => exact Or.inr ⟨rfl, hq, hx⟩
    | some t => exact Or.inl ⟨t, rfl, Or.inr ⟨hq, hx⟩⟩
  · rw [if_neg h0]
    exact Or.inl ⟨l, rfl, Or.inl ⟨hiff.mp h0, rfl⟩⟩

theorem Spec.Norm.unique {D : Data} {U : Uni} {l v w : List Nat} (h1 : Norm D U l v)
    (h2 : Norm D U l w) : v = w := by
  rcases h1 with ⟨a, rfl⟩ | ⟨a, b⟩ <;> rcases h2 with ⟨c, rfl⟩ | ⟨c, d⟩
  · rfl
  · exact absurd a c
  · exact absurd c a
  · rw [b] at d; injection d

theorem Spec.Norm.not_fails {D : Data} {U : Uni} {l v : List Nat} (h1 : Norm D U l v)
    (h2 : NormFails D U l) : False := by
  rcases h1 with ⟨a, rfl⟩ | ⟨a, b⟩
  · exact h2.1 a
  · rw [h2.2] at b; cases b

theorem Spec.Norm.scalar {D : Data} {U : Uni} (hU : U.Laws) {l v : List Nat} (h : Norm D U l v)
    (hl : ∀ c ∈ l, isScalar c) : ∀ c ∈ v, isScalar c := by
  rcases h with ⟨_, rfl⟩ | ⟨_, h⟩
  · exact hl
  · exact hU.nfc_scalar l v hl h

theorem u8nfcP_iff_norm {E : Env} {D : Data} (W : World E D) {l v : List Nat}
    (hl : ∀ c ∈ l, isScalar c) : u8nfcP E (utf8s l) true = .ok v ↔ Norm D E.U l v := by
  rcases u8nfcP_true W hl with ⟨w, h1, h2⟩ | ⟨h1, h2⟩
  · rw [h1]
    constructor
    · intro h; injection h with h; exact h ▸ h2
    · intro h; rw [h2.unique h]
  · rw [h1]
    exact ⟨fun h => (by cases h), fun h => (h.not_fails h2).elim⟩

/-- One label in `label` under IDN2_NFC_INPUT. -/
theorem labelP_nfc_iff {E : Env} {D : Data} (W : World E D) {flags f : Nat}
    (hf : set_default_flags flags = .ok f) (hb : flags.testBit 0 = true) {l d : List Nat}
    (hl : ∀ c ∈ l, isScalar c) (h0 : 0 ∉ l) :
    labelP E (utf8s l) f = .ok d ↔ LabelToNfc D E.U flags l d := by
  have hs0 : 0 ∉ utf8s l := zero_mem_utf8s h0
  have h7 : has f IDN2_NO_ALABEL_ROUNDTRIP = flags.testBit 7 := by
    rw [set_default_flags_bits hf _ (by decide), (flag_bits flags).2.2.2.2.2.2]
  have hb0 : has f IDN2_NFC_INPUT = true := by
    rw [set_default_flags_bits hf _ (by decide), (flag_bits flags).1, hb]
  have hasc : (∀ c ∈ utf8s l, c < 0x80) ↔ ∀ c ∈ l, c < 0x80 :=
    (u8Encode_all_ascii (u8Encode_utf8s hl))
  have hself : (∀ c ∈ l, c < 0x80) → utf8s l = l := by
    intro h
    have h8 := u8Encode_utf8s hl
    rw [u8Encode_ascii h] at h8
    injection h8 with h8
    exact h8.symm
  rw [labelP_ok_iff W.tables W.uni hs0, hb0]
  constructor
  · rintro (⟨h1, h2, h3, rfl⟩ | ⟨h1, h2, t, u, src8, p, enc, h3, h4, h5, h6, hc, rfl, hlow⟩ |
      ⟨h1, p, enc, h2, hc, rfl⟩)
    · have ha := hasc.mp h1
      have hsl := hself ha
      rw [hsl] at h2 h3 ⊢
      refine .ascii ha ?_ h3
      rintro ⟨h71, hx⟩
      have := isAce_iff.mpr ⟨h7.trans h71, prefix_iff.mp hx⟩
      rw [h2] at this; cases this
    · have ha := hasc.mp h1
      rw [hself ha] at h3
      have hd := decodes_iff.mp h4
      obtain ⟨hu, rfl⟩ := u8Encode_some_iff.mp h5
      have hnm := (u8nfcP_iff_norm W hu).mp h6
      have hps := hnm.scalar W.uni hu
      obtain ⟨rfl, _, _, _, hcap⟩ := (C04_encode_correct _ _ (by omega) (by omega)).mp hc.encode
      have hlen : t.length = (Punycode.encode p).length := by
        rw [← lowerS_length t, hlow, lowerS_length]
      exact .alabel t u p (h7 ▸ h2) h3 hd hu hnm ((labelTestIf_ok_iff W hf hps).mp hc.test) hlow
        (by omega)
    · have hnm := (u8nfcP_iff_norm W hl).mp h2
      have hps := hnm.scalar W.uni hl
      obtain ⟨rfl, _, _, _, hcap⟩ := (C04_encode_correct _ _ (by omega) (by omega)).mp hc.encode
      have hna : ∃ c ∈ l, 0x80 ≤ c := by
        apply Classical.byContradiction
        intro hn
        apply h1
        rw [hasc]
        intro c hc
        apply Classical.byContradiction
        intro hlt
        exact hn ⟨c, hc, by omega⟩
      refine .ulabel p hna hnm ((labelTestIf_ok_iff W hf hps).mp hc.test) ?_ hcap
      intro h71
      have hd := decodes_iff.mp (hc.dec (h7.trans h71))
      exact ⟨hd.nonascii, fun c hcl hlt =>
        hd.chars c ((enc_shape (by omega) (by omega) hc.encode).keep c hcl hlt)⟩
  · rintro (⟨h1, h2, h3⟩ | ⟨t, u, v, h1, h2, h3, h4, hnm, h5, h6, h7'⟩ | ⟨v, h1, hnm, h2, h3, h4⟩)
    · left
      rw [hself h1]
      refine ⟨h1, ?_, h3, rfl⟩
      rw [Bool.eq_false_iff]
      intro hace
      obtain ⟨h8, h9⟩ := isAce_iff.mp hace
      exact h2 ⟨h7 ▸ h8, prefix_iff.mpr h9⟩
    · right; left
      have hvs := hnm.scalar W.uni h4
      have hla : ∀ c ∈ l, c < 0x80 := by rw [h2]; exact decodes_ascii h3
      have hlen : t.length = (Punycode.encode v).length := by
        have := congrArg List.length h6; simpa using this
      have henc : punycode_encode 59 59 v = .ok (Punycode.encode v) :=
        encode_ok_short (by omega) (by omega) (encodable_scalar hvs) (by omega)
      refine ⟨hasc.mpr hla, h7.trans h1, t, u, utf8s u, v, Punycode.encode v, ?_,
        decodes_iff.mpr h3, u8Encode_utf8s h4, (u8nfcP_iff_norm W h4).mpr hnm,
        ⟨hvs, (labelTestIf_ok_iff W hf hvs).mpr h5, henc,
          fun _ => redecode (decodes_iff.mpr h3) henc h6⟩, rfl, h6⟩
      rw [hself hla]; exact h2
    · right; right
      have hvs := hnm.scalar W.uni hl
      have hle := length_le_encode (scalar_lt hvs)
      have hnasc : ¬ ∀ c ∈ utf8s l, c < 0x80 := by
        rw [hasc]
        intro h
        exact not_both h h1
      refine ⟨hnasc, v, Punycode.encode v, (u8nfcP_iff_norm W hl).mpr hnm,
        ⟨hvs, (labelTestIf_ok_iff W hf hvs).mpr h2,
        encode_ok_short (by omega) (by omega) (encodable_scalar hvs) h4, ?_⟩, rfl⟩
      intro h71
      obtain ⟨g1, g2⟩ := h3 (h7 ▸ h71)
      exact decode_encode (by omega) (by omega) g2 (encodable_scalar hvs) g1 (by omega)

theorem labelP_nfc_err {E : Env} {D : Data} (W : World E D) {flags f : Nat}
    (hf : set_default_flags flags = .ok f) (hb : flags.testBit 0 = true) {l : List Nat} {e : Rc}
    (hl : ∀ c ∈ l, isScalar c) (h0 : 0 ∉ l)
    (h : labelP E (utf8s l) f = .err e) : LabelErrNfc D E.U flags l e := by
  have h7 : has f IDN2_NO_ALABEL_ROUNDTRIP = flags.testBit 7 := by
    rw [set_default_flags_bits hf _ (by decide), (flag_bits flags).2.2.2.2.2.2]
  have hb0 : has f IDN2_NFC_INPUT = true := by
    rw [set_default_flags_bits hf _ (by decide), (flag_bits flags).1, hb]
  have hasc : (∀ c ∈ utf8s l, c < 0x80) ↔ ∀ c ∈ l, c < 0x80 :=
    (u8Encode_all_ascii (u8Encode_utf8s hl))
  have hself : (∀ c ∈ l, c < 0x80) → utf8s l = l := by
    intro h
    have h8 := u8Encode_utf8s hl
    rw [u8Encode_ascii h] at h8
    injection h8 with h8
    exact h8.symm
  have hok := fun d => labelP_nfc_iff (d := d) W hf hb hl h0
  unfold labelP at h
  split at h
  · rename_i ha
    have ha := hasc.mp ((ascii_p_iff _).mp ha)
    rw [hself ha] at h
    by_cases hace : isAce f l = true
    · rw [if_pos hace] at h
      obtain ⟨h71, t, rfl⟩ := isAce_iff.mp hace
      rw [h7] at h71
      have hdrop : (acePrefix ++ t).drop 4 = t := by simp [acePrefix]
      rw [hdrop] at h
      cases hd : punycode_decode 63 63 t with
      | ub => rw [hd] at h; cases h
      | err e' =>
        rw [hd] at h
        injection h with h
        subst h
        exact .undecodable _ h71 ha ⟨t, rfl, decoding63_iff.mp hd⟩
      | ok u =>
        have hD := decodes_iff.mp hd
        rw [hd, Res.bind_ok] at h
        by_cases hu : ∀ c ∈ u, isScalar c
        · rw [u8Encode_utf8s hu] at h
          simp only at h
          unfold labelConvertP at h
          rw [hb0] at h
          rcases u8nfcP_true W hu with ⟨v, hv, hnm⟩ | ⟨hv, hnm⟩
          · have hvs := hnm.scalar W.uni hu
            rw [hv, Res.bind_ok] at h
            cases ht : labelTestIf E f v with
            | ub => rw [ht] at h; cases h
            | err e' =>
              rw [ht] at h
              injection h with h
              subst h
              exact .alabelFault t u v _ h71 rfl hD hu hnm (labelTestIf_err W hf hvs ht)
            | ok _ =>
              rw [ht, Res.bind_ok] at h
              have hno := (labelTestIf_ok_iff W hf hvs).mp ht
              cases hp : punycode_encode 59 59 v with
              | ub => unfold labelFinish at h; rw [hp] at h; cases h
              | err e' =>
                unfold labelFinish at h
                rw [hp] at h
                injection h with h
                subst h
                exact .alabelLong t u v _ h71 rfl hD hu hnm hno
                  (encode_fail (by omega) (encodable_scalar hvs) hp)
              | ok enc =>
                obtain ⟨rfl, _, _, _, hcap⟩ :=
                  (C04_encode_correct _ _ (by omega) (by omega)).mp hp
                have hne : t.map asciiLower ≠ (Punycode.encode v).map asciiLower := by
                  intro heq
                  have hlen : t.length = (Punycode.encode v).length := by
                    have := congrArg List.length heq; simpa using this
                  have hto : LabelToNfc D E.U flags (acePrefix ++ t) (xn ++ Punycode.encode v) :=
                    .alabel t u v h71 rfl hD hu hnm hno heq (by omega)
                  have hok := (hok _).mpr hto
                  rw [hself ha] at hok
                  unfold labelP at hok
                  rw [if_pos ((ascii_p_iff _).mpr ha), if_pos hace, hdrop, hd, Res.bind_ok,
                    u8Encode_utf8s hu] at hok
                  simp only at hok
                  unfold labelConvertP at hok
                  rw [hb0, hv, Res.bind_ok, ht, Res.bind_ok, h] at hok
                  cases hok
                have he : e = .alabelRoundtripFailed := by
                  unfold labelFinish at h
                  rw [hp, Res.bind_ok] at h
                  simp only at h
                  split at h
                  · injection h with h; exact h.symm
                  · have hcmp := c_strncasecmp_not_err (acePrefix ++ t).length (acePrefix ++ t)
                      (acePrefix ++ Punycode.encode v)
                    cases hc : c_strncasecmp (acePrefix ++ t).length (acePrefix ++ t)
                      (acePrefix ++ Punycode.encode v) with
                    | ub => rw [hc] at h; cases h
                    | err e' => exact absurd hc (hcmp e')
                    | ok b =>
                      rw [hc, Res.bind_ok] at h
                      split at h
                      · cases h
                      · injection h with h; exact h.symm
                rw [he]
                exact .alabelOther t u v h71 rfl hD hu hnm hno hcap hne
          · rw [hv, Res.bind_err] at h
            injection h with h
            subst h
            exact .alabelNfc t u h71 rfl hD hu hnm
        · rw [u8Encode_none hu] at h
          injection h with h
          subst h
          exact .surrogate t u h71 rfl hD hu
    · rw [if_neg hace] at h
      split at h
      · rename_i hlen
        injection h with h
        subst h
        refine .long ha ?_ hlen
        rintro ⟨h71, hx⟩
        exact hace (isAce_iff.mpr ⟨h7.trans h71, prefix_iff.mp hx⟩)
      · cases h
  · rename_i ha
    have hna : ∃ c ∈ l, 0x80 ≤ c := by
      apply Classical.byContradiction
      intro hn
      apply ha
      rw [ascii_p_iff, hasc]
      intro c hc
      apply Classical.byContradiction
      intro hlt
      exact hn ⟨c, hc, by omega⟩
    unfold labelConvertP at h
    rw [hb0] at h
    rcases u8nfcP_true W hl with ⟨v, hv, hnm⟩ | ⟨hv, hnm⟩
    · have hvs := hnm.scalar W.uni hl
      rw [hv, Res.bind_ok] at h
      cases ht : labelTestIf E f v with
      | ub => rw [ht] at h; cases h
      | err e' =>
        rw [ht] at h
        injection h with h
        subst h
        exact .ulabelFault v _ hna hnm (labelTestIf_err W hf hvs ht)
      | ok _ =>
        rw [ht, Res.bind_ok] at h
        have hno := (labelTestIf_ok_iff W hf hvs).mp ht
        cases hp : punycode_encode 59 59 v with
        | ub => unfold labelFinish at h; rw [hp] at h; cases h
        | err e' =>
          unfold labelFinish at h
          rw [hp] at h
          injection h with h
          subst h
          exact .ulabelLong v _ hna hnm hno (encode_fail (by omega) (encodable_scalar hvs) hp)
        | ok enc =>
          obtain ⟨rfl, _, _, _, hcap⟩ := (C04_encode_correct _ _ (by omega) (by omega)).mp hp
          have hnl : ¬ (flags.testBit 7 = false →
              (∃ c ∈ v, 0x80 ≤ c) ∧ ∀ c ∈ v, c < 0x80 → isLDHU c) := by
            intro hld
            have hok := (hok _).mpr (.ulabel v hna hnm hno hld hcap)
            unfold labelP at hok
            rw [if_neg ha] at hok
            unfold labelConvertP at hok
            rw [hb0, hv, Res.bind_ok, ht, Res.bind_ok, h] at hok
            cases hok
          rw [Classical.not_imp] at hnl
          have he : e = .alabelRoundtripFailed := by
            unfold labelFinish at h
            rw [hp, Res.bind_ok] at h
            simp only at h
            rw [h7, hnl.1] at h
            simp only [Bool.false_eq_true, ↓reduceIte] at h
            split at h
            · cases h
            · injection h with h; exact h.symm
            · split at h
              · injection h with h; exact h.symm
              · cases h
          rw [he]
          exact .ulabelOther v hna hnm hno hcap hnl.1 hnl.2
    · rw [hv, Res.bind_err] at h
      injection h with h
      subst h
      exact .ulabelNfc hna hnm

end Idn2
