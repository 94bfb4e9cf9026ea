import Verif.Proof.LabelTest
import Verif.Data.Sample

/-
Properties C26 to C29: label validation.
-/

namespace Idn2
open Spec

/-! ### C26: Bidi -/

/-- C26, exact.  The Bidi check never fails otherwise than with IDN2_BIDI, and it accepts
exactly the labels of `BidiAccepted`. -/
theorem C26_bidi_exact (U : Uni) (l : List Nat) :
    (idn2_bidi U l = .ok () ∧ BidiAccepted U l) ∨ (idn2_bidi U l = .err .bidi ∧ ¬ BidiAccepted U l) := by
  rcases bidi_err (U := U) (l := l) with h | h
  · exact Or.inl ⟨h, bidi_ok_iff_accepted.mp h⟩
  · refine Or.inr ⟨h, fun hc => ?_⟩
    rw [bidi_ok_iff_accepted.mpr hc] at h; cases h

-- both sides occur: Hebrew; Hebrew with a Latin letter
example : idn2_bidi Sample.U [0x5D0, 0x35, 0x5D1] = .ok () ∧
    idn2_bidi Sample.U [0x5D0, 0x61, 0x5D1] = .err .bidi ∧
    idn2_bidi Sample.U [0x61, 0x5D1] = .err .bidi ∧
    idn2_bidi Sample.U [0x5D0, 0x2D] = .err .bidi := by decide +kernel

/-- Labels without right-to-left characters are always accepted. -/
theorem C26_no_rtl (U : Uni) (l : List Nat) (h : ¬ hasRtl U l) : idn2_bidi U l = .ok () :=
  bidi_ok_iff_accepted.mpr fun h' => absurd h' h

example : idn2_bidi Sample.U [0x31, 0x61, 0x2D] = .ok () := by decide +kernel

/-- What RFC 5893 allows is accepted. -/
theorem C26_rfc_accepted (U : Uni) (l : List Nat) (h : BidiRule U l) : idn2_bidi U l = .ok () := by
  rw [bidi_ok_iff_accepted]
  intro hr
  obtain ⟨c, r, rfl, h⟩ := h
  rcases h with ⟨h1, h2, ⟨pre, d, nsm, he, hd, hn⟩, -⟩ | ⟨h1, h2, -⟩
  · refine ⟨⟨c, rfl, h1⟩, h2, ?_⟩
    rw [he]
    cases hl : nsm.getLast? with
    | none =>
      rw [List.getLast?_eq_none_iff] at hl
      subst hl
      refine ⟨d, by simp, ?_⟩
      rcases hd with h | h | h | h <;> simp [h]
    | some x =>
      refine ⟨x, ?_, ?_⟩
      · rw [List.getLast?_append, List.getLast?_cons, hl]; rfl
      · simp [hn x (List.mem_of_getLast? hl)]
  · exfalso
    obtain ⟨x, hx, hb⟩ := hr
    have := h2 x hx
    unfold ltrClass at this
    rcases hb with hb | hb | hb <;> rw [hb] at this <;> simp at this

example : BidiRule Sample.U [0x5D0, 0x31, 0x300] :=
  ⟨0x5D0, [0x31, 0x300], rfl, Or.inl ⟨Or.inl (by decide), by unfold rtlClass; decide,
    ⟨[0x5D0], 0x31, [0x300], rfl, by decide, by decide⟩, by decide⟩⟩

/-- C26, partial: within the labels that hold no European and Arabic numbers together and do
not end in a non-spacing mark, the check is exactly the Bidi rule.  (Missing: rule 4 is not
checked, and a final non-spacing mark satisfies the end condition whatever precedes it; see
`C26_bidi_rule_violated`.) -/
theorem C26_bidi_rule_partial (U : Uni) (l : List Nat) (hr : hasRtl U l)
    (h4 : ¬ ((∃ x ∈ l, U.bidi x = .EN) ∧ (∃ x ∈ l, U.bidi x = .AN)))
    (hn : ∀ c, l.getLast? = some c → U.bidi c ≠ .NSM) :
    idn2_bidi U l = .ok () ↔ BidiRule U l := by
  refine ⟨fun h => ?_, C26_rfc_accepted U l⟩
  obtain ⟨⟨c, h1, h1'⟩, h2, ⟨d, h3, h3'⟩⟩ := bidi_ok_iff_accepted.mp h hr
  cases l with
  | nil => cases h1
  | cons c' r =>
    cases h1
    refine ⟨c, r, rfl, Or.inl ⟨h1', h2, ?_, h4⟩⟩
    obtain ⟨pre, hp⟩ := List.getLast?_eq_some_iff.mp h3
    refine ⟨pre, d, [], hp, ?_, by simp⟩
    have := hn d h3
    rcases h3' with h | h | h | h | h <;> first | exact absurd h this | simp [h]

example : hasRtl Sample.U [0x5D0, 0x31] ∧ (∀ c, [0x5D0, 0x31].getLast? = some c → Sample.U.bidi c ≠ .NSM) ∧
    ¬ ((∃ x ∈ [0x5D0, 0x31], Sample.U.bidi x = .EN) ∧ (∃ x ∈ [0x5D0, 0x31], Sample.U.bidi x = .AN)) :=
  ⟨⟨0x5D0, by simp, Or.inl (by decide)⟩, by simp; decide, by decide⟩

/-- C26 is violated: alef, European digit, Arabic digit is accepted against rule 4; and
alef, hyphen, non-spacing mark against rule 3. -/
theorem C26_bidi_rule_violated :
    (idn2_bidi Sample.U [0x5D0, 0x31, 0x660] = .ok () ∧ ¬ BidiRule Sample.U [0x5D0, 0x31, 0x660]) ∧
    (idn2_bidi Sample.U [0x5D0, 0x2D, 0x300] = .ok () ∧ ¬ BidiRule Sample.U [0x5D0, 0x2D, 0x300]) := by
  refine ⟨⟨by decide +kernel, ?_⟩, ⟨by decide +kernel, ?_⟩⟩
  · rintro ⟨c, r, he, ⟨-, -, -, h⟩ | ⟨h, -⟩⟩
    · exact h ⟨⟨0x31, by simp, by decide⟩, ⟨0x660, by simp, by decide⟩⟩
    · injection he with he _; subst he; revert h; decide
  · rintro ⟨c, r, he, ⟨-, -, ⟨pre, d, nsm, he', hd, hn⟩, -⟩ | ⟨h, -⟩⟩
    · match pre, he' with
      | [], he' =>
        injection he' with h1 h2
        have := hn 0x2D (by rw [← h2]; simp)
        revert this; decide
      | [_], he' =>
        injection he' with _ he'
        injection he' with h1 h2
        subst h1; revert hd; decide
      | [_, _], he' =>
        injection he' with _ he'
        injection he' with _ he'
        injection he' with h1 h2
        subst h1; revert hd; decide
      | _ :: _ :: _ :: _, he' => simp at he'
    · injection he with he _; subst he; revert h; decide

/-! ### C27: CONTEXTJ -/

/-- C27.  At every position of every label: no undefined behaviour; the rule accepts ZWNJ and
ZWJ exactly when the condition of RFC 5892 holds; it accepts every code point that is not
CONTEXTJ, and no CONTEXTJ code point without a rule. -/
theorem C27_contextj {E : Env} {D : Data} (hI : Implements E.T D) {label : List Nat} {pos cp : Nat}
    (hcp : label[pos]? = some cp) (hr : cp ≤ 0x10FFFF) :
    (contextj_rule E label pos = .ok () ↔ (D.prop cp = .contextj → ContextJ E.U label pos cp)) ∧
    (contextj_rule E label pos = .err .contextj ↔
      (D.prop cp = .contextj ∧ (cp = 0x200C ∨ cp = 0x200D) ∧ ¬ ContextJ E.U label pos cp)) ∧
    (contextj_rule E label pos = .err .contextjNoRule ↔
      (D.prop cp = .contextj ∧ cp ≠ 0x200C ∧ cp ≠ 0x200D)) ∧
    contextj_rule E label pos ≠ .ub := by
  have hj : cp ≠ 0x200C → cp ≠ 0x200D → ¬ ContextJ E.U label pos cp := by
    rintro h1 h2 (⟨h, _⟩ | ⟨h, _⟩) <;> contradiction
  rcases contextj_rule_spec hI hcp hr with ⟨h1, h2⟩ | ⟨h1, h2, h3, h4⟩ | ⟨h1, h2, h3, h4⟩ <;>
    rw [h1] <;> simp <;> grind

-- beh ZWNJ alef; ka virama ZWNJ; ka ZWNJ; ZWJ after a virama
example : contextj_rule Sample.E [0x628, 0x300, 0x200C, 0x300, 0x627] 2 = .ok () ∧
    contextj_rule Sample.E [0x915, 0x94D, 0x200C] 2 = .ok () ∧
    contextj_rule Sample.E [0x915, 0x200C] 1 = .err .contextj ∧
    contextj_rule Sample.E [0x915, 0x94D, 0x200D] 2 = .ok () ∧
    contextj_rule Sample.E [0x628, 0x200D, 0x627] 1 = .err .contextj := by decide +kernel
example : Sample.D.prop 0x200C = .contextj := by decide +kernel

/-! ### C28: CONTEXTO -/

/-- C28.  At every position of every label: no undefined behaviour; a CONTEXTO code point is
accepted exactly when the condition of RFC 5892 for it holds, one without a rule never, and
the function telling which code points have a rule is right. -/
theorem C28_contexto {E : Env} {D : Data} (hI : Implements E.T D) {label : List Nat} {pos cp : Nat}
    (hcp : label[pos]? = some cp) (hr : cp ≤ 0x10FFFF) :
    (contexto_rule E label pos = .ok () ↔ (D.prop cp = .contexto → ContextO E.U label pos cp)) ∧
    (contexto_rule E label pos = .err .contexto ↔
      (D.prop cp = .contexto ∧ hasContextO cp ∧ ¬ ContextO E.U label pos cp)) ∧
    (contexto_rule E label pos = .err .contextoNoRule ↔
      (D.prop cp = .contexto ∧ ¬ hasContextO cp)) ∧
    contexto_rule E label pos ≠ .ub ∧
    (contexto_with_rule cp = true ↔ hasContextO cp) := by
  have hj : ContextO E.U label pos cp → hasContextO cp := contextO_has
  refine ⟨?_, ?_, ?_, ?_, contexto_with_rule_iff cp⟩ <;>
  rcases contexto_rule_spec hI hcp hr with ⟨h1, h2⟩ | ⟨h1, h2, h3, h4⟩ | ⟨h1, h2, h3⟩ <;>
    rw [h1] <;> simp <;> grind

-- l·l and a·l; Greek keraia; geresh; digits; katakana middle dot
example : contexto_rule Sample.E [0x6C, 0xB7, 0x6C] 1 = .ok () ∧
    contexto_rule Sample.E [0x61, 0xB7, 0x6C] 1 = .err .contexto ∧
    contexto_rule Sample.E [0x375, 0x3B1] 0 = .ok () ∧
    contexto_rule Sample.E [0x375] 0 = .err .contexto ∧
    contexto_rule Sample.E [0x5D0, 0x5F3] 1 = .ok () ∧
    contexto_rule Sample.E [0x660, 0x6F1] 0 = .err .contexto ∧
    contexto_rule Sample.E [0x30FB, 0x3042] 0 = .ok () ∧
    contexto_rule Sample.E [0x30FB, 0x61] 0 = .err .contexto := by decide +kernel
example : Sample.D.prop 0xB7 = .contexto ∧ Sample.D.prop 0x30FB = .contexto := by decide +kernel

/-! ### C29: the label test -/

/-- C29.  For every label of code points and every selection of tests: the test succeeds iff
no selected condition is violated; an error code names a selected condition which is
violated; and there is no undefined behaviour. -/
theorem C29_label_test {E : Env} {D : Data} (hI : Implements E.T D) (what : Nat) {label : List Nat}
    (hl : ∀ c ∈ label, c ≤ 0x10FFFF) :
    ((label_test E what label : Out _) = .val (.ok ()) ↔ ∀ e, ¬ Fault D E.U what label e) ∧
    (∀ e, (label_test E what label : Out _) = .val (.error e) → Fault D E.U what label e) ∧
    (label_test E what label : Out _) ≠ .ub := by
  rw [label_test_out]
  rcases blk_label_test hI what hl with ⟨h1, h2⟩ | ⟨e, h1, h2⟩
  · rw [h1]
    exact ⟨⟨fun _ => h2, fun _ => rfl⟩, fun e h => by simp at h, by simp⟩
  · rw [h1]
    refine ⟨⟨fun h => by simp at h, fun h => absurd h2 (h e)⟩, fun e' h => ?_, by simp⟩
    simp at h
    exact h ▸ h2

-- bits: 0x3FFF-ish selections give the various codes
example : (label_test Sample.E 0x6A5F [0x62, 0xFC] : Out _) = .val (.ok ()) ∧
    (label_test Sample.E 0x0001 [0x61, 0x300] : Out _) = .val (.error .notNfc) ∧
    (label_test Sample.E 0x0002 [0x61, 0x62, 0x2D, 0x2D] : Out _) = .val (.error .twoHyphen) ∧
    (label_test Sample.E 0x0004 [0x2D, 0x62] : Out _) = .val (.error .hyphenStartEnd) ∧
    (label_test Sample.E 0x0008 [0x300, 0x62] : Out _) = .val (.error .leadingCombining) ∧
    (label_test Sample.E 0x0010 [0x41] : Out _) = .val (.error .disallowed) ∧
    (label_test Sample.E 0x0400 [0x378] : Out _) = .val (.error .unassigned) ∧
    (label_test Sample.E 0x1000 [0xDF] : Out _) = .val (.error .invalidTransitional) ∧
    (label_test Sample.E 0x2000 [0xDF] : Out _) = .val (.ok ()) ∧
    (label_test Sample.E 0x2000 [0x41] : Out _) = .val (.error .invalidNontransitional) ∧
    (label_test Sample.E 0x2000 [0x5F] : Out _) = .val (.error .invalidNontransitional) ∧
    (label_test Sample.E 0x6000 [0x5F] : Out _) = .val (.ok ()) := by decide +kernel

/-- C50. When several selected conditions are violated, the code reported is the one of the
condition that comes first in the order of `faultRank`: whatever other condition is violated
ranks at least as high. -/
theorem C50_first_fault {E : Env} {D : Data} (hI : Implements E.T D) (what : Nat) {label : List Nat}
    (hl : ∀ c ∈ label, c ≤ 0x10FFFF) {e : Rc}
    (h : (label_test E what label : Out _) = .val (.error e)) :
    Fault D E.U what label e ∧ ∀ e', Fault D E.U what label e' → faultRank e ≤ faultRank e' := by
  rw [label_test_out] at h
  have hr := rblk_label_test hI what hl
  have hx : labelTestP E what label = .err e := by
    cases hp : labelTestP E what label with
    | ok u => rw [hp] at h; simp at h
    | err e' => rw [hp] at h; simp at h; rw [h]
    | ub => rw [hp] at h; simp at h
  exact ⟨hr.1.err hx, hr.2.2 e hx⟩

/-- A code with the given rank. -/
private def ofRank : Nat → Rc
  | 1 => .twoHyphen
  | 2 => .hyphenStartEnd
  | 3 => .leadingCombining
  | 4 => .disallowed
  | 7 => .unassigned
  | 8 => .bidi
  | _ => .dotInLabel

private theorem ofRank_faultRank {D : Data} {U : Uni} {what : Nat} {label : List Nat} {e : Rc}
    (h : Fault D U what label e) (h5 : faultRank e ≠ 5) (h6 : faultRank e ≠ 6) :
    (faultRank e = 0 ∧ e = .nfc ∧ U.nfc label = none) ∨
    (faultRank e = 0 ∧ e = .notNfc ∧ U.nfc label ≠ none) ∨
    (faultRank e = 10 ∧ e = .invalidTransitional ∧ what.testBit 12 = true) ∨
    (faultRank e = 10 ∧ e = .invalidNontransitional ∧ what.testBit 12 = false) ∨
    (faultRank e ≠ 0 ∧ faultRank e ≠ 10 ∧ ofRank (faultRank e) = e) := by
  cases h with
  | nfc _ h => exact Or.inl ⟨rfl, rfl, h⟩
  | notNfc t _ h _ => exact Or.inr (Or.inl ⟨rfl, rfl, by rw [h]; simp⟩)
  | invalidTransitional c h _ _ => exact Or.inr (Or.inr (Or.inl ⟨rfl, rfl, h⟩))
  | invalidNontransitional c h _ _ _ => exact Or.inr (Or.inr (Or.inr (Or.inl ⟨rfl, rfl, h⟩)))
  | contextjAny => exact absurd rfl h5
  | contextj => exact absurd rfl h5
  | contextjNoRule => exact absurd rfl h5
  | contextoAny => exact absurd rfl h6
  | contexto => exact absurd rfl h6
  | contextoNoRule => exact absurd rfl h6
  | _ => exact Or.inr (Or.inr (Or.inr (Or.inr ⟨by decide, by decide, rfl⟩)))

/-- C50, read the other way: unless a contextual rule is at stake, the violated condition of
least rank is the one reported. -/
theorem C50_reported {E : Env} {D : Data} (hI : Implements E.T D) (what : Nat) {label : List Nat}
    (hl : ∀ c ∈ label, c ≤ 0x10FFFF) {e : Rc} (hf : Fault D E.U what label e)
    (hmin : ∀ e', Fault D E.U what label e' → faultRank e ≤ faultRank e')
    (h5 : faultRank e ≠ 5) (h6 : faultRank e ≠ 6) :
    (label_test E what label : Out _) = .val (.error e) := by
  obtain ⟨h1, h2, h3⟩ := C29_label_test hI what hl
  cases hr : (label_test E what label : Out (Except Rc Unit)) with
  | ub => exact absurd hr h3
  | val x =>
    cases x with
    | ok u => exact absurd hf (h1.mp hr e)
    | error e' =>
      obtain ⟨g1, g2⟩ := C50_first_fault hI what hl hr
      have a := g2 e hf
      have b := hmin e' g1
      have heq : faultRank e = faultRank e' := Nat.le_antisymm b a
      have : e = e' := by
        have p := ofRank_faultRank hf h5 h6
        have q := ofRank_faultRank g1 (heq ▸ h5) (heq ▸ h6)
        rw [← heq] at q
        clear h1 h2 h3 hr g1 g2 a b hmin hf h5 h6
        grind
      rw [this]

-- a label with several faults: two hyphens, a leading hyphen, an upper-case letter
example : (label_test Sample.E 0x0016 [0x2D, 0x41, 0x2D, 0x2D] : Out _) = .val (.error .twoHyphen) ∧
    (label_test Sample.E 0x0014 [0x2D, 0x41, 0x2D, 0x2D] : Out _) = .val (.error .hyphenStartEnd) ∧
    (label_test Sample.E 0x2010 [0x2D, 0x41, 0x2D, 0x2D] : Out _) = .val (.error .disallowed) ∧
    (label_test Sample.E 0x2000 [0x2D, 0x41, 0x2D, 0x2D] : Out _) =
      .val (.error .invalidNontransitional) := by decide +kernel

end Idn2
