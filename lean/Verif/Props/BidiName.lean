import Verif.Props.Compose
import Verif.Props.Label
import Verif.Spec.BidiName

/-
Property C84: the labels a name stands for are valid, and the Bidi rule for whole names.
-/

namespace Idn2
open Spec

variable {D : Data}

theorem each_mem_left {α β : Type} {R : α → β → Prop} {as : List α} {bs : List β}
    (h : Each R as bs) {a : α} (ha : a ∈ as) : ∃ b ∈ bs, R a b := by
  induction h with
  | nil => cases ha
  | cons h1 _ ih =>
    rcases List.mem_cons.mp ha with rfl | ha
    · exact ⟨_, List.mem_cons_self, h1⟩
    · obtain ⟨b, hb, h⟩ := ih ha
      exact ⟨b, List.mem_cons_of_mem _ hb, h⟩

theorem nonascii_xn {l t u : List Nat} (h : ∃ c ∈ l, 0x80 ≤ c) (hl : l = xn ++ t)
    (ht : Decodes t u) : False := by
  obtain ⟨c, hc, hge⟩ := h
  rw [hl] at hc
  rcases List.mem_append.mp hc with hc | hc
  · have : ∀ c ∈ xn, c < 0x80 := by decide
    have := this c hc
    omega
  · have := ht.chars c hc
    unfold isLDHU at this
    omega

/-- C84.  The labels a name stands for, A-labels decoded, pass all tests of lookup, unless they
are ASCII. -/
theorem C84_valid {E : Env} (W : World E D) {f : Nat} (f7 : f.testBit 7 = false)
    {u n : List Nat} (hs : ∀ c ∈ u, isScalar c) (h0 : 0 ∉ u) (h : LookupOk E f (utf8s u) n)
    {vs : List (List Nat)} (hv : StandsFor D E.U f u vs) :
    ∀ v ∈ vs, (∃ c ∈ v, 0x80 ≤ c) → ∀ e, ¬ Fault D E.U (labelTests f) v e := by
  obtain ⟨x, ws, h1, h2, h3⟩ := hv
  intro v hv hna
  have hasc : ∀ {l : List Nat}, (∀ c ∈ l, c < 0x80) → ¬ ∃ c ∈ l, 0x80 ≤ c := by
    rintro l h ⟨c, hc, h'⟩
    have := h c hc
    omega
  by_cases hb : f.testBit 0 = true ∧ f.testBit 6 = true
  · rw [if_pos hb] at h3
    have hx : x = u := by unfold Processed at h1; rw [if_pos hb.2] at h1; exact h1
    subst hx
    obtain ⟨_, u', hv', he, ds, g1, _⟩ := (C48_lookup_nfc W (zero_mem_utf8s h0) hb.1 hb.2).mp h
    rw [← utf8s_inj hs hv' he] at g1
    obtain ⟨w, hw, hn⟩ := each_mem_right h3 hv
    obtain ⟨l, hl, hden⟩ := each_mem_right h2 hw
    obtain ⟨d, _, hto⟩ := each_mem_left g1 hl
    cases hto with
    | ascii a1 a2 a3 =>
      have hx : ¬ xn <+: l := fun h => a2 ⟨f7, h⟩
      have hwl := hden.unique (.other (.inr hx))
      subst hwl
      have := hn.unique (norm_ascii W.uni a1)
      subst this
      exact absurd hna (hasc a1)
    | alabel t u v' a1 a2 a3 a4 a5 a6 =>
      have hwl := hden.unique (.alabel t u a2 a3)
      subst hwl
      rw [hn.unique a5]
      exact a6
    | ulabel v' a1 a2 a3 =>
      have hwl := hden.unique (.other (.inl a1))
      subst hwl
      rw [hn.unique a2]
      exact a3
  · rw [if_neg hb] at h3
    subst h3
    obtain ⟨_, u', hv', he, x', ds, g0, g1, _⟩ := (C48_lookup_spec W (zero_mem_utf8s h0) hb).mp h
    rw [← utf8s_inj hs hv' he] at g0
    have hx : x' = x := by
      unfold Processed at h1 g0
      split at h1
      · rw [if_pos ‹_›] at g0
        rw [h1, g0]
      · rw [if_neg ‹_›] at g0
        have := g0.2.2.1.symm.trans h1.2.2.1
        injection this
    subst hx
    obtain ⟨l, hl, hden⟩ := each_mem_right h2 hv
    obtain ⟨d, _, hto⟩ := each_mem_left g1 hl
    cases hto with
    | ascii a1 a2 a3 =>
      have hx : ¬ xn <+: l := fun h => a2 ⟨f7, h⟩
      have hwl := hden.unique (.other (.inr hx))
      subst hwl
      exact absurd hna (hasc a1)
    | alabel t u a1 a2 a3 a4 a5 =>
      have hwl := hden.unique (.alabel t u a2 a3)
      subst hwl
      exact a5
    | ulabel a1 a2 =>
      have hwl := hden.unique (.other (.inl a1))
      subst hwl
      exact a2

/-- The Bidi test is among those of lookup, except in transitional processing. -/
theorem labelTests_bidi {f : Nat} (f2 : f.testBit 2 = false) : (labelTests f).testBit 11 = true := by
  unfold labelTests
  rw [f2]
  cases f.testBit 5 <;> cases f.testBit 6 <;> decide

/-- C84, the part of the Bidi rule for whole names that holds: the labels with right-to-left
characters satisfy it, if European and Arabic numbers are not mixed and the last character is not
a mark (see C26).  The other labels of such a name are not looked at. -/
theorem C84_bidi_name_partial {E : Env} (W : World E D) {f : Nat} (f2 : f.testBit 2 = false)
    (f7 : f.testBit 7 = false) {u n : List Nat} (hs : ∀ c ∈ u, isScalar c) (h0 : 0 ∉ u)
    (h : LookupOk E f (utf8s u) n) {vs : List (List Nat)} (hv : StandsFor D E.U f u vs)
    {v : List Nat} (hm : v ∈ vs) (hna : ∃ c ∈ v, 0x80 ≤ c) (hr : hasRtl E.U v) :
    BidiAccepted E.U v ∧
    (¬ ((∃ x ∈ v, E.U.bidi x = .EN) ∧ (∃ x ∈ v, E.U.bidi x = .AN)) →
      (∀ c, v.getLast? = some c → E.U.bidi c ≠ .NSM) → BidiRule E.U v) := by
  have hb : BidiAccepted E.U v := Classical.byContradiction fun hb =>
    C84_valid W f7 hs h0 h hv v hm hna .bidi (.bidi (labelTests_bidi f2) hb)
  refine ⟨hb, fun h4 hn => (C26_bidi_rule_partial E.U v hr h4 hn).mp ?_⟩
  rcases C26_bidi_exact E.U v with h | h
  · exact h.1
  · exact absurd hb h.2

/-- C84, the Bidi rule for whole names, is violated: "1a.א" is looked up.  The name has a
right-to-left label, and so "1a" must not begin with a digit. -/
theorem C84_bidi_name_violated :
    LookupOk Sample.E 0 (utf8s [0x31, 0x61, 0x2E, 0x5D0])
      [0x31, 0x61, 0x2E, 0x78, 0x6E, 0x2D, 0x2D, 0x34, 0x64, 0x62] ∧
    StandsFor Sample.D Sample.U 0 [0x31, 0x61, 0x2E, 0x5D0] [[0x31, 0x61], [0x5D0]] ∧
    ¬ BidiNameRule Sample.U [[0x31, 0x61], [0x5D0]] := by
  refine ⟨by decide +kernel, ?_, ?_⟩
  · have hx : splitDot [0x31, 0x61, 0x2E, 0x5D0] = [[0x31, 0x61], [0x5D0]] := by decide
    obtain ⟨vs, hv, _⟩ := lookup_stands World.sample (f := 0) (by decide)
      (u := [0x31, 0x61, 0x2E, 0x5D0])
      (n := [0x31, 0x61, 0x2E, 0x78, 0x6E, 0x2D, 0x2D, 0x34, 0x64, 0x62])
      (by decide) (by decide) (by decide +kernel)
    obtain ⟨x, ws, h1, _, _⟩ := hv
    have h2 : x = [0x31, 0x61, 0x2E, 0x5D0] := by
      have hn : Sample.U.nfc (([0x31, 0x61, 0x2E, 0x5D0] : List Nat).flatMap
          (emit Sample.D (Nat.testBit 0 2) (Nat.testBit 0 5))) = some [0x31, 0x61, 0x2E, 0x5D0] := by
        decide +kernel
      unfold Processed at h1
      rw [if_neg (by decide)] at h1
      have := h1.2.2.1.symm.trans hn
      injection this
    subst h2
    refine ⟨_, [[0x31, 0x61], [0x5D0]], h1, ?_, ?_⟩
    · rw [hx]
      exact .cons (.other (.inr (by decide))) (.cons (.other (.inr (by decide))) .nil)
    · rw [if_neg (by decide)]
  · intro h
    obtain ⟨c, r, he, h⟩ := h ⟨[0x5D0], by simp, 0x5D0, by simp, .inl (by decide)⟩ [0x31, 0x61]
      (by simp) (by simp)
    injection he with he _
    subst he
    rcases h with ⟨h, _⟩ | ⟨h, _⟩ <;> revert h <;> decide

/-- C84, beside it: a right-to-left label with a Latin letter is refused, as U-label and as A-label
("xn--a-0hc" is "aא"). -/
example : LookupErr Sample.E 0 (utf8s [0x62, 0x2E, 0x5D0, 0x61]) .bidi ∧
    LookupErr Sample.E 0 [0x78, 0x6E, 0x2D, 0x2D, 0x61, 0x2D, 0x30, 0x68, 0x63] .bidi := by
  decide +kernel

end Idn2
