import Verif.Props.Answer
import Verif.Spec.FlagBits
import Verif.Model.Compat

/-
Which bits of the flags matter to lookup.
-/

namespace Idn2

open Spec

/-- Flags without conflict that ask for the same. -/
structure Agree (a b : Nat) : Prop where
  ca : ¬ Conflict a
  cb : ¬ Conflict b
  b2 : a.testBit 2 = b.testBit 2
  b5 : a.testBit 6 = false → a.testBit 5 = b.testBit 5
  b6 : a.testBit 6 = b.testBit 6
  b7 : a.testBit 7 = b.testBit 7
  b0 : a.testBit 6 = true → a.testBit 0 = b.testBit 0

theorem conflict_6_2 {f : Nat} (h : ¬ Conflict f) (h6 : f.testBit 6 = true) :
    f.testBit 2 = false := by
  unfold Conflict at h
  cases h2 : f.testBit 2
  · rfl
  · exact absurd (.inr (.inl ⟨h6, .inl h2⟩)) h

theorem sameFlags_cases {a b : Nat} (h : SameFlags a b) :
    (Conflict a ∧ Conflict b) ∨ Agree a b := by
  rcases h with h | ⟨h1, h2, h6, h7, h⟩
  · exact .inl h
  · refine .inr ?_
    split at h
    · next h6' =>
      exact ⟨h1, h2, by rw [conflict_6_2 h1 h6', conflict_6_2 h2 (h6 ▸ h6')],
        fun h => by simp [h] at h6', h6, h7, fun _ => h⟩
    · next h6' => exact ⟨h1, h2, h.1, fun _ => h.2, h6, h7, fun h => absurd h h6'⟩

theorem Spec.SameFlags.symm {a b : Nat} (h : SameFlags a b) : SameFlags b a := by
  rcases h with ⟨h1, h2⟩ | ⟨h1, h2, h6, h7, h⟩
  · exact .inl ⟨h2, h1⟩
  · refine .inr ⟨h2, h1, h6.symm, h7.symm, ?_⟩
    rw [← h6]
    split at h
    · next h' => rw [if_pos h']; exact h.symm
    · next h' => rw [if_neg h']; exact ⟨h.1.symm, h.2.symm⟩

theorem Agree.symm {a b : Nat} (h : Agree a b) : Agree b a :=
  ⟨h.cb, h.ca, h.b2.symm, fun h6 => (h.b5 (h.b6.trans h6)).symm, h.b6.symm, h.b7.symm,
    fun h6 => (h.b0 (h.b6.trans h6)).symm⟩

theorem Agree.tr46Tests {a b : Nat} (h : Agree a b) (h6 : a.testBit 6 = false) :
    Spec.tr46Tests a = Spec.tr46Tests b := by
  unfold Spec.tr46Tests; rw [h.b2, h.b5 h6]

theorem Agree.tr46TestsA {a b : Nat} (h : Agree a b) (h6 : a.testBit 6 = false) :
    Spec.tr46TestsA a = Spec.tr46TestsA b := by
  unfold Spec.tr46TestsA; rw [h.b5 h6]

variable {D : Data} {U : Uni} {a b : Nat}

/-- Without the tests of UTS #46 it does not matter whether STD3 characters are allowed. -/
theorem faultAt_std3 {w w' : Nat} (hl : ∀ k, k ≠ 14 → w.testBit k = w'.testBit k)
    (h12 : w.testBit 12 = false) (h13 : w.testBit 13 = false) {l : List Nat} {k pos : Nat} {e : Rc}
    (x : FaultAt D U w l k pos e) : FaultAt D U w' l k pos e := by
  have e12 := hl 12 (by omega)
  have e13 := hl 13 (by omega)
  cases x with
  | nfc h => exact .nfc (hl 0 (by omega) ▸ h) ‹_›
  | notNfc t h => exact .notNfc t (hl 0 (by omega) ▸ h) ‹_› ‹_›
  | twoHyphen h => exact .twoHyphen (hl 1 (by omega) ▸ h) ‹_› ‹_›
  | hyphenStartEnd h => exact .hyphenStartEnd (hl 2 (by omega) ▸ h) ‹_›
  | leadingCombining c h => exact .leadingCombining c (hl 3 (by omega) ▸ h) ‹_› ‹_›
  | disallowed _ c h =>
    refine .disallowed _ c (hl 4 (by omega) ▸ h) ‹_› ‹_› ?_
    rintro ⟨h | h, _⟩
    · rw [← e12, h12] at h; cases h
    · rw [← e13, h13] at h; cases h
  | contextjAny _ c h => exact .contextjAny _ c (hl 5 (by omega) ▸ h) ‹_› ‹_›
  | contextj _ c h => exact .contextj _ c (hl 6 (by omega) ▸ h) ‹_› ‹_› ‹_› ‹_›
  | contextjNoRule _ c h => exact .contextjNoRule _ c (hl 6 (by omega) ▸ h) ‹_› ‹_› ‹_› ‹_›
  | contextoAny _ c h => exact .contextoAny _ c (hl 7 (by omega) ▸ h) ‹_› ‹_›
  | contextoWithout _ c h => exact .contextoWithout _ c (hl 8 (by omega) ▸ h) ‹_› ‹_› ‹_›
  | contextoNoRule _ c h => exact .contextoNoRule _ c (hl 9 (by omega) ▸ h) ‹_› ‹_› ‹_›
  | contexto _ c h => exact .contexto _ c (hl 9 (by omega) ▸ h) ‹_› ‹_› ‹_› ‹_›
  | unassigned _ c h => exact .unassigned _ c (hl 10 (by omega) ▸ h) ‹_› ‹_›
  | bidi h => exact .bidi (hl 11 (by omega) ▸ h) ‹_›
  | dotInLabel _ h =>
    rcases h with h | h
    · rw [h12] at h; cases h
    · rw [h13] at h; cases h
  | invalidTransitional _ c h => rw [h12] at h; cases h
  | invalidNontransitional _ c _ h => rw [h13] at h; cases h

theorem Agree.labelTests' {a b : Nat} (h : Agree a b) (h6 : a.testBit 6 = false) :
    Spec.labelTests a = Spec.labelTests b := by
  unfold Spec.labelTests; rw [h.b2, h.b6, h.b5 h6]

theorem Agree.at (h : Agree a b) {l : List Nat} {k pos : Nat} {e : Rc} :
    FaultAt D U (labelTests a) l k pos e ↔ FaultAt D U (labelTests b) l k pos e := by
  cases h6 : a.testBit 6 with
  | false => rw [h.labelTests' h6]
  | true =>
    have e2 : ∀ {f : Nat}, ¬ Conflict f → f.testBit 6 = true → labelTests f = 0xD5B ∨
        labelTests f = 0x4D5B := by
      intro f hc h
      unfold Spec.labelTests
      rw [conflict_6_2 hc h, h]
      cases f.testBit 5 <;> decide
    have e3 : ∀ k, k ≠ 14 → Nat.testBit 0xD5B k = Nat.testBit 0x4D5B k := by
      intro k hk
      have : (0x4D5B : Nat) = 0xD5B ||| 2 ^ 14 := by decide
      rw [this, Nat.testBit_or, Nat.testBit_two_pow]
      simp; omega
    have x1 : ∀ {w w' : Nat}, (w = 0xD5B ∨ w = 0x4D5B) → (w' = 0xD5B ∨ w' = 0x4D5B) →
        FaultAt D U w l k pos e → FaultAt D U w' l k pos e := by
      rintro w w' (rfl | rfl) (rfl | rfl) hx
      · exact hx
      · exact faultAt_std3 e3 (by decide) (by decide) hx
      · exact faultAt_std3 (fun k hk => (e3 k hk).symm) (by decide) (by decide) hx
      · exact hx
    have ha := e2 h.ca h6
    have hb := e2 h.cb (h.b6 ▸ h6)
    exact ⟨x1 ha hb, x1 hb ha⟩

theorem Agree.first (h : Agree a b) {l : List Nat} {e : Rc}
    (x : FirstFault D U (labelTests a) l e) : FirstFault D U (labelTests b) l e := by
  obtain ⟨k, pos, h1, h2⟩ := x
  exact ⟨k, pos, h.at.mp h1, fun k' pos' e' h' => h2 k' pos' e' (h.at.mpr h')⟩

theorem Agree.free (h : Agree a b) {l : List Nat}
    (x : ∀ e, ¬ Fault D U (labelTests a) l e) : ∀ e, ¬ Fault D U (labelTests b) l e := by
  intro e he
  obtain ⟨k, pos, hf⟩ := he.at
  exact x e (h.at.mpr hf).fault

theorem Agree.tr46Label (h : Agree a b) (h6 : a.testBit 6 = false) {l : List Nat} (x : Tr46Label D U a l) :
    Tr46Label D U b l := by
  cases x with
  | alabel t u h1 h2 h3 => exact .alabel t u h1 h2 (h.tr46TestsA h6 ▸ h3)
  | ulabel h1 h2 => exact .ulabel h1 (h.tr46Tests h6 ▸ h2)

theorem Agree.labelTo (h : Agree a b) {l d : List Nat} (x : LabelTo D U a l d) :
    LabelTo D U b l d := by
  cases x with
  | ascii h1 h2 h3 => exact .ascii h1 (h.b7 ▸ h2) h3
  | alabel t u h1 h2 h3 h4 h5 h6 h7 =>
    exact .alabel t u (h.b7 ▸ h1) h2 h3 h4 (h.free h5) h6 h7
  | ulabel h1 h2 h3 h4 => exact .ulabel h1 (h.free h2) (h.b7 ▸ h3) h4

theorem Agree.labelErr (h : Agree a b) {l : List Nat} {e : Rc} (x : LabelErr D U a l e) :
    LabelErr D U b l e := by
  cases x with
  | long h1 h2 h3 => exact .long h1 (h.b7 ▸ h2) h3
  | undecodable e h1 h2 h3 => exact .undecodable e (h.b7 ▸ h1) h2 h3
  | surrogate t u h1 h2 h3 h4 => exact .surrogate t u (h.b7 ▸ h1) h2 h3 h4
  | alabelFault t u e h1 h2 h3 h4 h5 =>
    exact .alabelFault t u e (h.b7 ▸ h1) h2 h3 h4 (h.first h5)
  | alabelLong t u h1 h2 h3 h4 h5 h6 =>
    exact .alabelLong t u (h.b7 ▸ h1) h2 h3 h4 (h.free h5) h6
  | alabelOther t u h1 h2 h3 h4 h5 h6 h7 =>
    exact .alabelOther t u (h.b7 ▸ h1) h2 h3 h4 (h.free h5) h6 h7
  | ulabelFault e h1 h2 => exact .ulabelFault e h1 (h.first h2)
  | ulabelLong e h1 h2 h3 => exact .ulabelLong e h1 (h.free h2) h3
  | ulabelOther h1 h2 h3 h4 h5 => exact .ulabelOther h1 (h.free h2) h3 (h.b7 ▸ h4) h5

theorem Agree.labelToNfc (h : Agree a b) {l d : List Nat} (x : LabelToNfc D U a l d) :
    LabelToNfc D U b l d := by
  cases x with
  | ascii h1 h2 h3 => exact .ascii h1 (h.b7 ▸ h2) h3
  | alabel t u v h1 h2 h3 h4 h5 h6 h7 h8 =>
    exact .alabel t u v (h.b7 ▸ h1) h2 h3 h4 h5 (h.free h6) h7 h8
  | ulabel v h1 h2 h3 h4 h5 => exact .ulabel v h1 h2 (h.free h3) (h.b7 ▸ h4) h5

theorem Agree.labelErrNfc (h : Agree a b) {l : List Nat} {e : Rc}
    (x : LabelErrNfc D U a l e) : LabelErrNfc D U b l e := by
  cases x with
  | long h1 h2 h3 => exact .long h1 (h.b7 ▸ h2) h3
  | undecodable e h1 h2 h3 => exact .undecodable e (h.b7 ▸ h1) h2 h3
  | surrogate t u h1 h2 h3 h4 => exact .surrogate t u (h.b7 ▸ h1) h2 h3 h4
  | alabelNfc t u h1 h2 h3 h4 h5 => exact .alabelNfc t u (h.b7 ▸ h1) h2 h3 h4 h5
  | alabelFault t u v e h1 h2 h3 h4 h5 h6 =>
    exact .alabelFault t u v e (h.b7 ▸ h1) h2 h3 h4 h5 (h.first h6)
  | alabelLong t u v e h1 h2 h3 h4 h5 h6 h7 =>
    exact .alabelLong t u v e (h.b7 ▸ h1) h2 h3 h4 h5 (h.free h6) h7
  | alabelOther t u v h1 h2 h3 h4 h5 h6 h7 h8 =>
    exact .alabelOther t u v (h.b7 ▸ h1) h2 h3 h4 h5 (h.free h6) h7 h8
  | ulabelNfc h1 h2 => exact .ulabelNfc h1 h2
  | ulabelFault v e h1 h2 h3 => exact .ulabelFault v e h1 h2 (h.first h3)
  | ulabelLong v e h1 h2 h3 h4 => exact .ulabelLong v e h1 h2 (h.free h3) h4
  | ulabelOther v h1 h2 h3 h4 h5 h6 =>
    exact .ulabelOther v h1 h2 (h.free h3) h4 (h.b7 ▸ h5) h6

theorem Spec.Each.imp {α β : Type} {R S : α → β → Prop} (hR : ∀ {x y}, R x y → S x y) {xs : List α}
    {ys : List β} (h : Each R xs ys) : Each S xs ys := by
  induction h with
  | nil => exact .nil
  | cons h _ ih => exact .cons (hR h) ih

theorem Spec.FirstErr.imp {ok ok' : List Nat → List Nat → Prop} {err err' : List Nat → Rc → Prop}
    (ho : ∀ {x y}, ok x y → ok' x y) (he : ∀ {x y}, err x y → err' x y) {ls : List (List Nat)}
    {e : Rc} (h : FirstErr ok err ls e) : FirstErr ok' err' ls e := by
  obtain ⟨pre, l, post, ds, h1, h2, h3, h4⟩ := h.ex
  refine ⟨pre, l, post, ds, h1, h2.imp ho, h3, ?_⟩
  rcases h4 with h4 | ⟨d, h4, h5⟩
  · exact .inl (he h4)
  · exact .inr ⟨d, ho h4, h5⟩

theorem Agree.processed (h : Agree a b) {u x : List Nat} (p : Processed D U a u x) :
    Processed D U b u x := by
  unfold Processed at p ⊢
  rw [← h.b6]
  cases h6 : a.testBit 6 with
  | true => rw [h6] at p; exact p
  | false =>
    rw [h6] at p
    rw [← h.b2, ← h.b5 h6]
    exact ⟨p.1, p.2.1, p.2.2.1, fun l hl => h.tr46Label h6 (p.2.2.2 l hl)⟩

theorem Agree.tr46Fault (h : Agree a b) (h6 : a.testBit 6 = false) {l : List Nat} {e : Rc} (x : Tr46Fault D U a l e) :
    Tr46Fault D U b l e := by
  cases x with
  | alabel t u h1 h2 h3 => exact .alabel t u h1 h2 (h.tr46TestsA h6 ▸ h3)
  | ulabel h1 h2 => exact .ulabel h1 (h.tr46Tests h6 ▸ h2)

theorem Agree.processErr (h : Agree a b) (h6 : a.testBit 6 = false) {u : List Nat} {e : Rc} (p : ProcessErr D U a u e) :
    ProcessErr D U b u e := by
  cases p with
  | disallowed c h1 h2 => exact .disallowed c h1 h2
  | long h1 h2 => exact .long h1 (h.b2 ▸ h.b5 h6 ▸ h2)
  | nfc h1 h2 h3 => exact .nfc h1 (h.b2 ▸ h.b5 h6 ▸ h2) (h.b2 ▸ h.b5 h6 ▸ h3)
  | labels x e h1 h2 h3 h4 =>
    refine .labels x e h1 (h.b2 ▸ h.b5 h6 ▸ h2) (h.b2 ▸ h.b5 h6 ▸ h3) ?_
    cases h4 with
    | stop pre post l h1 h2 h3 => exact .stop pre post l h1 h2 h3
    | last pre post l h1 h2 h3 h4 =>
      exact .last pre post l h1 h2 (h.tr46Fault h6 h3) fun l hl => h.tr46Label h6 (h4 l hl)

theorem Agree.lookup (h : Agree a b) {s : List Nat} {r : Except Rc (List Nat)}
    (x : Lookup D U a s r) : Lookup D U b s r := by
  have hto : a.testBit 6 = true → ∀ {l d}, BytesTo D U a l d → BytesTo D U b l d := by
    rintro h6 l d ⟨u, h1, h2, h3⟩
    refine ⟨u, h1, h2, ?_⟩
    rw [← h.b0 h6]
    split at h3
    · next h0 => rw [if_pos h0]; exact h.labelToNfc h3
    · next h0 => rw [if_neg h0]; exact h.labelTo h3
  have herr : a.testBit 6 = true → ∀ {l e}, BytesErr D U a l e → BytesErr D U b l e := by
    rintro h6 l e (h1 | ⟨u, h1, h2, h3⟩)
    · exact .inl h1
    · refine .inr ⟨u, h1, h2, ?_⟩
      rw [← h.b0 h6]
      split at h3
      · next h0 => rw [if_pos h0]; exact h.labelErrNfc h3
      · next h0 => rw [if_neg h0]; exact h.labelErr h3
  cases x with
  | conflict h1 => exact absurd h1 h.ca
  | malformed h1 h2 h3 => exact .malformed (h.cb) (h.b6 ▸ h2) h3
  | result u n h1 h2 h3 h4 h5 =>
    obtain ⟨x, ds, h6, h7, h8⟩ := h5
    exact .result u n (h.cb) (h.b6 ▸ h2) h3 h4
      ⟨x, ds, h.processed h6, h7.imp h.labelTo, h8⟩
  | error u e h1 h2 h3 h4 h5 =>
    refine .error u e (h.cb) (h.b6 ▸ h2) h3 h4 ?_
    rcases h5 with ⟨h5, h6⟩ | ⟨x, h5, h6⟩
    · exact .inl ⟨h.b6 ▸ h5, h.processErr h5 h6⟩
    · exact .inr ⟨x, h.processed h5, h6.imp h.labelTo h.labelErr⟩
  | labels ds h1 h2 h3 h4 =>
    exact .labels ds (h.cb) (h.b6 ▸ h2) (h3.imp (hto h2)) h4
  | label e h1 h2 h3 => exact .label e (h.cb) (h.b6 ▸ h2) (h3.imp (hto h2) (herr h2))

theorem Spec.SameFlags.lookup (h : SameFlags a b) {s : List Nat} {r : Except Rc (List Nat)}
    (x : Lookup D U a s r) : Lookup D U b s r := by
  rcases sameFlags_cases h with ⟨h1, h2⟩ | h
  · cases x with
    | conflict _ => exact .conflict h2
    | malformed h => exact absurd h1 h
    | result _ _ h => exact absurd h1 h
    | error _ _ h => exact absurd h1 h
    | labels _ h => exact absurd h1 h
    | label _ h => exact absurd h1 h
  · exact h.lookup x

/-! ### The calls -/

theorem lookupF_same {E : Env} {D : Data} (W : World E D) (h : SameFlags a b) {s : List Nat}
    (h0 : 0 ∉ s) : lookupF E D a s = lookupF E D b s := by
  obtain ⟨r, hr⟩ := toRes_total (lookupF_ne_ub W a h0)
  rw [hr]
  exact ((lookupF_is W b h0 r).mpr (h.lookup ((lookupF_is W a h0 r).mp hr))).symm

theorem arrP_same {E : Env} {D : Data} (W : World E D) (h : SameFlags a b) (x : List Nat) :
    arrP E D a x = arrP E D b x := by
  unfold arrP
  split
  · rfl
  · exact lookupF_same W h (zero_mem_utf8s (mem_takeWhile_ne x))

theorem Spec.SameFlags.or_one (h : SameFlags a b) : SameFlags (a ||| 1) (b ||| 1) := by
  have e : ∀ f k : Nat, 0 < k → (f ||| 1).testBit k = f.testBit k := by
    intro f k hk
    have : Nat.testBit 1 k = false := by
      rw [← Bool.not_eq_true, Nat.testBit_one_eq_true_iff_self_eq_zero]; omega
    rw [Nat.testBit_or, this, Bool.or_false]
  have c : ∀ f, Conflict (f ||| 1) ↔ Conflict f := by
    intro f; unfold Conflict
    rw [e f 1 (by omega), e f 2 (by omega), e f 3 (by omega), e f 6 (by omega), e f 7 (by omega)]
  unfold SameFlags at h ⊢
  rw [c, c, e _ 2 (by omega), e _ 2 (by omega), e _ 5 (by omega), e _ 5 (by omega),
    e _ 6 (by omega), e _ 6 (by omega), e _ 7 (by omega), e _ 7 (by omega)]
  rcases h with h | ⟨h1, h2, h3, h4, h⟩
  · exact .inl h
  · refine .inr ⟨h1, h2, h3, h4, ?_⟩
    split at h
    · next h' => rw [if_pos h']; simp
    · next h' => rw [if_neg h']; exact h

theorem ulP_same {E : Env} {D : Data} (W : World E D) (h : SameFlags (a ||| 1) (b ||| 1)) {s : List Nat}
    (h0 : ∀ t, E.U.fromLocale s = some t → 0 ∉ t) : ulP E D a s = ulP E D b s := by
  unfold ulP
  split
  · rfl
  · next t ht => exact lookupF_same W h (h0 t ht)

/-- C74: lookup depends on no more of the flags than `SameFlags` says: whether they conflict,
TRANSITIONAL, USE_STD3_ASCII_RULES, NO_TR46, NO_ALABEL_ROUNDTRIP and, only with NO_TR46,
NFC_INPUT. -/
theorem C74_flag_bits {E : Env} {D : Data} (W : World E D) (h : SameFlags a b) {s : List Nat}
    (h0 : 0 ∉ s) (out : Option Cell) :
    (idn2_lookup_u8 E (some s) out a : Out _) = idn2_lookup_u8 E (some s) out b ∧
    (idn2_to_ascii_8z E (some s) out a : Out _) = idn2_to_ascii_8z E (some s) out b ∧
    (idn2_to_ascii_4z E (some s) out a : Out _) = idn2_to_ascii_4z E (some s) out b := by
  have e : (idn2_lookup_u8 E (some s) out a : Out _) = idn2_lookup_u8 E (some s) out b := by
    rw [lookup_retOf W a h0, lookup_retOf W b h0, lookupF_same W h h0]
  exact ⟨e, e, by rw [(arrP_out W a s out).2.2 h0, (arrP_out W b s out).2.2 h0, arrP_same W h]⟩

/-- C74 for arrays. -/
theorem C74_flag_bits_array {E : Env} {D : Data} (W : World E D) (h : SameFlags a b)
    (x : List Nat) (out : Option Cell) (buf : Option (List Nat)) :
    (idn2_to_ascii_4i2 E (some x) out a : Out _) = idn2_to_ascii_4i2 E (some x) out b ∧
    (idn2_to_ascii_4i E (some x) buf a : Out _) = idn2_to_ascii_4i E (some x) buf b := by
  have e : ∀ out, (idn2_to_ascii_4i2 E (some x) out a : Out _) =
      idn2_to_ascii_4i2 E (some x) out b := fun out => by
    rw [(arrP_out W a x out).2.1, (arrP_out W b x out).2.1, arrP_same W h]
  refine ⟨e out, ?_⟩
  unfold idn2_to_ascii_4i
  simp only [e]

/-- C74 for strings in the encoding of the locale, where NFC_INPUT never matters. -/
theorem C74_flag_bits_locale {E : Env} {D : Data} (W : World E D) (U : E.U.Locale)
    (h : SameFlags (a ||| 1) (b ||| 1)) (s : List Nat) (out : Option Cell) :
    (idn2_lookup_ul E (some s) out a : Out _) = idn2_lookup_ul E (some s) out b ∧
    (idn2_to_ascii_lz E (some s) out a : Out _) = idn2_to_ascii_lz E (some s) out b := by
  have hl : ∀ t, E.U.fromLocale s = some t → 0 ∉ t := fun t h => (U.from_ok s t h).2
  have e : (idn2_lookup_ul E (some s) out a : Out _) = idn2_lookup_ul E (some s) out b := by
    rw [(ulP_out W a hl out).2, (ulP_out W b hl out).2, ulP_same W h hl]
  exact ⟨e, e⟩

/-! ### No less of the flags -/

/-- The least flags that ask for the same. -/
def canon (f : Nat) : Nat :=
  if Conflict f then 12
  else if f.testBit 6 then
    64 + (if f.testBit 7 then 128 else 0) + (if f.testBit 0 then 1 else 0)
  else (if f.testBit 7 then 128 else 0) + (if f.testBit 2 then 4 else 0) +
    (if f.testBit 5 then 32 else 0)

def canons : List Nat := [12, 64, 65, 192, 193, 0, 4, 32, 36, 128, 132, 160, 164]

theorem canon_mem (f : Nat) : canon f ∈ canons := by
  unfold canon
  split
  · decide
  · split
    · split <;> split <;> decide
    · split <;> split <;> split <;> decide

theorem canon_same (f : Nat) : SameFlags f (canon f) := by
  unfold canon
  by_cases hc : Conflict f
  · rw [if_pos hc]; exact .inl ⟨hc, by decide⟩
  · rw [if_neg hc]
    refine .inr ?_
    refine ⟨hc, ?_⟩
    cases h6 : f.testBit 6 <;> cases h7 : f.testBit 7 <;> cases h0 : f.testBit 0 <;>
      cases h2 : f.testBit 2 <;> cases h5 : f.testBit 5 <;> decide

/-- Names that tell flags apart: an uppercase letter, sharp s, `a` with a combining accent, an
exclamation mark, a long A-label. -/
def tellers : List (List Nat) :=
  [[0x41], [0xC3, 0x9F], utf8s [0x61, 0x300], [0x21],
    xn ++ [0x6C, 0x38, 0x6A] ++ List.replicate 59 0x61]

/-- What lookup makes of them. -/
def told (f : Nat) : List (Out (Option Rc × Option Cell)) :=
  tellers.map fun s => idn2_lookup_u8 Sample.E (some s) (some (.old 0)) f

theorem told_inj : ∀ c ∈ canons, ∀ d ∈ canons, told c = told d → c = d := by
  decide +kernel

theorem Spec.SameFlags.trans {a b c : Nat} (h : SameFlags a b) (h' : SameFlags b c) :
    SameFlags a c := by
  unfold SameFlags at h h' ⊢
  rcases h with ⟨h1, h2⟩ | ⟨h1, h2, h3, h4, h5⟩ <;>
    rcases h' with ⟨g1, g2⟩ | ⟨g1, g2, g3, g4, g5⟩
  · exact .inl ⟨h1, g2⟩
  · exact absurd h2 g1
  · exact absurd g1 h2
  · refine .inr ⟨h1, g2, h3.trans g3, h4.trans g4, ?_⟩
    rw [← h3] at g5
    split at h5
    · next h => rw [if_pos h] at g5 ⊢; exact h5.trans g5
    · next h => rw [if_neg h] at g5 ⊢; exact ⟨h5.1.trans g5.1, h5.2.trans g5.2⟩

theorem told_same {a b : Nat} (h : ∀ s ∈ tellers, ∀ r,
    LookupIs Sample.E a s r ↔ LookupIs Sample.E b s r) : told a = told b := by
  unfold told
  refine List.map_congr_left fun s hs => ?_
  have h0 : ∀ s ∈ tellers, 0 ∉ s := by decide
  rcases lookup_total World.sample a (h0 s hs) with ⟨n, hr⟩ | ⟨e, hr⟩
  · exact Eq.trans hr ((h s hs (.ok n)).mp hr).symm
  · exact Eq.trans hr ((h s hs (.error e)).mp hr).symm

/-- C74, exactly: flags ask for the same if and only if no lookup tells them apart (with the data of
the examples, which agree with those of the repository up to U+00FF). -/
theorem C74_exact (a b : Nat) : SameFlags a b ↔ ∀ s, 0 ∉ s → ∀ r,
    LookupIs Sample.E a s r ↔ LookupIs Sample.E b s r := by
  have key : ∀ {a b : Nat}, SameFlags a b → ∀ s, 0 ∉ s → ∀ r,
      LookupIs Sample.E a s r ↔ LookupIs Sample.E b s r := by
    intro a b h s h0 r
    rw [C64_lookup World.sample a h0, C64_lookup World.sample b h0]
    exact ⟨h.lookup, h.symm.lookup⟩
  refine ⟨key, fun h => ?_⟩
  have h0 : ∀ s ∈ tellers, 0 ∉ s := by decide
  have ea := told_same fun s hs => key (canon_same a) s (h0 s hs)
  have eb := told_same fun s hs => key (canon_same b) s (h0 s hs)
  have e : canon a = canon b := told_inj _ (canon_mem a) _ (canon_mem b)
    (by rw [← ea, ← eb]; exact told_same fun s hs => h s (h0 s hs))
  exact (canon_same a).trans (e ▸ (canon_same b).symm)

/-- With UTS #46 processing NFC_INPUT changes nothing, and without it USE_STD3_ASCII_RULES; but
NFC_INPUT matters with NO_TR46, and USE_STD3_ASCII_RULES without. -/
example : SameFlags 0 1 ∧ SameFlags 64 (64 + 32) ∧ ¬ SameFlags 64 65 ∧ ¬ SameFlags 0 32 ∧
    SameFlags 12 (64 + 4) ∧ SameFlags 8 (16 + 2 ^ 20) := by
  decide

example : LookupErr Sample.E 64 (utf8s [0x61, 0x300]) .notNfc ∧
    LookupOk Sample.E 65 (utf8s [0x61, 0x300]) [0x78, 0x6E, 0x2D, 0x2D, 0x30, 0x63, 0x61] ∧
    LookupOk Sample.E 64 [0x21] [0x21] ∧ LookupOk Sample.E 96 [0x21] [0x21] ∧
    LookupOk Sample.E 0 [0x21] [0x21] ∧ LookupOk Sample.E 32 [0x21] [] := by
  decide +kernel

end Idn2
