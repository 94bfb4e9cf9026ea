import Verif.Props.Collision

/-
Flags that lift a check or ask for normalisation keep the results there are without them.
-/

namespace Idn2

open Spec

variable {D : Data} {U : Uni}

/-- The second flags differ from the first in NO_ALABEL_ROUNDTRIP only, which they have. -/
structure Unchecked (f g : Nat) : Prop where
  same : ∀ k, k ≠ 7 → g.testBit k = f.testBit k
  f7 : f.testBit 7 = false
  g7 : g.testBit 7 = true

theorem Unchecked.tests {f g : Nat} (h : Unchecked f g) :
    labelTests g = labelTests f ∧ tr46Tests g = tr46Tests f ∧ tr46TestsA g = tr46TestsA f := by
  unfold labelTests tr46Tests tr46TestsA
  rw [h.same 2 (by omega), h.same 5 (by omega), h.same 6 (by omega)]
  exact ⟨rfl, rfl, rfl⟩

theorem Unchecked.processed {f g : Nat} (h : Unchecked f g) {u x : List Nat}
    (p : Processed D U f u x) : Processed D U g u x := by
  unfold Processed at p ⊢
  rw [h.same 6 (by omega), h.same 2 (by omega), h.same 5 (by omega)]
  split at p
  · rw [if_pos ‹_›]; exact p
  · rw [if_neg ‹_›]
    refine ⟨p.1, p.2.1, p.2.2.1, fun l hl => ?_⟩
    cases p.2.2.2 l hl with
    | alabel t u h1 h2 h3 => exact .alabel t u h1 h2 (h.tests.2.2 ▸ h3)
    | ulabel h1 h2 => exact .ulabel h1 (h.tests.2.1 ▸ h2)

/-- Two texts that differ in the case of ASCII letters only. -/
def Alike (a b : List Nat) : Prop := a.map asciiLower = b.map asciiLower

theorem Alike.length {a b : List Nat} (h : Alike a b) : a.length = b.length := by
  have := congrArg List.length h
  simpa using this

theorem Unchecked.labelTo {f g : Nat} (h : Unchecked f g) {l d : List Nat}
    (x : LabelTo D U f l d) : ∃ d', LabelTo D U g l d' ∧ Alike d' d := by
  have hg : ¬ (g.testBit 7 = false ∧ xn <+: l) := fun h' => by rw [h.g7] at h'; cases h'.1
  cases x with
  | ascii h1 h2 h3 => exact ⟨l, .ascii h1 hg h3, rfl⟩
  | alabel t u h1 h2 h3 h4 h5 h6 h7 =>
    refine ⟨l, .ascii (h2 ▸ xn_ascii h3) hg ?_, ?_⟩
    · rw [h2, List.length_append]; simp [xn]; omega
    · rw [h2]; unfold Alike; rw [List.map_append, List.map_append, h6]
  | ulabel h1 h2 h3 h4 =>
    exact ⟨_, .ulabel h1 (h.tests.1 ▸ h2) (fun h' => by rw [h.g7] at h'; cases h') h4, rfl⟩

theorem Unchecked.labelToNfc {f g : Nat} (h : Unchecked f g) {l d : List Nat}
    (x : LabelToNfc D U f l d) : ∃ d', LabelToNfc D U g l d' ∧ Alike d' d := by
  have hg : ¬ (g.testBit 7 = false ∧ xn <+: l) := fun h' => by rw [h.g7] at h'; cases h'.1
  cases x with
  | ascii h1 h2 h3 => exact ⟨l, .ascii h1 hg h3, rfl⟩
  | alabel t u v h1 h2 h3 h4 h5 h6 h7 h8 =>
    refine ⟨l, .ascii (h2 ▸ xn_ascii h3) hg ?_, ?_⟩
    · rw [h2, List.length_append]; simp [xn]; omega
    · rw [h2]; unfold Alike; rw [List.map_append, List.map_append, h7]
  | ulabel v h1 h2 h3 h4 h5 =>
    exact ⟨_, .ulabel v h1 h2 (h.tests.1 ▸ h3) (fun h' => by rw [h.g7] at h'; cases h') h5, rfl⟩

theorem each_lift {R S T : List Nat → List Nat → Prop} {as bs : List (List Nat)} (h : Each R as bs)
    (hR : ∀ {a b}, R a b → ∃ c, S a c ∧ T c b) : ∃ cs, Each S as cs ∧ Each T cs bs :=
  each_choose h fun _ _ _ h => hR h

theorem alike_joinDot {as bs : List (List Nat)} (h : Each Alike as bs) :
    Alike (joinDot as) (joinDot bs) ∧ (as.getLast? = some [] ↔ bs.getLast? = some []) := by
  induction h with
  | nil => exact ⟨rfl, Iff.rfl⟩
  | @cons a b as bs h h' ih =>
    cases h' with
    | nil =>
      refine ⟨h, ?_⟩
      have := h.length
      simp only [List.getLast?_singleton, Option.some.injEq]
      constructor
      · rintro rfl; exact List.length_eq_zero_iff.mp (this ▸ rfl)
      · rintro rfl; exact List.length_eq_zero_iff.mp (this.trans rfl)
    | @cons c d cs es g g' =>
      refine ⟨?_, by simpa [List.getLast?_cons_cons] using ih.2⟩
      show Alike (a ++ 0x2E :: joinDot (c :: cs)) (b ++ 0x2E :: joinDot (d :: es))
      unfold Alike at h ih ⊢
      rw [List.map_append, List.map_append, List.map_cons, List.map_cons, h, ih.1]

theorem alike_limit {as bs : List (List Nat)} (h : Each Alike as bs)
    (hl : (joinDot bs).length ≤ if bs.getLast? = some [] then 254 else 253) :
    (joinDot as).length ≤ if as.getLast? = some [] then 254 else 253 := by
  obtain ⟨h1, h2⟩ := alike_joinDot h
  rw [h1.length]
  simp only [h2]
  exact hl

/-- C80: what is looked up with A-labels being checked is also looked up with
NO_ALABEL_ROUNDTRIP, and the results differ at most in the case of ASCII letters. -/
theorem C80_unchecked {E : Env} (W : World E D) {f g : Nat}
    (hfg : ∀ k, k ≠ 7 → g.testBit k = f.testBit k) (f1 : f.testBit 1 = false)
    (f7 : f.testBit 7 = false) (g7 : g.testBit 7 = true) {s n : List Nat} (h0 : 0 ∉ s)
    (h : LookupOk E f s n) :
    ∃ n', LookupOk E g s n' ∧ n'.map asciiLower = n.map asciiLower := by
  have hu : Unchecked f g := ⟨hfg, f7, g7⟩
  have hc : ¬ Conflict f → ¬ Conflict g := by
    unfold Conflict
    rw [hfg 1 (by omega), hfg 2 (by omega), hfg 3 (by omega), hfg 6 (by omega), f1]
    simp
  by_cases hb : f.testBit 0 = true ∧ f.testBit 6 = true
  · obtain ⟨h1, u, h2, rfl, ds, h3, rfl, h4⟩ := (C48_lookup_nfc W h0 hb.1 hb.2).mp h
    obtain ⟨es, h5, h6⟩ := each_lift h3 hu.labelToNfc
    refine ⟨joinDot es, (C48_lookup_nfc W h0 ((hfg 0 (by omega)).trans hb.1)
      ((hfg 6 (by omega)).trans hb.2)).mpr ⟨hc h1, u, h2, rfl, es, h5, rfl, alike_limit h6 h4⟩,
      (alike_joinDot h6).1⟩
  · obtain ⟨h1, u, h2, rfl, x, ds, h7, h3, rfl, h4⟩ := (C48_lookup_spec W h0 hb).mp h
    obtain ⟨es, h5, h6⟩ := each_lift h3 hu.labelTo
    refine ⟨joinDot es, (C48_lookup_spec W h0 (by rwa [hfg 0 (by omega), hfg 6 (by omega)])).mpr
      ⟨hc h1, u, h2, rfl, x, es, hu.processed h7, h5, rfl, alike_limit h6 h4⟩,
      (alike_joinDot h6).1⟩

/-- C80 for strings without capital letters after UTS #46 processing: the same result. -/
theorem C80_unchecked_same {E : Env} (W : World E D) {f g : Nat}
    (hfg : ∀ k, k ≠ 7 → g.testBit k = f.testBit k) (f1 : f.testBit 1 = false)
    (f6 : f.testBit 6 = false) (f7 : f.testBit 7 = false) (g7 : g.testBit 7 = true)
    {s n n' : List Nat} (h0 : 0 ∉ s) (h : LookupOk E f s n) (h' : LookupOk E g s n')
    (hn : ∀ c ∈ n', ¬ (0x41 ≤ c ∧ c ≤ 0x5A)) : n' = n := by
  obtain ⟨m, h1, h2⟩ := C80_unchecked W hfg f1 f7 g7 h0 h
  have : m = n' := by
    have := lookupIs_unique (r := .ok m) (r' := .ok n') h1 h'
    injection this
  subst this
  have low : ∀ {l : List Nat}, (∀ c ∈ l, ¬ (0x41 ≤ c ∧ c ≤ 0x5A)) → l.map asciiLower = l := by
    intro l hl
    rw [List.map_congr_left (g := id) fun c hc => by unfold asciiLower; rw [if_neg (hl c hc)]; rfl,
      List.map_id]
  have hch := result_chars W h0 f6 f7 h
  rwa [low hn, low fun c hc => (ascii_valid W.data (hch c hc).1 (hch c hc).2).2.2.1] at h2

theorem norm_self {l : List Nat} (h : U.nfc l = some l) : Norm D U l l := by
  by_cases hq : QuickYes U D (looked l)
  · exact .inl ⟨hq, rfl⟩
  · exact .inr ⟨hq, h⟩

/-- C80: with NO_TR46, what is looked up without NFC_INPUT has the same result with it. -/
theorem C80_nfc_input {E : Env} (W : World E D) {f g : Nat}
    (hfg : ∀ k, k ≠ 0 → g.testBit k = f.testBit k) (f0 : f.testBit 0 = false)
    (g0 : g.testBit 0 = true) (f6 : f.testBit 6 = true) {s n : List Nat} (h0 : 0 ∉ s)
    (h : LookupOk E f s n) : LookupOk E g s n := by
  obtain ⟨h1, u, h2, rfl, x, ds, h7, h3, h4⟩ := (C48_lookup_spec W h0 (by rw [f0]; simp)).mp h
  have hc : ¬ Conflict g := by
    revert h1
    unfold Conflict
    rw [hfg 1 (by omega), hfg 2 (by omega), hfg 3 (by omega), hfg 6 (by omega), hfg 7 (by omega)]
    exact id
  have hx : x = u := by
    unfold Processed at h7
    rwa [if_pos f6] at h7
  subst hx
  have ht : labelTests g = labelTests f := by
    unfold labelTests
    rw [hfg 2 (by omega), hfg 5 (by omega), hfg 6 (by omega)]
  have hb : (labelTests f).testBit 0 = true := by
    have f2 := conflict_6_2 h1 f6
    unfold labelTests
    rw [f2, f6]
    cases f.testBit 5 <;> decide
  have h77 := hfg 7 (by omega)
  refine (C48_lookup_nfc W h0 g0 ((hfg 6 (by omega)).trans f6)).mpr
    ⟨hc, x, h2, rfl, ds, h3.imp fun {l d} hd => ?_, h4⟩
  cases hd with
  | ascii h1 h2 h3 => exact .ascii h1 (by rw [h77]; exact h2) h3
  | alabel t u h1 h2 h3 h4 h5 h6 h7 =>
    exact .alabel t u u (h77.trans h1) h2 h3 h4 (norm_self (fault_free_nfc hb h5)) (ht ▸ h5) h6 h7
  | ulabel h1 h2 h3 h4 =>
    exact .ulabel l h1 (norm_self (fault_free_nfc hb h2)) (ht ▸ h2)
      (fun h => ⟨h1, h3 (h77.symm.trans h)⟩) h4

/-- C80, the converse: with NO_TR46, if all labels the name stands for are in NFC, then NFC_INPUT makes no
difference to the result. -/
theorem C80_nfc_names {E : Env} (W : World E D) {f g : Nat}
    (hfg : ∀ k, k ≠ 0 → g.testBit k = f.testBit k) (f0 : f.testBit 0 = false)
    (g0 : g.testBit 0 = true) (f6 : f.testBit 6 = true) {u n : List Nat}
    (hs : ∀ c ∈ u, isScalar c) (h0 : 0 ∉ u)
    (hn : ∀ l ∈ splitDot u, ∀ w, Denotes l w → E.U.nfc w = some w) :
    LookupOk E f (utf8s u) n ↔ LookupOk E g (utf8s u) n := by
  refine ⟨C80_nfc_input W hfg f0 g0 f6 (zero_mem_utf8s h0), fun h => ?_⟩
  obtain ⟨h1, v, h2, he, ds, h3, h4⟩ :=
    (C48_lookup_nfc W (zero_mem_utf8s h0) g0 ((hfg 6 (by omega)).trans f6)).mp h
  have hv := utf8s_inj hs h2 he
  subst hv
  have hc : ¬ Conflict f := by
    revert h1
    unfold Conflict
    rw [hfg 1 (by omega), hfg 2 (by omega), hfg 3 (by omega), hfg 6 (by omega), hfg 7 (by omega)]
    exact id
  have ht : labelTests g = labelTests f := by
    unfold labelTests
    rw [hfg 2 (by omega), hfg 5 (by omega), hfg 6 (by omega)]
  have h77 := hfg 7 (by omega)
  have same : ∀ {l w : List Nat}, E.U.nfc l = some l → Norm D E.U l w → w = l := by
    rintro l w hl (⟨_, h⟩ | ⟨_, h⟩)
    · exact h
    · rw [hl] at h
      injection h with h
      exact h.symm
  have hp : Processed D E.U f u u := by
    unfold Processed
    rw [if_pos f6]
  obtain ⟨es, h5, h6⟩ := each_choose (P := LabelTo D E.U f) (Q := Eq) h3 fun l hl d hd => by
    refine ⟨d, ?_, rfl⟩
    cases hd with
    | ascii h1 h2 h3 => exact .ascii h1 (by rw [← h77]; exact h2) h3
    | alabel t w v h1 h2 h3 h4 h5 h6 h7 h8 =>
      have := same (hn l hl w (.alabel t w h2 h3)) h5
      subst this
      exact .alabel t v (h77.symm.trans h1) h2 h3 h4 (ht ▸ h6) h7 h8
    | ulabel v h1 h2 h3 h4 h5 =>
      have := same (hn l hl l (.other (.inl h1))) h2
      subst this
      exact .ulabel h1 (ht ▸ h3) (fun h => (h4 (h77.trans h)).2) h5
  have hes : es = ds := each_unique (R := Eq) (fun _ _ _ x y => x.symm.trans y)
    (each_refl (R := Eq) fun _ _ => rfl) h6
  subst hes
  exact (C48_lookup_spec W (zero_mem_utf8s h0) (by rw [f0]; simp)).mpr ⟨hc, u, hs, rfl, u, es, hp, h5, h4⟩

/-- The A-label of "à" in capital letters: with NO_TR46 the check makes it lower case. -/
example : LookupOk Sample.E 64 [0x78, 0x6E, 0x2D, 0x2D, 0x30, 0x43, 0x41]
      [0x78, 0x6E, 0x2D, 0x2D, 0x30, 0x63, 0x61] ∧
    LookupOk Sample.E 192 [0x78, 0x6E, 0x2D, 0x2D, 0x30, 0x43, 0x41]
      [0x78, 0x6E, 0x2D, 0x2D, 0x30, 0x43, 0x41] := by decide +kernel

/-- More is looked up without the check: "xn--a-" (`C80_unchecked` has no converse). -/
example : LookupOk Sample.E 192 [0x78, 0x6E, 0x2D, 0x2D, 0x61, 0x2D]
      [0x78, 0x6E, 0x2D, 0x2D, 0x61, 0x2D] ∧
    LookupErr Sample.E 64 [0x78, 0x6E, 0x2D, 0x2D, 0x61, 0x2D] .punycodeBadInput := by
  decide +kernel

/-- "à" is in NFC: one result with NFC_INPUT and without. -/
example : LookupOk Sample.E 64 (utf8s [0xE0]) [0x78, 0x6E, 0x2D, 0x2D, 0x30, 0x63, 0x61] := by
  refine (C80_nfc_names World.sample (g := 65) ?_ (by decide) (by decide) (by decide) (by decide)
    (by decide) ?_).mpr (by decide +kernel)
  · intro k hk
    cases k with
    | zero => exact absurd rfl hk
    | succ k => rw [Nat.testBit_succ, Nat.testBit_succ]
  · intro l hl w hw
    rw [splitDot_nodot (by decide), List.mem_singleton] at hl
    subst hl
    cases hw with
    | alabel t _ h =>
      exact absurd (congrArg List.head? h) (by simp [xn])
    | other => decide +kernel

/-- More is looked up with NFC_INPUT: "a" with a combining accent; and "à" alike. -/
example : LookupOk Sample.E 65 (utf8s [0x61, 0x300]) [0x78, 0x6E, 0x2D, 0x2D, 0x30, 0x63, 0x61] ∧
    LookupErr Sample.E 64 (utf8s [0x61, 0x300]) .notNfc ∧
    LookupOk Sample.E 64 (utf8s [0xE0]) [0x78, 0x6E, 0x2D, 0x2D, 0x30, 0x63, 0x61] ∧
    LookupOk Sample.E 65 (utf8s [0xE0]) [0x78, 0x6E, 0x2D, 0x2D, 0x30, 0x63, 0x61] := by
  decide +kernel

end Idn2
