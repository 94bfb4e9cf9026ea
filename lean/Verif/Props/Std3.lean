import Verif.Spec.Std3
import Verif.Props.Extension

/-
What USE_STD3_ASCII_RULES does.
-/

namespace Idn2

open Spec

variable {D : Data} {U : Uni}

/-- Flags that differ in USE_STD3_ASCII_RULES only, which the first has. -/
structure Std3Pair (f g : Nat) : Prop where
  same : ∀ k, k ≠ 5 → g.testBit k = f.testBit k
  f5 : f.testBit 5 = true
  g5 : g.testBit 5 = false

theorem Std3Pair.conflict {f g : Nat} (h : Std3Pair f g) : Conflict g ↔ Conflict f := by
  unfold Conflict
  rw [h.same 1 (by omega), h.same 2 (by omega), h.same 3 (by omega), h.same 6 (by omega),
    h.same 7 (by omega)]

/-- Two masks of tests that differ in ALLOW_STD3_DISALLOWED only: what passes the stricter passes
the other, and if no character has an STD3 status both agree. -/
theorem free_std3 {w w' : Nat} (hl : ∀ k, k ≠ 14 → w.testBit k = w'.testBit k) {l : List Nat}
    (h14 : w.testBit 14 = false ∨ ∀ c ∈ l, ¬ Std3 D c) (hf : ∀ e, ¬ Fault D U w l e) :
    ∀ e, ¬ Fault D U w' l e := by
  have hv : ∀ b c, c ∈ l → Tr46Valid D b (w.testBit 14) c → Tr46Valid D b (w'.testBit 14) c := by
    intro b c hc h
    rcases h with h | h | ⟨h, h'⟩
    · exact .inl h
    · exact .inr (.inl h)
    · rcases h14 with h14 | h14
      · rw [h14] at h; cases h
      · exact absurd h' (h14 c hc)
  intro e x
  cases x with
  | nfc h h' => exact hf _ (.nfc ((hl 0 (by omega)).trans h) h')
  | notNfc t h h' h'' => exact hf _ (.notNfc t ((hl 0 (by omega)).trans h) h' h'')
  | twoHyphen h h' h'' => exact hf _ (.twoHyphen ((hl 1 (by omega)).trans h) h' h'')
  | hyphenStartEnd h h' => exact hf _ (.hyphenStartEnd ((hl 2 (by omega)).trans h) h')
  | leadingCombining c h h' h'' =>
    exact hf _ (.leadingCombining c ((hl 3 (by omega)).trans h) h' h'')
  | disallowed c h h' h'' h3 =>
    refine hf _ (.disallowed c ((hl 4 (by omega)).trans h) h' h'' ?_)
    rintro ⟨_, h1, h2⟩
    rcases h14 with h14 | h14
    · rw [h14] at h1; cases h1
    · exact h14 c h' h2
  | contextjAny c h h' h'' => exact hf _ (.contextjAny c ((hl 5 (by omega)).trans h) h' h'')
  | contextj p c h h1 h2 h3 h4 =>
    exact hf _ (.contextj p c ((hl 6 (by omega)).trans h) h1 h2 h3 h4)
  | contextjNoRule c h h1 h2 h3 h4 =>
    exact hf _ (.contextjNoRule c ((hl 6 (by omega)).trans h) h1 h2 h3 h4)
  | contextoAny c h h' h'' => exact hf _ (.contextoAny c ((hl 7 (by omega)).trans h) h' h'')
  | contextoNoRule c h h1 h2 h3 =>
    exact hf _ (.contextoNoRule c (by rw [hl 8 (by omega), hl 9 (by omega)]; exact h) h1 h2 h3)
  | contexto p c h h1 h2 h3 h4 =>
    exact hf _ (.contexto p c ((hl 9 (by omega)).trans h) h1 h2 h3 h4)
  | unassigned c h h' h'' => exact hf _ (.unassigned c ((hl 10 (by omega)).trans h) h' h'')
  | bidi h h' => exact hf _ (.bidi ((hl 11 (by omega)).trans h) h')
  | dotInLabel h h' =>
    exact hf _ (.dotInLabel (by rw [hl 12 (by omega), hl 13 (by omega)]; exact h) h')
  | invalidTransitional c h h1 h2 =>
    exact hf _ (.invalidTransitional c ((hl 12 (by omega)).trans h) h1 fun h => h2 (hv _ c h1 h))
  | invalidNontransitional c h0 h h1 h2 =>
    exact hf _ (.invalidNontransitional c ((hl 12 (by omega)).trans h0)
      ((hl 13 (by omega)).trans h) h1 fun h => h2 (hv _ c h1 h))

theorem testBit_or_14 (n : Nat) {k : Nat} (hk : k ≠ 14) :
    (n ||| 2 ^ 14).testBit k = n.testBit k := by
  rw [Nat.testBit_or, Nat.testBit_two_pow]
  simp
  omega

theorem Std3Pair.tests {f g : Nat} (h : Std3Pair f g) :
    (∀ k, k ≠ 14 → (labelTests f).testBit k = (labelTests g).testBit k) ∧
    (∀ k, k ≠ 14 → (tr46Tests f).testBit k = (tr46Tests g).testBit k) ∧
    (∀ k, k ≠ 14 → (tr46TestsA f).testBit k = (tr46TestsA g).testBit k) ∧
    (labelTests f).testBit 14 = false ∧ (tr46Tests f).testBit 14 = false ∧
    (tr46TestsA f).testBit 14 = false := by
  have key : ∀ {a b : Nat}, b = a ∨ b = a ||| 2 ^ 14 → ∀ k, k ≠ 14 → a.testBit k = b.testBit k := by
    rintro a b (rfl | rfl) k hk
    · rfl
    · exact (testBit_or_14 a hk).symm
  refine ⟨key ?_, key ?_, key ?_, ?_, ?_, ?_⟩ <;>
    simp only [labelTests, tr46Tests, tr46TestsA, h.f5, h.g5, h.same 2 (by omega), h.same 6 (by omega)] <;>
    cases f.testBit 2 <;> cases f.testBit 6 <;> decide

theorem emit_std3 {b : Bool} {u : List Nat} (h : ∀ c ∈ u, ¬ Std3 D c) :
    u.flatMap (emit D b true) = u.flatMap (emit D b false) := by
  induction u with
  | nil => rfl
  | cons c r ih =>
    rw [List.flatMap_cons, List.flatMap_cons, ih fun x hx => h x (List.mem_cons_of_mem _ hx)]
    have : emit D b true c = emit D b false c := by
      have := h c List.mem_cons_self
      unfold Std3 at this
      unfold emit
      cases hs : D.status c <;> simp_all
    rw [this]

theorem emit_removed {b : Bool} (u : List Nat) :
    (u.filter fun c => ¬ Std3 D c).flatMap (emit D b true) = u.flatMap (emit D b true) := by
  induction u with
  | nil => rfl
  | cons c r ih =>
    by_cases hc : Std3 D c
    · rw [List.filter_cons_of_neg (by simpa using hc), ih, List.flatMap_cons]
      have : emit D b true c = [] := by
        unfold emit
        rcases hc with hc | hc <;> rw [hc] <;> rfl
      rw [this, List.nil_append]
    · rw [List.filter_cons_of_pos (by simpa using hc), List.flatMap_cons, List.flatMap_cons, ih]

theorem not_std3 {c : Nat} (h : D.status c = .disallowed) : ¬ Std3 D c := by
  rintro (h' | h') <;> rw [h] at h' <;> cases h'

theorem status_removed (u : List Nat) :
    (∀ c ∈ u.filter fun c => ¬ Std3 D c, D.status c ≠ .disallowed) ↔
      ∀ c ∈ u, D.status c ≠ .disallowed := by
  constructor
  · intro h c hc hd
    refine h c (List.mem_filter.mpr ⟨hc, ?_⟩) hd
    exact decide_eq_true (not_std3 hd)
  · exact fun h c hc => h c (List.mem_filter.mp hc).1

theorem processed_removed {f : Nat} (f5 : f.testBit 5 = true) (f6 : f.testBit 6 = false)
    (u x : List Nat) :
    Processed D U f (u.filter fun c => ¬ Std3 D c) x ↔ Processed D U f u x := by
  unfold Processed
  rw [if_neg (by rw [f6]; decide), if_neg (by rw [f6]; decide), f5, status_removed, emit_removed]

theorem processErr_removed {f : Nat} (f5 : f.testBit 5 = true) (u : List Nat) (e : Rc) :
    ProcessErr D U f (u.filter fun c => ¬ Std3 D c) e ↔ ProcessErr D U f u e := by
  have hs := status_removed (D := D) u
  have he := emit_removed (D := D) (b := f.testBit 2) u
  constructor
  · intro h
    cases h with
    | disallowed c h1 h2 => exact .disallowed c (List.mem_filter.mp h1).1 h2
    | long h1 h2 => rw [f5, he] at h2; exact .long (hs.mp h1) (by rw [f5]; exact h2)
    | nfc h1 h2 h3 =>
      rw [f5, he] at h2 h3
      exact .nfc (hs.mp h1) (by rw [f5]; exact h2) (by rw [f5]; exact h3)
    | labels x e h1 h2 h3 h4 =>
      rw [f5, he] at h2 h3
      exact .labels x e (hs.mp h1) (by rw [f5]; exact h2) (by rw [f5]; exact h3) h4
  · intro h
    cases h with
    | disallowed c h1 h2 =>
      refine .disallowed c (List.mem_filter.mpr ⟨h1, ?_⟩) h2
      exact decide_eq_true (not_std3 h2)
    | long h1 h2 => exact .long (hs.mpr h1) (by rw [f5, he]; rwa [f5] at h2)
    | nfc h1 h2 h3 =>
      exact .nfc (hs.mpr h1) (by rw [f5, he]; rwa [f5] at h2) (by rw [f5, he]; rwa [f5] at h3)
    | labels x e h1 h2 h3 h4 =>
      exact .labels x e (hs.mpr h1) (by rw [f5, he]; rwa [f5] at h2)
        (by rw [f5, he]; rwa [f5] at h3) h4

/-- The outcome for a name that is well-formed depends on its code points only. -/
theorem lookup_points {f : Nat} (f6 : f.testBit 6 = false) {u : List Nat}
    (hs : ∀ c ∈ u, isScalar c) (r : Except Rc (List Nat)) :
    Lookup D U f (utf8s u) r ↔ (Conflict f ∧ r = .error .invalidFlags) ∨ (¬ Conflict f ∧
      ((∃ n, r = .ok n ∧ ToAscii D U f u n) ∨ ∃ e, r = .error e ∧ ToAsciiErr D U f u e)) := by
  constructor
  · intro h
    cases h with
    | conflict h => exact .inl ⟨h, rfl⟩
    | malformed _ _ h => exact absurd ⟨u, hs, rfl⟩ h
    | result v n h1 _ h3 h4 h5 =>
      rw [← utf8s_inj hs h3 h4] at h5
      exact .inr ⟨h1, .inl ⟨n, rfl, h5⟩⟩
    | error v e h1 _ h3 h4 h5 =>
      rw [← utf8s_inj hs h3 h4] at h5
      exact .inr ⟨h1, .inr ⟨e, rfl, h5⟩⟩
    | labels _ _ h => rw [f6] at h; cases h
    | label _ _ h => rw [f6] at h; cases h
  · rintro (⟨h, rfl⟩ | ⟨h, ⟨n, rfl, h'⟩ | ⟨e, rfl, h'⟩⟩)
    · exact .conflict h
    · exact .result u n h f6 hs rfl h'
    · exact .error u e h f6 hs rfl h'

/-- C78: with USE_STD3_ASCII_RULES and UTS #46 processing the characters that STD3 rules disallow
are removed from the name; result and error are those of what is left. -/
theorem C78_removed {E : Env} (W : World E D) {f : Nat} (f5 : f.testBit 5 = true)
    (f6 : f.testBit 6 = false) {u : List Nat} (hs : ∀ c ∈ u, isScalar c) (h0 : 0 ∉ u)
    (r : Except Rc (List Nat)) :
    LookupIs E f (utf8s u) r ↔ LookupIs E f (utf8s (u.filter fun c => ¬ Std3 D c)) r := by
  have h0' : 0 ∉ u.filter fun c => ¬ Std3 D c := fun h => h0 (List.mem_filter.mp h).1
  have hs' : ∀ c ∈ u.filter (fun c => ¬ Std3 D c), isScalar c :=
    fun c h => hs c (List.mem_filter.mp h).1
  rw [C64_lookup W f (zero_mem_utf8s h0), C64_lookup W f (zero_mem_utf8s h0'),
    lookup_points f6 hs, lookup_points f6 hs']
  unfold ToAscii ToAsciiErr
  simp only [processed_removed f5 f6, processErr_removed f5]

theorem Std3Pair.labelTo {f g : Nat} (h : Std3Pair f g) {l d : List Nat} (x : LabelTo D U f l d) :
    LabelTo D U g l d := by
  obtain ⟨t1, _, _, t4, _⟩ := h.tests
  have h7 := h.same 7 (by omega)
  cases x with
  | ascii h1 h2 h3 => exact .ascii h1 (by rw [h7]; exact h2) h3
  | alabel t u h1 h2 h3 h4 h5 h6 h8 =>
    exact .alabel t u (h7.trans h1) h2 h3 h4 (free_std3 t1 (.inl t4) h5) h6 h8
  | ulabel h1 h2 h3 h4 =>
    exact .ulabel h1 (free_std3 t1 (.inl t4) h2) (by rw [h7]; exact h3) h4

theorem Std3Pair.labelTo' {f g : Nat} (h : Std3Pair f g) {l d : List Nat}
    (h1 : ¬ xn <+: l → ∀ c ∈ l, ¬ Std3 D c)
    (h2 : ∀ t w, l = xn ++ t → Decodes t w → ∀ c ∈ w, ¬ Std3 D c) (hl : Tr46Label D U g l)
    (x : LabelTo D U g l d) : LabelTo D U f l d := by
  obtain ⟨t1, _⟩ := h.tests
  have t1' : ∀ k, k ≠ 14 → (labelTests g).testBit k = (labelTests f).testBit k :=
    fun k hk => (t1 k hk).symm
  have h7 := h.same 7 (by omega)
  cases x with
  | ascii h1 h2 h3 => exact .ascii h1 (by rw [← h7]; exact h2) h3
  | alabel t u h3 h4 h5 h6 h8 h9 =>
    exact .alabel t u (h7.symm.trans h3) h4 h5 h6
      (free_std3 t1' (.inr (h2 t u h4 h5)) h8) h9 ‹_›
  | ulabel h3 h4 h5 h6 =>
    have hx : ¬ xn <+: l := by
      cases hl with
      | alabel t u h8 h9 =>
        obtain ⟨c, hc, hc'⟩ := h3
        have := xn_ascii h9 c (h8 ▸ hc)
        omega
      | ulabel h8 => exact h8
    exact .ulabel h3 (free_std3 t1' (.inr (h1 hx)) h4) (by rw [← h7]; exact h5) h6

theorem Std3Pair.tr46Label {f g : Nat} (h : Std3Pair f g) {l : List Nat} (x : Tr46Label D U f l) :
    Tr46Label D U g l := by
  obtain ⟨_, t2, t3, _, t5, t6⟩ := h.tests
  cases x with
  | alabel t u h1 h2 h3 => exact .alabel t u h1 h2 (free_std3 t3 (.inl t6) h3)
  | ulabel h1 h2 => exact .ulabel h1 (free_std3 t2 (.inl t5) h2)

theorem Std3Pair.tr46Label' {f g : Nat} (h : Std3Pair f g) {l : List Nat}
    (h1 : ¬ xn <+: l → ∀ c ∈ l, ¬ Std3 D c)
    (h2 : ∀ t w, l = xn ++ t → Decodes t w → ∀ c ∈ w, ¬ Std3 D c)
    (x : Tr46Label D U g l) : Tr46Label D U f l := by
  obtain ⟨_, t2, t3, _⟩ := h.tests
  cases x with
  | alabel t u h3 h4 h5 =>
    exact .alabel t u h3 h4 (free_std3 (fun k hk => (t3 k hk).symm) (.inr (h2 t u h3 h4)) h5)
  | ulabel h3 h4 => exact .ulabel h3 (free_std3 (fun k hk => (t2 k hk).symm) (.inr (h1 h3)) h4)

/-- What is valid under STD3 rules has no character they disallow. -/
theorem Std3Pair.free_of {f g : Nat} (h : Std3Pair f g) {l : List Nat}
    (x : Tr46Label D U f l) : (¬ xn <+: l → ∀ c ∈ l, ¬ Std3 D c) ∧
      ∀ t w, l = xn ++ t → Decodes t w → ∀ c ∈ w, ¬ Std3 D c := by
  obtain ⟨_, _, _, _, t5, t6⟩ := h.tests
  have hv : ∀ {b : Bool} {c : Nat}, Tr46Valid D b false c → ¬ Std3 D c := by
    rintro b c (hc | ⟨_, hc⟩ | ⟨hc, _⟩) hs
    · rcases hs with hs | hs <;> rw [hc] at hs <;> cases hs
    · rcases hs with hs | hs <;> rw [hc] at hs <;> cases hs
    · cases hc
  have hA : (tr46TestsA f).testBit 12 = false ∧ (tr46TestsA f).testBit 13 = true := by
    unfold tr46TestsA; rw [h.f5]; decide
  cases x with
  | alabel t u h1 h2 h3 =>
    refine ⟨fun h => absurd ⟨t, h1.symm⟩ h, ?_⟩
    · intro t' w h4 h5 c hc
      rw [h1] at h4
      have := List.append_cancel_left h4
      subst this
      have e1 := decodes_iff.mpr h2
      rw [decodes_iff.mpr h5] at e1
      injection e1 with e1
      subst e1
      refine hv (b := false) (Classical.byContradiction fun hn => ?_)
      exact h3 _ (.invalidNontransitional c hA.1 hA.2 hc (by rw [t6]; exact hn))
  | ulabel h1 h2 =>
    refine ⟨?_, fun t w h3 => absurd ⟨t, h3.symm⟩ h1⟩
    intro _ c hc
    cases hb : f.testBit 2 with
    | true =>
      have hT : (tr46Tests f).testBit 12 = true := by unfold tr46Tests; rw [hb, h.f5]; decide
      refine hv (b := true) (Classical.byContradiction fun hn => ?_)
      exact h2 _ (.invalidTransitional c hT hc (by rw [t5]; exact hn))
    | false =>
      have hT : (tr46Tests f).testBit 12 = false ∧ (tr46Tests f).testBit 13 = true := by
        unfold tr46Tests; rw [hb, h.f5]; decide
      refine hv (b := false) (Classical.byContradiction fun hn => ?_)
      exact h2 _ (.invalidNontransitional c hT.1 hT.2 hc (by rw [t5]; exact hn))

theorem Std3Pair.toAscii {f g : Nat} (h : Std3Pair f g) (f6 : f.testBit 6 = false)
    {u n : List Nat} (hu : ∀ c ∈ u, ¬ Std3 D c) :
    ToAscii D U f u n ↔ ToAscii D U g u n ∧ Std3Free D U g u := by
  have g6 : g.testBit 6 = false := (h.same 6 (by omega)).trans f6
  have hp : ∀ x, Processed D U f u x → Processed D U g u x ∧
      ∀ l ∈ splitDot x, (¬ xn <+: l → ∀ c ∈ l, ¬ Std3 D c) ∧
        ∀ t w, l = xn ++ t → Decodes t w → ∀ c ∈ w, ¬ Std3 D c := by
    intro x hx
    unfold Processed at hx ⊢
    rw [if_neg (by rw [f6]; decide), h.f5, emit_std3 hu] at hx
    rw [if_neg (by rw [g6]; decide), h.g5, h.same 2 (by omega)]
    exact ⟨⟨hx.1, hx.2.1, hx.2.2.1, fun l hl => h.tr46Label (hx.2.2.2 l hl)⟩,
      fun l hl => h.free_of (hx.2.2.2 l hl)⟩
  have hu1 : ∀ {x y}, Processed D U g u x → Processed D U g u y → x = y := by
    intro x y hx hy
    unfold Processed at hx hy
    rw [if_neg (by rw [g6]; decide)] at hx hy
    have := hx.2.2.1.symm.trans hy.2.2.1
    injection this
  constructor
  · rintro ⟨x, ds, h1, h2, h3⟩
    obtain ⟨h4, h5⟩ := hp x h1
    refine ⟨⟨x, ds, h4, h2.imp h.labelTo, h3⟩, ?_⟩
    intro y hy l hl
    rw [← hu1 h4 hy] at hl
    exact h5 l hl
  · rintro ⟨⟨x, ds, h1, h2, h3⟩, hf⟩
    have h4 := hf x h1
    have ht : ∀ l ∈ splitDot x, Tr46Label D U g l := by
      unfold Processed at h1
      rw [if_neg (by rw [g6]; decide)] at h1
      exact h1.2.2.2
    refine ⟨x, ds, ?_, each_imp_mem h2 fun l hl d hd => h.labelTo' (h4 l hl).1 (h4 l hl).2 (ht l hl) hd, h3⟩
    unfold Processed at h1 ⊢
    rw [if_neg (by rw [g6]; decide), h.g5, h.same 2 (by omega)] at h1
    rw [if_neg (by rw [f6]; decide), h.f5, emit_std3 hu]
    exact ⟨h1.1, h1.2.1, h1.2.2.1, fun l hl => h.tr46Label' (h4 l hl).1 (h4 l hl).2 (h1.2.2.2 l hl)⟩

/-- C78: for a name without such characters, the results with USE_STD3_ASCII_RULES are exactly
those without it for which mapping, normalisation and the decoding of A-labels bring none in.
What is missing: a name that has such a character is not refused (`C78_violated`). -/
theorem C78_same_partial {E : Env} (W : World E D) {f g : Nat} (hfg : ∀ k, k ≠ 5 → g.testBit k = f.testBit k)
    (f5 : f.testBit 5 = true) (g5 : g.testBit 5 = false) (f6 : f.testBit 6 = false)
    {u n : List Nat} (hs : ∀ c ∈ u, isScalar c) (h0 : 0 ∉ u) (hu : ∀ c ∈ u, ¬ Std3 D c) :
    LookupOk E f (utf8s u) n ↔ LookupOk E g (utf8s u) n ∧ Std3Free D E.U g u := by
  have h : Std3Pair f g := ⟨hfg, f5, g5⟩
  have g6 : g.testBit 6 = false := (hfg 6 (by omega)).trans f6
  rw [C48_lookup_spec W (zero_mem_utf8s h0) (by rw [f6]; simp),
    C48_lookup_spec W (zero_mem_utf8s h0) (by rw [g6]; simp), h.conflict]
  constructor
  · rintro ⟨h1, v, hv, he, h2⟩
    rw [← utf8s_inj hs hv he] at h2
    obtain ⟨h3, h4⟩ := (h.toAscii f6 hu).mp h2
    exact ⟨⟨h1, u, hs, rfl, h3⟩, h4⟩
  · rintro ⟨⟨h1, v, hv, he, h2⟩, h4⟩
    rw [← utf8s_inj hs hv he] at h2
    exact ⟨h1, u, hs, rfl, (h.toAscii f6 hu).mpr ⟨h2, h4⟩⟩

/-- C78 is violated: "a_b" is looked up under STD3 rules, as "ab", which is another name. -/
theorem C78_violated : ∃ u n, (∃ c ∈ u, Std3 Sample.D c) ∧ LookupOk Sample.E 32 (utf8s u) n ∧
    LookupOk Sample.E 0 n n ∧ LookupOk Sample.E 0 (utf8s u) u ∧ u ≠ n :=
  ⟨[0x61, 0x5F, 0x62], [0x61, 0x62], by decide +kernel⟩

/-- Both sides of `C78_same_partial`: "fä" has the same result, and the A-label of "a¨" none under
STD3 rules. -/
example : LookupOk Sample.E 32 (utf8s [0x66, 0xE4]) [0x78, 0x6E, 0x2D, 0x2D, 0x66, 0x2D, 0x30, 0x66, 0x61] ∧
    LookupOk Sample.E 0 (utf8s [0x66, 0xE4]) [0x78, 0x6E, 0x2D, 0x2D, 0x66, 0x2D, 0x30, 0x66, 0x61] ∧
    LookupErr Sample.E 32 [0x78, 0x6E, 0x2D, 0x2D, 0x61, 0x2D, 0x6C, 0x63, 0x61] .invalidNontransitional ∧
    LookupOk Sample.E 0 [0x78, 0x6E, 0x2D, 0x2D, 0x61, 0x2D, 0x6C, 0x63, 0x61]
      [0x78, 0x6E, 0x2D, 0x2D, 0x61, 0x2D, 0x6C, 0x63, 0x61] := by
  decide +kernel

/-- `C78_removed` for an error: what is left of "_-_a" starts with a hyphen. -/
example : LookupErr Sample.E 32 [0x5F, 0x2D, 0x5F, 0x61] .hyphenStartEnd ∧
    LookupErr Sample.E 32 [0x2D, 0x61] .hyphenStartEnd ∧
    LookupOk Sample.E 0 [0x5F, 0x2D, 0x5F, 0x61] [0x5F, 0x2D, 0x5F, 0x61] := by
  decide +kernel

end Idn2
