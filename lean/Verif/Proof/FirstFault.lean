import Verif.Proof.LabelTest

/-
The fault `_idn2_label_test` reports is the first one.
-/

namespace Idn2
open Spec

/-! ### The faults of the two accounts are the same -/

theorem Spec.FaultAt.fault {D : Data} {U : Uni} {what : Nat} {label : List Nat} {k pos : Nat} {e : Rc}
    (h : FaultAt D U what label k pos e) : Fault D U what label e := by
  cases h with
  | nfc a b => exact .nfc a b
  | notNfc t a b c => exact .notNfc t a b c
  | twoHyphen a b c => exact .twoHyphen a b c
  | hyphenStartEnd a b => exact .hyphenStartEnd a b
  | leadingCombining c a b d => exact .leadingCombining c a b d
  | disallowed _ c a b d e => exact .disallowed c a (List.mem_of_getElem? b) d e
  | contextjAny _ c a b d => exact .contextjAny c a (List.mem_of_getElem? b) d
  | contextj _ c a b d e f => exact .contextj _ c a b d e f
  | contextjNoRule _ c a b d e f => exact .contextjNoRule c a (List.mem_of_getElem? b) d e f
  | contextoAny _ c a b d => exact .contextoAny c a (List.mem_of_getElem? b) d
  | contextoWithout _ c a b d e => exact .contextoNoRule c (Or.inl a) (List.mem_of_getElem? b) d e
  | contextoNoRule _ c a b d e => exact .contextoNoRule c (Or.inr a) (List.mem_of_getElem? b) d e
  | contexto _ c a b d e f => exact .contexto _ c a b d e f
  | unassigned _ c a b d => exact .unassigned c a (List.mem_of_getElem? b) d
  | bidi a b => exact .bidi a b
  | dotInLabel _ a b => exact .dotInLabel a (List.mem_of_getElem? b)
  | invalidTransitional _ c a b d => exact .invalidTransitional c a (List.mem_of_getElem? b) d
  | invalidNontransitional _ c a b d e =>
    exact .invalidNontransitional c a b (List.mem_of_getElem? d) e

theorem Spec.Fault.at {D : Data} {U : Uni} {what : Nat} {label : List Nat} {e : Rc}
    (h : Fault D U what label e) : ∃ k pos, FaultAt D U what label k pos e := by
  have pos : ∀ {c}, c ∈ label → ∃ p, label[p]? = some c := fun h => List.getElem?_of_mem h
  cases h with
  | nfc a b => exact ⟨_, _, .nfc a b⟩
  | notNfc t a b c => exact ⟨_, _, .notNfc t a b c⟩
  | twoHyphen a b c => exact ⟨_, _, .twoHyphen a b c⟩
  | hyphenStartEnd a b => exact ⟨_, _, .hyphenStartEnd a b⟩
  | leadingCombining c a b d => exact ⟨_, _, .leadingCombining c a b d⟩
  | disallowed c a b d e => obtain ⟨p, b⟩ := pos b; exact ⟨_, _, .disallowed p c a b d e⟩
  | contextjAny c a b d => obtain ⟨p, b⟩ := pos b; exact ⟨_, _, .contextjAny p c a b d⟩
  | contextj p c a b d e f => exact ⟨_, _, .contextj _ c a b d e f⟩
  | contextjNoRule c a b d e f => obtain ⟨p, b⟩ := pos b; exact ⟨_, _, .contextjNoRule p c a b d e f⟩
  | contextoAny c a b d => obtain ⟨p, b⟩ := pos b; exact ⟨_, _, .contextoAny p c a b d⟩
  | contextoNoRule c a b d e =>
    obtain ⟨p, b⟩ := pos b
    rcases a with a | a
    · exact ⟨_, _, .contextoWithout p c a b d e⟩
    · exact ⟨_, _, .contextoNoRule p c a b d e⟩
  | contexto p c a b d e f => exact ⟨_, _, .contexto _ c a b d e f⟩
  | unassigned c a b d => obtain ⟨p, b⟩ := pos b; exact ⟨_, _, .unassigned p c a b d⟩
  | bidi a b => exact ⟨_, _, .bidi a b⟩
  | dotInLabel a b => obtain ⟨p, b⟩ := pos b; exact ⟨_, _, .dotInLabel p a b⟩
  | invalidTransitional c a b d => obtain ⟨p, b⟩ := pos b; exact ⟨_, _, .invalidTransitional p c a b d⟩
  | invalidNontransitional c a b d e =>
    obtain ⟨p, d⟩ := pos d; exact ⟨_, _, .invalidNontransitional p c a b d e⟩

/-- At one step and position there is one fault. -/
theorem Spec.FaultAt.unique {D : Data} {U : Uni} {what : Nat} {label : List Nat} {k pos : Nat} {e e' : Rc}
    (h : FaultAt D U what label k pos e) (h' : FaultAt D U what label k pos e') : e = e' := by
  cases h <;> cases h' <;> first | rfl | (exfalso; grind)

theorem Spec.FirstFault.unique {D : Data} {U : Uni} {what : Nat} {label : List Nat} {e e' : Rc}
    (h : FirstFault D U what label e) (h' : FirstFault D U what label e') : e = e' := by
  obtain ⟨k, p, h1, h2⟩ := h
  obtain ⟨k', p', h1', h2'⟩ := h'
  have a := h2 _ _ _ h1'
  have b := h2' _ _ _ h1
  have hk : k = k' := by omega
  have hp : p = p' := by omega
  subst hk hp
  exact h1.unique h1'

theorem Spec.FirstFault.fault {D : Data} {U : Uni} {what : Nat} {label : List Nat} {e : Rc}
    (h : FirstFault D U what label e) : Fault D U what label e := by
  obtain ⟨_, _, h, _⟩ := h
  exact h.fault

/-! ### Steps -/

/-- `x` succeeds if there is no fault and otherwise returns the first one; all of them are of
step `lo` or later. -/
def Steps (x : Res Unit) (F : Nat → Nat → Rc → Prop) (lo : Nat) : Prop :=
  (∀ k p e, F k p e → lo ≤ k) ∧
  ((x = .ok () ∧ ∀ k p e, ¬ F k p e) ∨
    ∃ e k p, x = .err e ∧ F k p e ∧ ∀ k' p' e', F k' p' e' → k < k' ∨ (k = k' ∧ p ≤ p'))

theorem Steps.congr {x : Res Unit} {F G : Nat → Nat → Rc → Prop} {lo : Nat} (h : Steps x F lo)
    (hFG : ∀ k p e, F k p e ↔ G k p e) : Steps x G lo := by
  have : F = G := by funext k p e; exact propext (hFG k p e)
  rwa [← this]

theorem Steps.seq {x y : Res Unit} {F G : Nat → Nat → Rc → Prop} {lo : Nat}
    (h1 : Steps x F lo) (hF : ∀ k p e, F k p e → k = lo) (h2 : Steps y G (lo + 1)) :
    Steps (x >>= fun _ => y) (fun k p e => F k p e ∨ G k p e) lo := by
  obtain ⟨l1, h1⟩ := h1
  obtain ⟨l2, h2⟩ := h2
  refine ⟨?_, ?_⟩
  · rintro k p e (h | h)
    · exact l1 k p e h
    · have := l2 k p e h; omega
  rcases h1 with ⟨rfl, h1⟩ | ⟨e, k, p, rfl, a, b⟩
  · rw [Res.bind_ok]
    rcases h2 with ⟨rfl, h2⟩ | ⟨e, k, p, rfl, a, b⟩
    · exact Or.inl ⟨rfl, fun k p e h => h.elim (h1 k p e) (h2 k p e)⟩
    · exact Or.inr ⟨e, k, p, rfl, Or.inr a, fun k' p' e' h =>
        h.elim (fun h => absurd h (h1 _ _ _)) (b k' p' e')⟩
  · refine Or.inr ⟨e, k, p, rfl, Or.inl a, fun k' p' e' h => ?_⟩
    rcases h with h | h
    · exact b _ _ _ h
    · have := l2 _ _ _ h
      have := hF _ _ _ a
      omega

theorem Steps.whenTest {x : Res Unit} {F : Nat → Nat → Rc → Prop} {lo : Nat} (h : Steps x F lo)
    (what mask : Nat) :
    Steps (whenTest what mask x) (fun k p e => has what mask = true ∧ F k p e) lo := by
  unfold Idn2.whenTest
  split
  · rename_i hm
    exact h.congr fun k p e => by simp [hm]
  · rename_i hm
    exact ⟨fun k p e he => h.1 k p e he.2, Or.inl ⟨rfl, fun k p e he => hm he.1⟩⟩

/-- A test of the label as a whole. -/
theorem Blk.step {x : Res Unit} {F : Rc → Prop} (h : Blk x F) (n : Nat) :
    Steps x (fun k p e => k = n ∧ p = 0 ∧ F e) n := by
  refine ⟨fun k p e h => Nat.le_of_eq h.1.symm, ?_⟩
  rcases h with ⟨h1, h2⟩ | ⟨e, h1, h2⟩
  · exact Or.inl ⟨h1, fun k p e h => h2 e h.2.2⟩
  · exact Or.inr ⟨e, n, 0, h1, ⟨rfl, rfl, h2⟩, fun k p e h => by omega⟩

theorem forEach_first {f : Nat → Res Unit} {l : List Nat} {e : Rc} (h : forEach f l = .err e) :
    ∃ (p c : Nat), l[p]? = some c ∧ f c = .err e ∧ ∀ (q c' : Nat), q < p → l[q]? = some c' → f c' = .ok () := by
  induction l with
  | nil => cases h
  | cons a l ih =>
    unfold forEach at h
    cases hf : f a with
    | ub => rw [hf] at h; cases h
    | err e' =>
      rw [hf] at h
      injection h with h
      subst h
      exact ⟨0, a, rfl, hf, fun q c' hq => absurd hq (by omega)⟩
    | ok u =>
      rw [hf, Res.bind_ok] at h
      obtain ⟨p, c, h1, h2, h3⟩ := ih h
      refine ⟨p + 1, c, h1, h2, fun q c' hq hc' => ?_⟩
      cases q with
      | zero => simp at hc'; subst hc'; exact hf
      | succ q => exact h3 q c' (by omega) hc'

/-- A loop. -/
theorem Blk.loop {f : Nat → Res Unit} {l : List Nat} {G : Nat → Rc → Prop}
    (h : ∀ c ∈ l, Blk (f c) (G c)) (n : Nat) :
    Steps (Idn2.forEach f l) (fun k p e => k = n ∧ ∃ c, l[p]? = some c ∧ G c e) n := by
  refine ⟨fun k p e h => Nat.le_of_eq h.1.symm, ?_⟩
  rcases Blk.forEach h with ⟨h1, h2⟩ | ⟨e, h1, _⟩
  · exact Or.inl ⟨h1, fun k p e ⟨_, c, hc, hg⟩ => h2 e ⟨c, List.mem_of_getElem? hc, hg⟩⟩
  · obtain ⟨p, c, g1, g2, g3⟩ := forEach_first h1
    refine Or.inr ⟨e, n, p, h1, ⟨rfl, c, g1, (h c (List.mem_of_getElem? g1)).err g2⟩, ?_⟩
    rintro k' p' e' ⟨rfl, c', hc', hg'⟩
    refine Or.inr ⟨rfl, ?_⟩
    rcases Nat.lt_or_ge p' p with hlt | hge
    · have hok := g3 p' c' hlt hc'
      rcases h c' (List.mem_of_getElem? hc') with ⟨_, h2⟩ | ⟨e2, h2, _⟩
      · exact absurd hg' (h2 e')
      · rw [hok] at h2; cases h2
    · exact hge

theorem range_get {n p c : Nat} : (List.range n)[p]? = some c ↔ p < n ∧ c = p := by
  rw [List.getElem?_eq_some_iff]
  constructor
  · rintro ⟨h, rfl⟩
    exact ⟨by simpa using h, by simp⟩
  · rintro ⟨h, rfl⟩
    exact ⟨by simpa using h, by simp⟩

/-! ### All tests -/

theorem steps_rest {E : Env} {D : Data} (hI : Implements E.T D) (what : Nat) {label : List Nat}
    (hl : ∀ c ∈ label, c ≤ 0x10FFFF) :
    Steps (label_test_rest E what label)
      (fun k p e => 1 ≤ k ∧ FaultAt D E.U what label k p e) 1 := by
  have hb := has_bits what
  have htt : has what (TEST_TRANSITIONAL ||| TEST_NONTRANSITIONAL) =
      (what.testBit 12 || what.testBit 13) := by rw [has_or]; simp only [hb]
  have b1 := ((Blk.ite (P := label.length ≥ 4 ∧ label[2]? = some 0x2D ∧ label[3]? = some 0x2D)
    .twoHyphen).step 1).whenTest what TEST_2HYPHEN
  have b2 := ((Blk.ite (P := label.length > 0 ∧ (label[0]? = some 0x2D ∨
    label[label.length - 1]? = some 0x2D)) .hyphenStartEnd).step 2).whenTest what TEST_HYPHEN_STARTEND
  have b3 : Blk (testLeading E label) (fun e => e = .leadingCombining ∧ ∃ c, label.head? = some c ∧ E.U.isM c = true) := by
    cases label with
    | nil => exact Or.inl ⟨rfl, by simp⟩
    | cons c r =>
      simp only [List.head?_cons, testLeading]
      exact (Blk.ite (P := E.U.isM c = true) .leadingCombining).congr (by simp)
  replace b3 := (b3.step 3).whenTest what TEST_LEADING_COMBINING
  have b4 := (Blk.loop (f := testDisallowed E what) (l := label)
    (fun c hc => blk_disallowed hI what (hl c hc)) 4).whenTest what TEST_DISALLOWED
  have b5 := (Blk.loop (f := fun c => do if ← contextj_p E.T c then .err .contextj else .ok ())
    (l := label) (fun c hc => blk_prop (E := E) (p := fun E => contextj_p E.T)
      (Q := fun c => D.prop c = .contextj) (contextj_p_eq hI (hl c hc)) (by simp)
      .contextj) 5).whenTest what TEST_CONTEXTJ
  have b6 := (Blk.loop (f := contextj_rule E label) (l := List.range label.length)
    (fun c hc => blk_contextj hI hl hc) 6).whenTest what TEST_CONTEXTJ_RULE
  have b7 := (Blk.loop (f := fun c => do if ← contexto_p E.T c then .err .contexto else .ok ())
    (l := label) (fun c hc => blk_prop (E := E) (p := fun E => contexto_p E.T)
      (Q := fun c => D.prop c = .contexto) (contexto_p_eq hI (hl c hc)) (by simp)
      .contexto) 7).whenTest what TEST_CONTEXTO
  have b8 := (Blk.loop (f := fun c => do
      if (← contexto_p E.T c) && !contexto_with_rule c then .err .contextoNoRule else .ok ())
    (l := label) (G := fun c e => e = .contextoNoRule ∧ D.prop c = .contexto ∧ ¬ hasContextO c)
    (fun c hc => by
      rw [contexto_p_eq hI (hl c hc), Res.bind_ok]
      refine (Blk.ite .contextoNoRule).congr fun e => ?_
      rw [Bool.and_eq_true, beq_iff_eq, Bool.not_eq_true', ← Bool.not_eq_true,
        contexto_with_rule_iff]) 8).whenTest what TEST_CONTEXTO_WITH_RULE
  have b9 := (Blk.loop (f := contexto_rule E label) (l := List.range label.length)
    (fun c hc => blk_contexto hI hl hc) 9).whenTest what TEST_CONTEXTO_RULE
  have b10 := (Blk.loop (f := fun c => do if ← unassigned_p E.T c then .err .unassigned else .ok ())
    (l := label) (fun c hc => blk_prop (E := E) (p := fun E => unassigned_p E.T)
      (Q := fun c => D.prop c = .unassigned) (unassigned_p_eq hI (hl c hc)) (by simp)
      .unassigned) 10).whenTest what TEST_UNASSIGNED
  have b11 := ((blk_bidi (U := E.U) (l := label)).step 11).whenTest what TEST_BIDI
  have b12 := (Blk.loop (f := fun c => if c = 0x2E then .err .dotInLabel else .ok ()) (l := label)
      (fun c _ => Blk.ite .dotInLabel) 12)
  have b13 := (Blk.loop (f := testTr46 E what) (l := label)
    (fun c hc => blk_tr46 hI what (hl c hc)) 13)
  have b14 := (Steps.seq b12 (fun k p e h => h.1) b13).whenTest what
      (TEST_TRANSITIONAL ||| TEST_NONTRANSITIONAL)
  rw [htt] at b14
  simp only [hb] at b1 b2 b3 b4 b5 b6 b7 b8 b9 b10 b11
  unfold label_test_rest
  refine Steps.congr
    (Steps.seq b1 (fun k p e h => h.2.1)
    (Steps.seq b2 (fun k p e h => h.2.1)
    (Steps.seq b3 (fun k p e h => h.2.1)
    (Steps.seq b4 (fun k p e h => h.2.1)
    (Steps.seq b5 (fun k p e h => h.2.1)
    (Steps.seq b6 (fun k p e h => h.2.1)
    (Steps.seq b7 (fun k p e h => h.2.1)
    (Steps.seq b8 (fun k p e h => h.2.1)
    (Steps.seq b9 (fun k p e h => h.2.1)
    (Steps.seq b10 (fun k p e h => h.2.1)
    (Steps.seq b11 (fun k p e h => h.2.1) b14))))))))))) ?_
  intro k p e
  have hlast : label[label.length - 1]? = label.getLast? := by
    rw [List.getLast?_eq_getElem?]
  have hhead : label[0]? = label.head? := by cases label <;> rfl
  constructor
  · rintro (⟨h0, rfl, rfl, rfl, _, h1, h2⟩ | ⟨h0, rfl, rfl, rfl, _, h1⟩ |
      ⟨h0, rfl, rfl, rfl, c, h1, h2⟩ | ⟨h0, rfl, c, hc, rfl, h1, h2⟩ |
      ⟨h0, rfl, c, hc, rfl, h1⟩ | ⟨h0, rfl, q, hq, c, hc, h1, h2⟩ | ⟨h0, rfl, c, hc, rfl, h1⟩ |
      ⟨h0, rfl, c, hc, rfl, h1, h2⟩ | ⟨h0, rfl, q, hq, c, hc, h1, h2⟩ | ⟨h0, rfl, c, hc, rfl, h1⟩ |
      ⟨h0, rfl, rfl, rfl, h1⟩ | ⟨h0, ⟨rfl, c, hc, rfl, rfl⟩ | ⟨rfl, c, hc, h1, h2⟩⟩)
    · exact ⟨by decide, .twoHyphen h0 h1 h2⟩
    · rw [hhead, hlast] at h1
      exact ⟨by decide, .hyphenStartEnd h0 h1⟩
    · exact ⟨by decide, .leadingCombining c h0 h1 h2⟩
    · exact ⟨by decide, .disallowed p c h0 hc h1 h2⟩
    · exact ⟨by decide, .contextjAny p c h0 hc h1⟩
    · obtain ⟨_, rfl⟩ := range_get.mp hq
      rcases h2 with ⟨rfl, h2, h3⟩ | ⟨rfl, h2, h3⟩
      · exact ⟨by decide, .contextj _ c h0 hc h1 h2 h3⟩
      · exact ⟨by decide, .contextjNoRule _ c h0 hc h1 h2 h3⟩
    · exact ⟨by decide, .contextoAny p c h0 hc h1⟩
    · exact ⟨by decide, .contextoWithout p c h0 hc h1 h2⟩
    · obtain ⟨_, rfl⟩ := range_get.mp hq
      rcases h2 with ⟨rfl, h2, h3⟩ | ⟨rfl, h2⟩
      · exact ⟨by decide, .contexto _ c h0 hc h1 h2 h3⟩
      · exact ⟨by decide, .contextoNoRule _ c h0 hc h1 h2⟩
    · exact ⟨by decide, .unassigned p c h0 hc h1⟩
    · exact ⟨by decide, .bidi h0 h1⟩
    · exact ⟨by decide, .dotInLabel p (by simpa using h0) hc⟩
    · cases ht : what.testBit 12 with
      | true =>
        rw [ht] at h1 h2
        simp only [↓reduceIte] at h1
        subst h1
        exact ⟨by decide, .invalidTransitional p c ht hc h2⟩
      | false =>
        rw [ht] at h0 h1 h2
        simp only [Bool.false_eq_true, ↓reduceIte] at h1
        subst h1
        exact ⟨by decide, .invalidNontransitional p c ht (by simpa using h0) hc h2⟩
  · rintro ⟨hk, hf⟩
    have hr : ∀ {p c : Nat}, label[p]? = some c → (List.range label.length)[p]? = some p :=
      fun h => range_get.mpr ⟨(List.getElem?_eq_some_iff.mp h).1, rfl⟩
    cases hf with
    | nfc => omega
    | notNfc => omega
    | twoHyphen h0 h1 h2 =>
      refine Or.inl ⟨h0, rfl, rfl, rfl, ?_, h1, h2⟩
      have := (List.getElem?_eq_some_iff.mp h2).1
      omega
    | hyphenStartEnd h0 h1 =>
      refine Or.inr (Or.inl ⟨h0, rfl, rfl, rfl, ?_, by rw [hhead, hlast]; exact h1⟩)
      cases label with
      | nil => simp at h1
      | cons => simp
    | leadingCombining c h0 h1 h2 => exact Or.inr (Or.inr (Or.inl ⟨h0, rfl, rfl, rfl, c, h1, h2⟩))
    | disallowed p c h0 hc h1 h2 =>
      exact Or.inr (Or.inr (Or.inr (Or.inl ⟨h0, rfl, c, hc, rfl, h1, h2⟩)))
    | contextjAny p c h0 hc h1 =>
      exact Or.inr (Or.inr (Or.inr (Or.inr (Or.inl ⟨h0, rfl, c, hc, rfl, h1⟩))))
    | contextj pos c h0 hc h1 h2 h3 =>
      exact Or.inr (Or.inr (Or.inr (Or.inr (Or.inr (Or.inl
        ⟨h0, rfl, p, hr hc, c, hc, h1, Or.inl ⟨rfl, h2, h3⟩⟩)))))
    | contextjNoRule pos c h0 hc h1 h2 h3 =>
      exact Or.inr (Or.inr (Or.inr (Or.inr (Or.inr (Or.inl
        ⟨h0, rfl, p, hr hc, c, hc, h1, Or.inr ⟨rfl, h2, h3⟩⟩)))))
    | contextoAny pos c h0 hc h1 =>
      exact Or.inr (Or.inr (Or.inr (Or.inr (Or.inr (Or.inr (Or.inl ⟨h0, rfl, c, hc, rfl, h1⟩))))))
    | contextoWithout pos c h0 hc h1 h2 =>
      exact Or.inr (Or.inr (Or.inr (Or.inr (Or.inr (Or.inr (Or.inr (Or.inl
          ⟨h0, rfl, c, hc, rfl, h1, h2⟩)))))))
    | contextoNoRule pos c h0 hc h1 h2 =>
      exact Or.inr (Or.inr (Or.inr (Or.inr (Or.inr (Or.inr (Or.inr (Or.inr (Or.inl
          ⟨h0, rfl, p, hr hc, c, hc, h1, Or.inr ⟨rfl, h2⟩⟩))))))))
    | contexto pos c h0 hc h1 h2 h3 =>
      exact Or.inr (Or.inr (Or.inr (Or.inr (Or.inr (Or.inr (Or.inr (Or.inr (Or.inl
          ⟨h0, rfl, p, hr hc, c, hc, h1, Or.inl ⟨rfl, h2, h3⟩⟩))))))))
    | unassigned pos c h0 hc h1 =>
      exact Or.inr (Or.inr (Or.inr (Or.inr (Or.inr (Or.inr (Or.inr (Or.inr (Or.inr (Or.inl
          ⟨h0, rfl, c, hc, rfl, h1⟩)))))))))
    | bidi h0 h1 =>
      exact Or.inr (Or.inr (Or.inr (Or.inr (Or.inr (Or.inr (Or.inr (Or.inr (Or.inr (Or.inr (Or.inl
          ⟨h0, rfl, rfl, rfl, h1⟩))))))))))
    | dotInLabel pos h0 hc =>
      exact Or.inr (Or.inr (Or.inr (Or.inr (Or.inr (Or.inr (Or.inr (Or.inr (Or.inr (Or.inr (Or.inr
          ⟨by simpa using h0, Or.inl ⟨rfl, _, hc, rfl, rfl⟩⟩))))))))))
    | invalidTransitional pos c h0 hc h1 =>
      exact Or.inr (Or.inr (Or.inr (Or.inr (Or.inr (Or.inr (Or.inr (Or.inr (Or.inr (Or.inr (Or.inr
          ⟨by simp [h0], Or.inr ⟨rfl, c, hc, by simp [h0], by rw [h0]; exact h1⟩⟩))))))))))
    | invalidNontransitional pos c h0 h0' hc h1 =>
      exact Or.inr (Or.inr (Or.inr (Or.inr (Or.inr (Or.inr (Or.inr (Or.inr (Or.inr (Or.inr (Or.inr
          ⟨by simp [h0'], Or.inr ⟨rfl, c, hc, by simp [h0], by rw [h0]; exact h1⟩⟩))))))))))

theorem steps_label_test {E : Env} {D : Data} (hI : Implements E.T D) (what : Nat)
    {label : List Nat} (hl : ∀ c ∈ label, c ≤ 0x10FFFF) :
    Steps (labelTestP E what label) (FaultAt D E.U what label) 0 := by
  have hrest := steps_rest hI what hl
  have hb := has_bits what
  have zero : (∀ p e, ¬ FaultAt D E.U what label 0 p e) →
      Steps (label_test_rest E what label) (FaultAt D E.U what label) 0 := by
    intro h
    have hc := hrest.congr (G := FaultAt D E.U what label) fun k p e =>
      ⟨fun h => h.2, fun hf => ⟨by
        rcases Nat.eq_zero_or_pos k with rfl | hk
        · exact absurd hf (h p e)
        · exact hk, hf⟩⟩
    exact ⟨fun _ _ _ _ => Nat.zero_le _, hc.2⟩
  have stop : ∀ e, FaultAt D E.U what label 0 0 e →
      Steps (.err e) (FaultAt D E.U what label) 0 := fun e he =>
    ⟨fun _ _ _ _ => Nat.zero_le _, Or.inr ⟨e, 0, 0, rfl, he, fun k' p' e' _ => by omega⟩⟩
  unfold labelTestP
  rw [hb.1]
  by_cases h0 : what.testBit 0 = true
  · rw [if_pos h0]
    cases hn : E.U.nfc label with
    | none => exact stop _ (.nfc h0 hn)
    | some t =>
      simp only
      split
      · rename_i ht
        refine zero fun p e h => ?_
        cases h with
        | nfc _ h => rw [hn] at h; cases h
        | notNfc t' _ h h' => rw [hn] at h; injection h with h; subst h; exact h' ht
      · rename_i ht
        exact stop _ (.notNfc t h0 hn ht)
  · rw [if_neg h0]
    refine zero fun p e h => ?_
    cases h with
    | nfc h _ => exact h0 h
    | notNfc t' h _ _ => exact h0 h

theorem labelTestP_first {E : Env} {D : Data} (hI : Implements E.T D) {what : Nat}
    {label : List Nat} (hl : ∀ c ∈ label, c ≤ 0x10FFFF) {e : Rc} :
    labelTestP E what label = .err e ↔ FirstFault D E.U what label e := by
  rcases (steps_label_test hI what hl).2 with ⟨h1, h2⟩ | ⟨e', k, p, h1, h2, h3⟩
  · rw [h1]
    constructor
    · intro h; cases h
    · rintro ⟨k, p, h, _⟩
      exact absurd h (h2 k p e)
  · rw [h1]
    have hf : FirstFault D E.U what label e' := ⟨k, p, h2, h3⟩
    constructor
    · intro h; injection h with h; exact h ▸ hf
    · intro h; rw [hf.unique h]

end Idn2
