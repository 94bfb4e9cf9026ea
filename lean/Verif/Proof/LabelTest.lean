import Verif.Proof.Label
import Verif.Proof.Utf8

/-
`_idn2_label_test` as a whole.
-/

namespace Idn2
open Spec

/-! ### Masks -/

theorem has_or (x a b : Nat) : has x (a ||| b) = (has x a || has x b) := by
  unfold has
  rw [Nat.and_or_distrib_left, Bool.eq_iff_iff]
  simp only [bne_iff_ne, ne_eq, Nat.or_eq_zero_iff, Bool.or_eq_true]
  omega

theorem has_pow (x k : Nat) : has x (2 ^ k) = x.testBit k := by
  unfold has
  cases h : x.testBit k with
  | true =>
    rw [bne_iff_ne]
    intro h0
    have : (x &&& 2 ^ k).testBit k = true := by rw [Nat.testBit_and, h, Nat.testBit_two_pow_self]; rfl
    rw [h0] at this
    simp at this
  | false =>
    have : x &&& 2 ^ k = 0 := by
      apply Nat.eq_of_testBit_eq
      intro i
      rw [Nat.testBit_and, Nat.testBit_two_pow, Nat.zero_testBit]
      by_cases hi : k = i
      · subst hi; simp [h]
      · simp [hi]
    rw [this]; rfl

theorem has_bits (x : Nat) :
    has x TEST_NFC = x.testBit 0 ∧ has x TEST_2HYPHEN = x.testBit 1 ∧
    has x TEST_HYPHEN_STARTEND = x.testBit 2 ∧ has x TEST_LEADING_COMBINING = x.testBit 3 ∧
    has x TEST_DISALLOWED = x.testBit 4 ∧ has x TEST_CONTEXTJ = x.testBit 5 ∧
    has x TEST_CONTEXTJ_RULE = x.testBit 6 ∧ has x TEST_CONTEXTO = x.testBit 7 ∧
    has x TEST_CONTEXTO_WITH_RULE = x.testBit 8 ∧ has x TEST_CONTEXTO_RULE = x.testBit 9 ∧
    has x TEST_UNASSIGNED = x.testBit 10 ∧ has x TEST_BIDI = x.testBit 11 ∧
    has x TEST_TRANSITIONAL = x.testBit 12 ∧ has x TEST_NONTRANSITIONAL = x.testBit 13 ∧
    has x TEST_ALLOW_STD3_DISALLOWED = x.testBit 14 :=
  ⟨has_pow x 0, has_pow x 1, has_pow x 2, has_pow x 3, has_pow x 4, has_pow x 5, has_pow x 6,
    has_pow x 7, has_pow x 8, has_pow x 9, has_pow x 10, has_pow x 11, has_pow x 12, has_pow x 13,
    has_pow x 14⟩

/-! ### Blocks -/

/-- `x` succeeds if there is no fault and otherwise returns one of the faults. -/
def Blk (x : Res Unit) (F : Rc → Prop) : Prop :=
  (x = .ok () ∧ ∀ e, ¬ F e) ∨ ∃ e, x = .err e ∧ F e

theorem Blk.congr {x : Res Unit} {F G : Rc → Prop} (h : Blk x F) (hFG : ∀ e, F e ↔ G e) :
    Blk x G := by
  rcases h with ⟨h1, h2⟩ | ⟨e, h1, h2⟩
  · exact Or.inl ⟨h1, fun e hg => h2 e ((hFG e).mpr hg)⟩
  · exact Or.inr ⟨e, h1, (hFG e).mp h2⟩

theorem Blk.seq {x y : Res Unit} {F G : Rc → Prop} (h1 : Blk x F) (h2 : Blk y G)
    {H : Rc → Prop} (hH : ∀ e, H e ↔ (F e ∨ G e)) : Blk (x >>= fun _ => y) H := by
  rcases h1 with ⟨h1, h1'⟩ | ⟨e, h1, h1'⟩
  · rw [h1, Res.bind_ok]
    refine h2.congr fun e => ?_
    rw [hH]
    have := h1' e
    grind
  · rw [h1, Res.bind_err]
    exact Or.inr ⟨e, rfl, (hH e).mpr (Or.inl h1')⟩

theorem Blk.whenTest {x : Res Unit} {F : Rc → Prop} (h : Blk x F) (what mask : Nat) :
    Blk (whenTest what mask x) (fun e => has what mask = true ∧ F e) := by
  unfold Idn2.whenTest
  split
  · rename_i hm
    exact h.congr fun e => by simp [hm]
  · rename_i hm
    exact Or.inl ⟨rfl, fun e he => hm he.1⟩

theorem Blk.forEach {f : Nat → Res Unit} {l : List Nat} {G : Nat → Rc → Prop}
    (h : ∀ c ∈ l, Blk (f c) (G c)) : Blk (forEach f l) (fun e => ∃ c ∈ l, G c e) := by
  cases hr : Idn2.forEach f l with
  | ok u =>
    refine Or.inl ⟨rfl, ?_⟩
    rintro e ⟨c, hc, hg⟩
    have := forEach_ok.mp hr c hc
    rcases h c hc with ⟨_, h2⟩ | ⟨e', h1, _⟩
    · exact h2 e hg
    · rw [h1] at this; cases this
  | err e =>
    obtain ⟨c, hc, hf⟩ := forEach_err hr
    refine Or.inr ⟨e, rfl, c, hc, ?_⟩
    rcases h c hc with ⟨h1, _⟩ | ⟨e', h1, h2⟩
    · rw [h1] at hf; cases hf
    · rw [h1] at hf; injection hf with hf; subst hf; exact h2
  | ub =>
    obtain ⟨c, hc, hf⟩ := forEach_ub hr
    rcases h c hc with ⟨h1, _⟩ | ⟨e', h1, h2⟩
    · rw [h1] at hf; cases hf
    · rw [h1] at hf; cases hf

theorem Blk.ite {P : Prop} [Decidable P] (e : Rc) :
    Blk (if P then .err e else .ok ()) (fun e' => e' = e ∧ P) := by
  split
  · rename_i h; exact Or.inr ⟨e, rfl, rfl, h⟩
  · rename_i h; exact Or.inl ⟨rfl, fun e' he => h he.2⟩

/-- A block whose error is the one of least `faultRank`, all ranks being at least `r`. -/
def RBlk (x : Res Unit) (F : Rc → Prop) (r : Nat) : Prop :=
  Blk x F ∧ (∀ e, F e → r ≤ faultRank e) ∧
    ∀ e, x = .err e → ∀ e', F e' → faultRank e ≤ faultRank e'

theorem Blk.err {x : Res Unit} {F : Rc → Prop} (h : Blk x F) {e : Rc} (hx : x = .err e) : F e := by
  rcases h with ⟨h1, _⟩ | ⟨e', h1, h2⟩
  · rw [h1] at hx; cases hx
  · rw [h1] at hx; injection hx with hx; exact hx ▸ h2

theorem Blk.const {x : Res Unit} {F : Rc → Prop} (h : Blk x F) (r : Nat)
    (hr : ∀ e, F e → faultRank e = r) : RBlk x F r :=
  ⟨h, fun e he => Nat.le_of_eq (hr e he).symm, fun e hx e' he' => by rw [hr e (h.err hx), hr e' he']; exact Nat.le_refl _⟩

theorem RBlk.congr {x : Res Unit} {F G : Rc → Prop} {r : Nat} (h : RBlk x F r)
    (hFG : ∀ e, F e ↔ G e) : RBlk x G r :=
  ⟨h.1.congr hFG, fun e he => h.2.1 e ((hFG e).mpr he),
    fun e hx e' he' => h.2.2 e hx e' ((hFG e').mpr he')⟩

theorem RBlk.seq {x y : Res Unit} {F G : Rc → Prop} {r s : Nat} (h1 : Blk x F)
    (hr : ∀ e, F e → faultRank e = r) (h2 : RBlk y G s) (hrs : r ≤ s) :
    RBlk (x >>= fun _ => y) (fun e => F e ∨ G e) r := by
  refine ⟨h1.seq h2.1 fun e => Iff.rfl, ?_, ?_⟩
  · rintro e (h | h)
    · exact Nat.le_of_eq (hr e h).symm
    · exact Nat.le_trans hrs (h2.2.1 e h)
  · intro e hx e' he'
    rcases h1 with ⟨h1, h1'⟩ | ⟨e1, h1, h1'⟩
    · rw [h1, Res.bind_ok] at hx
      rcases he' with he' | he'
      · exact absurd he' (h1' e')
      · exact h2.2.2 e hx e' he'
    · rw [h1, Res.bind_err] at hx
      injection hx with hx
      subst hx
      rw [hr _ h1']
      rcases he' with he' | he'
      · rw [hr _ he']; exact Nat.le_refl _
      · exact Nat.le_trans hrs (h2.2.1 e' he')

theorem RBlk.whenTest {x : Res Unit} {F : Rc → Prop} {r : Nat} (h : RBlk x F r) (what mask : Nat) :
    RBlk (whenTest what mask x) (fun e => has what mask = true ∧ F e) r := by
  refine ⟨h.1.whenTest what mask, fun e he => h.2.1 e he.2, fun e hx e' he' => ?_⟩
  unfold Idn2.whenTest at hx
  rw [if_pos he'.1] at hx
  exact h.2.2 e hx e' he'.2

/-! ### The individual tests -/

theorem blk_disallowed {E : Env} {D : Data} (hI : Implements E.T D) (what : Nat) {c : Nat}
    (hc : c ≤ 0x10FFFF) : Blk (testDisallowed E what c) (fun e => e = .disallowed ∧
      D.prop c = .disallowed ∧ ¬ ((what.testBit 12 = true ∨ what.testBit 13 = true) ∧
        what.testBit 14 = true ∧ (D.status c = .std3Valid ∨ D.status c = .std3Mapped))) := by
  obtain ⟨m, hm, _, _, _, _, _, h6, h7, _⟩ := status_map_is hI hc
  have hb := has_bits what
  unfold testDisallowed
  rw [disallowed_p_eq hI hc, Res.bind_ok, has_or, hm]
  simp only [hb, Res.bind_ok, h6, h7]
  by_cases hd : D.prop c = .disallowed
  · simp only [hd, beq_self_eq_true, ↓reduceIte]
    split
    · rename_i h
      simp only [Bool.and_eq_true, Bool.or_eq_true] at h
      split
      · rename_i h'; simp only [beq_iff_eq] at h'
        exact Or.inl ⟨rfl, by rintro e ⟨_, _, hn⟩; exact hn ⟨h.1, h.2, Or.inl h'⟩⟩
      · split
        · rename_i h'; simp only [beq_iff_eq] at h'
          exact Or.inl ⟨rfl, by rintro e ⟨_, _, hn⟩; exact hn ⟨h.1, h.2, Or.inr h'⟩⟩
        · rename_i h1 h2; simp only [beq_iff_eq] at h1 h2
          exact Or.inr ⟨_, rfl, rfl, trivial, by grind⟩
    · rename_i h
      simp only [Bool.and_eq_true, Bool.or_eq_true] at h
      exact Or.inr ⟨_, rfl, rfl, trivial, by grind⟩
  · have : (D.prop c == IdnaProp.disallowed) = false := by simp [hd]
    simp only [this, Bool.false_eq_true, ↓reduceIte]
    exact Or.inl ⟨rfl, fun e he => hd he.2.1⟩

theorem blk_tr46 {E : Env} {D : Data} (hI : Implements E.T D) (what : Nat) {c : Nat}
    (hc : c ≤ 0x10FFFF) : Blk (testTr46 E what c) (fun e =>
      e = (if what.testBit 12 then .invalidTransitional else .invalidNontransitional) ∧
      ¬ Tr46Valid D (what.testBit 12) (what.testBit 14) c) := by
  obtain ⟨m, hm, h1, h2, h3, h4, h5, h6, h7, _⟩ := status_map_is hI hc
  have hb := has_bits what
  unfold testTr46 Tr46Valid
  rw [hm, Res.bind_ok, h1, Res.bind_ok, h4, h6, h7]
  simp only [hb, Res.bind_ok]
  generalize what.testBit 12 = t
  generalize what.testBit 14 = a
  generalize D.status c = s
  cases s <;> cases t <;> cases a <;> simp [Blk]

theorem blk_prop {E : Env} {p : Env → Nat → Res Bool} {Q : Nat → Prop} {c : Nat} {b : Bool}
    (hp : p E c = .ok b) (hb : b = true ↔ Q c) (e : Rc) :
    Blk (do if ← p E c then .err e else .ok ()) (fun e' => e' = e ∧ Q c) := by
  rw [hp, Res.bind_ok]
  cases b with
  | true => exact Or.inr ⟨e, rfl, rfl, hb.mp rfl⟩
  | false =>
    refine Or.inl ⟨rfl, fun e' he => ?_⟩
    have := hb.mpr he.2
    simp at this

theorem lastSat_iff {U : Uni} {P : Bidi → Prop} {l : List Nat} (hl : l ≠ []) :
    lastSat U P l ↔ ∃ c, l.getLast? = some c ∧ P (U.bidi c) := by
  unfold lastSat
  have h := List.getLast?_eq_some_getLast hl
  constructor
  · intro hs; exact ⟨_, h, hs _ h⟩
  · rintro ⟨c, h1, h2⟩ c' hc'
    rw [h1] at hc'; injection hc' with hc'; subst hc'; exact h2

theorem bidi_ok_iff_accepted {U : Uni} {l : List Nat} :
    idn2_bidi U l = .ok () ↔ BidiAccepted U l := by
  rw [bidi_ok_iff]
  unfold BidiAccepted
  refine imp_congr_right fun hr => ?_
  constructor
  · rintro ⟨c, r, rfl, h1, h2, h3⟩
    exact ⟨⟨c, rfl, h1⟩, h2, (lastSat_iff (by simp)).mp h3⟩
  · rintro ⟨⟨c, h0, h1⟩, h2, h3⟩
    cases l with
    | nil => simp at h0
    | cons x r =>
      simp only [List.head?_cons, Option.some.injEq] at h0
      subst h0
      exact ⟨x, r, rfl, h1, h2, (lastSat_iff (by simp)).mpr h3⟩

theorem blk_bidi {U : Uni} {l : List Nat} :
    Blk (idn2_bidi U l) (fun e => e = .bidi ∧ ¬ BidiAccepted U l) := by
  rcases bidi_err (U := U) (l := l) with h | h
  · exact Or.inl ⟨h, fun e he => he.2 (bidi_ok_iff_accepted.mp h)⟩
  · refine Or.inr ⟨_, h, rfl, fun hc => ?_⟩
    rw [bidi_ok_iff_accepted.mpr hc] at h; cases h

theorem blk_contextj {E : Env} {D : Data} (hI : Implements E.T D) {label : List Nat}
    (hl : ∀ c ∈ label, c ≤ 0x10FFFF) {pos : Nat} (hp : pos ∈ List.range label.length) :
    Blk (contextj_rule E label pos) (fun e => ∃ c, label[pos]? = some c ∧ D.prop c = .contextj ∧
      ((e = .contextj ∧ (c = 0x200C ∨ c = 0x200D) ∧ ¬ ContextJ E.U label pos c) ∨
       (e = .contextjNoRule ∧ c ≠ 0x200C ∧ c ≠ 0x200D))) := by
  rw [List.mem_range] at hp
  have hg : label[pos]? = some label[pos] := List.getElem?_eq_getElem hp
  have hr := hl _ (List.getElem_mem hp)
  rcases contextj_rule_spec hI hg hr with ⟨h1, h2⟩ | ⟨h1, h2, h3, h4⟩ | ⟨h1, h2, h3, h4⟩
  · refine Or.inl ⟨h1, ?_⟩
    rintro e ⟨c, hc, hj, hx⟩
    rw [hg] at hc; injection hc with hc; subst hc
    have h2 := h2 hj
    rcases hx with ⟨_, _, hn⟩ | ⟨_, hn1, hn2⟩
    · exact hn h2
    · rcases h2 with ⟨h, _⟩ | ⟨h, _⟩
      · exact hn1 h
      · exact hn2 h
  · exact Or.inr ⟨_, h1, _, hg, h2, Or.inl ⟨rfl, h3, h4⟩⟩
  · exact Or.inr ⟨_, h1, _, hg, h2, Or.inr ⟨rfl, h3, h4⟩⟩

theorem contextO_has {U : Uni} {label : List Nat} {pos c : Nat} (h : ContextO U label pos c) :
    hasContextO c := by
  unfold ContextO at h; unfold hasContextO
  rcases h with h | h | h | h | h | h <;> omega

theorem blk_contexto {E : Env} {D : Data} (hI : Implements E.T D) {label : List Nat}
    (hl : ∀ c ∈ label, c ≤ 0x10FFFF) {pos : Nat} (hp : pos ∈ List.range label.length) :
    Blk (contexto_rule E label pos) (fun e => ∃ c, label[pos]? = some c ∧ D.prop c = .contexto ∧
      ((e = .contexto ∧ hasContextO c ∧ ¬ ContextO E.U label pos c) ∨
       (e = .contextoNoRule ∧ ¬ hasContextO c))) := by
  rw [List.mem_range] at hp
  have hg : label[pos]? = some label[pos] := List.getElem?_eq_getElem hp
  have hr := hl _ (List.getElem_mem hp)
  rcases contexto_rule_spec hI hg hr with ⟨h1, h2⟩ | ⟨h1, h2, h3, h4⟩ | ⟨h1, h2, h3⟩
  · refine Or.inl ⟨h1, ?_⟩
    rintro e ⟨c, hc, hj, hx⟩
    rw [hg] at hc; injection hc with hc; subst hc
    have h2 := h2 hj
    rcases hx with ⟨_, _, hn⟩ | ⟨_, hn⟩
    · exact hn h2
    · exact hn (contextO_has h2)
  · exact Or.inr ⟨_, h1, _, hg, h2, Or.inl ⟨rfl, h3, h4⟩⟩
  · exact Or.inr ⟨_, h1, _, hg, h2, Or.inr ⟨rfl, h3⟩⟩

/-! ### All tests -/

theorem blk_rest {E : Env} {D : Data} (hI : Implements E.T D) (what : Nat) {label : List Nat}
    (hl : ∀ c ∈ label, c ≤ 0x10FFFF) :
    RBlk (label_test_rest E what label)
      (fun e => Fault D E.U what label e ∧ e ≠ .nfc ∧ e ≠ .notNfc) 1 := by
  have hb := has_bits what
  have htt : has what (TEST_TRANSITIONAL ||| TEST_NONTRANSITIONAL) =
      (what.testBit 12 || what.testBit 13) := by rw [has_or]; simp only [hb]
  have b1 := (Blk.ite (P := label.length ≥ 4 ∧ label[2]? = some 0x2D ∧ label[3]? = some 0x2D)
    .twoHyphen).whenTest what TEST_2HYPHEN
  have b2 := (Blk.ite (P := label.length > 0 ∧ (label[0]? = some 0x2D ∨
    label[label.length - 1]? = some 0x2D)) .hyphenStartEnd).whenTest what TEST_HYPHEN_STARTEND
  have b3 : Blk (testLeading E label) (fun e => e = .leadingCombining ∧ ∃ c, label.head? = some c ∧ E.U.isM c = true) := by
    cases label with
    | nil => exact Or.inl ⟨rfl, by simp⟩
    | cons c r =>
      simp only [List.head?_cons, testLeading]
      exact (Blk.ite (P := E.U.isM c = true) .leadingCombining).congr (by simp)
  replace b3 := b3.whenTest what TEST_LEADING_COMBINING
  have b4 := (Blk.forEach (f := testDisallowed E what) (l := label)
    (fun c hc => blk_disallowed hI what (hl c hc))).whenTest what TEST_DISALLOWED
  have b5 := (Blk.forEach (f := fun c => do if ← contextj_p E.T c then .err .contextj else .ok ())
    (l := label) (fun c hc => blk_prop (E := E) (p := fun E => contextj_p E.T)
      (Q := fun c => D.prop c = .contextj) (contextj_p_eq hI (hl c hc)) (by simp)
      .contextj)).whenTest what TEST_CONTEXTJ
  have b6 := (Blk.forEach (f := contextj_rule E label) (l := List.range label.length)
    (fun c hc => blk_contextj hI hl hc)).whenTest what TEST_CONTEXTJ_RULE
  have b7 := (Blk.forEach (f := fun c => do if ← contexto_p E.T c then .err .contexto else .ok ())
    (l := label) (fun c hc => blk_prop (E := E) (p := fun E => contexto_p E.T)
      (Q := fun c => D.prop c = .contexto) (contexto_p_eq hI (hl c hc)) (by simp)
      .contexto)).whenTest what TEST_CONTEXTO
  have b8 := (Blk.forEach (f := fun c => do
      if (← contexto_p E.T c) && !contexto_with_rule c then .err .contextoNoRule else .ok ())
    (l := label) (G := fun c e => e = .contextoNoRule ∧ D.prop c = .contexto ∧ ¬ hasContextO c)
    (fun c hc => by
      rw [contexto_p_eq hI (hl c hc), Res.bind_ok]
      refine (Blk.ite .contextoNoRule).congr fun e => ?_
      rw [Bool.and_eq_true, beq_iff_eq, Bool.not_eq_true', ← Bool.not_eq_true,
        contexto_with_rule_iff])).whenTest what TEST_CONTEXTO_WITH_RULE
  have b9 := (Blk.forEach (f := contexto_rule E label) (l := List.range label.length)
    (fun c hc => blk_contexto hI hl hc)).whenTest what TEST_CONTEXTO_RULE
  have b10 := (Blk.forEach (f := fun c => do if ← unassigned_p E.T c then .err .unassigned else .ok ())
    (l := label) (fun c hc => blk_prop (E := E) (p := fun E => unassigned_p E.T)
      (Q := fun c => D.prop c = .unassigned) (unassigned_p_eq hI (hl c hc)) (by simp)
      .unassigned)).whenTest what TEST_UNASSIGNED
  have b11 := (blk_bidi (U := E.U) (l := label)).whenTest what TEST_BIDI
  have b12 := (Blk.forEach (f := fun c => if c = 0x2E then .err .dotInLabel else .ok ()) (l := label)
      (fun c _ => Blk.ite .dotInLabel))
  have b13 := (Blk.forEach (f := testTr46 E what) (l := label) (fun c hc => blk_tr46 hI what (hl c hc)))
  have b14 := (RBlk.seq (r := 9) b12 (by rintro e ⟨c, _, rfl, _⟩; rfl)
    (b13.const 10 (by rintro e ⟨c, _, rfl, _⟩; split <;> rfl)) (by decide)).whenTest what
      (TEST_TRANSITIONAL ||| TEST_NONTRANSITIONAL)
  rw [htt] at b14
  simp only [hb] at b1 b2 b3 b4 b5 b6 b7 b8 b9 b10 b11
  unfold label_test_rest
  refine RBlk.congr
    (RBlk.seq (r := 1) b1 (by rintro e ⟨_, rfl, _⟩; rfl)
    (RBlk.seq (r := 2) b2 (by rintro e ⟨_, rfl, _⟩; rfl)
    (RBlk.seq (r := 3) b3 (by rintro e ⟨_, rfl, _⟩; rfl)
    (RBlk.seq (r := 4) b4 (by rintro e ⟨_, _, _, rfl, _⟩; rfl)
    (RBlk.seq (r := 5) b5 (by rintro e ⟨_, _, _, rfl, _⟩; rfl)
    (RBlk.seq (r := 5) b6 (by rintro e ⟨_, _, _, _, _, _, ⟨rfl, _⟩ | ⟨rfl, _⟩⟩ <;> rfl)
    (RBlk.seq (r := 6) b7 (by rintro e ⟨_, _, _, rfl, _⟩; rfl)
    (RBlk.seq (r := 6) b8 (by rintro e ⟨_, _, _, rfl, _⟩; rfl)
    (RBlk.seq (r := 6) b9 (by rintro e ⟨_, _, _, _, _, _, ⟨rfl, _⟩ | ⟨rfl, _⟩⟩ <;> rfl)
    (RBlk.seq (r := 7) b10 (by rintro e ⟨_, _, _, rfl, _⟩; rfl)
    (RBlk.seq (r := 8) b11 (by rintro e ⟨_, rfl, _⟩; rfl) b14
      (by decide)) (by decide)) (by decide)) (by decide)) (by decide)) (by decide)) (by decide))
      (by decide)) (by decide)) (by decide)) (by decide)) ?_
  intro e
  have hlast : label[label.length - 1]? = label.getLast? := by
    rw [List.getLast?_eq_getElem?]
  have hhead : label[0]? = label.head? := by cases label <;> rfl
  constructor
  · rintro (⟨h0, rfl, _, h1, h2⟩ | ⟨h0, rfl, _, h1⟩ | ⟨h0, rfl, c, h1, h2⟩ | ⟨h0, c, hc, rfl, h1, h2⟩ |
      ⟨h0, c, hc, rfl, h1⟩ | ⟨h0, pos, _, c, hc, h1, h2⟩ | ⟨h0, c, hc, rfl, h1⟩ |
      ⟨h0, c, hc, rfl, h1, h2⟩ | ⟨h0, pos, _, c, hc, h1, h2⟩ | ⟨h0, c, hc, rfl, h1⟩ |
      ⟨h0, rfl, h1⟩ | ⟨h0, ⟨c, hc, rfl, rfl⟩ | ⟨c, hc, h1, h2⟩⟩)
    · exact ⟨.twoHyphen h0 h1 h2, by simp, by simp⟩
    · rw [hhead, hlast] at h1
      exact ⟨.hyphenStartEnd h0 h1, by simp, by simp⟩
    · exact ⟨.leadingCombining c h0 h1 h2, by simp, by simp⟩
    · exact ⟨.disallowed c h0 hc h1 h2, by simp, by simp⟩
    · exact ⟨.contextjAny c h0 hc h1, by simp, by simp⟩
    · rcases h2 with ⟨rfl, h2, h3⟩ | ⟨rfl, h2, h3⟩
      · exact ⟨.contextj pos c h0 hc h1 h2 h3, by simp, by simp⟩
      · exact ⟨.contextjNoRule c h0 (List.mem_of_getElem? hc) h1 h2 h3, by simp, by simp⟩
    · exact ⟨.contextoAny c h0 hc h1, by simp, by simp⟩
    · exact ⟨.contextoNoRule c (Or.inl h0) hc h1 h2, by simp, by simp⟩
    · rcases h2 with ⟨rfl, h2, h3⟩ | ⟨rfl, h2⟩
      · exact ⟨.contexto pos c h0 hc h1 h2 h3, by simp, by simp⟩
      · exact ⟨.contextoNoRule c (Or.inr h0) (List.mem_of_getElem? hc) h1 h2, by simp, by simp⟩
    · exact ⟨.unassigned c h0 hc h1, by simp, by simp⟩
    · exact ⟨.bidi h0 h1, by simp, by simp⟩
    · exact ⟨.dotInLabel (by simpa using h0) hc, by simp, by simp⟩
    · cases ht : what.testBit 12 with
      | true =>
        rw [ht] at h1 h2
        simp only [↓reduceIte] at h1
        subst h1
        exact ⟨.invalidTransitional c ht hc h2, by simp, by simp⟩
      | false =>
        rw [ht] at h0 h1 h2
        simp only [Bool.false_eq_true, ↓reduceIte] at h1
        subst h1
        exact ⟨.invalidNontransitional c ht (by simpa using h0) hc h2, by simp, by simp⟩
  · rintro ⟨hf, hn1, hn2⟩
    cases hf with
    | nfc => simp at hn1
    | notNfc => simp at hn2
    | twoHyphen h0 h1 h2 =>
      refine Or.inl ⟨h0, rfl, ?_, h1, h2⟩
      rcases Nat.lt_or_ge 3 label.length with h | h
      · omega
      · rw [List.getElem?_eq_none h] at h2; simp at h2
    | hyphenStartEnd h0 h1 =>
      refine Or.inr (Or.inl ⟨h0, rfl, ?_, by rw [hhead, hlast]; exact h1⟩)
      cases label with
      | nil => simp at h1
      | cons => simp
    | leadingCombining c h0 h1 h2 => exact Or.inr (Or.inr (Or.inl ⟨h0, rfl, c, h1, h2⟩))
    | disallowed c h0 hc h1 h2 => exact Or.inr (Or.inr (Or.inr (Or.inl ⟨h0, c, hc, rfl, h1, h2⟩)))
    | contextjAny c h0 hc h1 =>
      exact Or.inr (Or.inr (Or.inr (Or.inr (Or.inl ⟨h0, c, hc, rfl, h1⟩))))
    | contextj pos c h0 hc h1 h2 h3 =>
      have hp : pos ∈ List.range label.length := by
        rw [List.mem_range]; exact (List.getElem?_eq_some_iff.mp hc).1
      exact Or.inr (Or.inr (Or.inr (Or.inr (Or.inr (Or.inl
        ⟨h0, pos, hp, c, hc, h1, Or.inl ⟨rfl, h2, h3⟩⟩)))))
    | contextjNoRule c h0 hc h1 h2 h3 =>
      obtain ⟨pos, hp, hpc⟩ := List.getElem_of_mem hc
      have hc' : label[pos]? = some c := by rw [List.getElem?_eq_getElem hp, hpc]
      exact Or.inr (Or.inr (Or.inr (Or.inr (Or.inr (Or.inl
        ⟨h0, pos, List.mem_range.mpr hp, c, hc', h1, Or.inr ⟨rfl, h2, h3⟩⟩)))))
    | contextoAny c h0 hc h1 =>
      exact Or.inr (Or.inr (Or.inr (Or.inr (Or.inr (Or.inr (Or.inl ⟨h0, c, hc, rfl, h1⟩))))))
    | contextoNoRule c h0 hc h1 h2 =>
      rcases h0 with h0 | h0
      · exact Or.inr (Or.inr (Or.inr (Or.inr (Or.inr (Or.inr (Or.inr (Or.inl
          ⟨h0, c, hc, rfl, h1, h2⟩)))))))
      · obtain ⟨pos, hp, hpc⟩ := List.getElem_of_mem hc
        have hc' : label[pos]? = some c := by rw [List.getElem?_eq_getElem hp, hpc]
        exact Or.inr (Or.inr (Or.inr (Or.inr (Or.inr (Or.inr (Or.inr (Or.inr (Or.inl
          ⟨h0, pos, List.mem_range.mpr hp, c, hc', h1, Or.inr ⟨rfl, h2⟩⟩))))))))
    | contexto pos c h0 hc h1 h2 h3 =>
      have hp : pos ∈ List.range label.length := by
        rw [List.mem_range]; exact (List.getElem?_eq_some_iff.mp hc).1
      exact Or.inr (Or.inr (Or.inr (Or.inr (Or.inr (Or.inr (Or.inr (Or.inr (Or.inl
          ⟨h0, pos, hp, c, hc, h1, Or.inl ⟨rfl, h2, h3⟩⟩))))))))
    | unassigned c h0 hc h1 =>
      exact Or.inr (Or.inr (Or.inr (Or.inr (Or.inr (Or.inr (Or.inr (Or.inr (Or.inr (Or.inl
          ⟨h0, c, hc, rfl, h1⟩)))))))))
    | bidi h0 h1 =>
      exact Or.inr (Or.inr (Or.inr (Or.inr (Or.inr (Or.inr (Or.inr (Or.inr (Or.inr (Or.inr (Or.inl
          ⟨h0, rfl, h1⟩))))))))))
    | dotInLabel h0 hc =>
      exact Or.inr (Or.inr (Or.inr (Or.inr (Or.inr (Or.inr (Or.inr (Or.inr (Or.inr (Or.inr (Or.inr
          ⟨by simpa using h0, Or.inl ⟨_, hc, rfl, rfl⟩⟩))))))))))
    | invalidTransitional c h0 hc h1 =>
      exact Or.inr (Or.inr (Or.inr (Or.inr (Or.inr (Or.inr (Or.inr (Or.inr (Or.inr (Or.inr (Or.inr
          ⟨by simp [h0], Or.inr ⟨c, hc, by simp [h0], by rw [h0]; exact h1⟩⟩))))))))))
    | invalidNontransitional c h0 h0' hc h1 =>
      exact Or.inr (Or.inr (Or.inr (Or.inr (Or.inr (Or.inr (Or.inr (Or.inr (Or.inr (Or.inr (Or.inr
          ⟨by simp [h0'], Or.inr ⟨c, hc, by simp [h0], by rw [h0]; exact h1⟩⟩))))))))))

/-- `_idn2_label_test` without memory. -/
def labelTestP (E : Env) (what : Nat) (label : List Nat) : Res Unit :=
  if has what TEST_NFC then
    match E.U.nfc label with
    | none => .err .nfc
    | some t => if t = label then label_test_rest E what label else .err .notNfc
  else label_test_rest E what label

theorem label_test_out (E : Env) (what : Nat) (label : List Nat) :
    (label_test E what label : Out _) = liftR (labelTestP E what label) := by
  unfold label_test labelTestP
  split
  · cases E.U.nfc label with
    | none => simp [libConv]
    | some t =>
      simp only [libConv, Out.malloc_eq, Out.bind_val, Out.pure_eq, Out.touch_eq, Out.free_eq]
      split <;> rfl
  · rfl

theorem rblk_label_test {E : Env} {D : Data} (hI : Implements E.T D) (what : Nat) {label : List Nat}
    (hl : ∀ c ∈ label, c ≤ 0x10FFFF) :
    RBlk (labelTestP E what label) (Fault D E.U what label) 0 := by
  have hrest := blk_rest hI what hl
  have hb := has_bits what
  have zero : ∀ {x : Res Unit} {F : Rc → Prop} {r : Nat}, RBlk x F r → RBlk x F 0 :=
    fun h => ⟨h.1, fun e _ => Nat.zero_le _, h.2.2⟩
  unfold labelTestP
  rw [hb.1]
  by_cases h0 : what.testBit 0 = true
  · rw [if_pos h0]
    cases hn : E.U.nfc label with
    | none =>
      refine ⟨Or.inr ⟨_, rfl, .nfc h0 hn⟩, fun e _ => Nat.zero_le _, fun e hx e' _ => ?_⟩
      injection hx with hx; subst hx; exact Nat.zero_le _
    | some t =>
      simp only
      split
      · rename_i ht
        refine zero (hrest.congr fun e => ⟨fun h => h.1, fun h => ⟨h, ?_, ?_⟩⟩)
        · rintro rfl; cases h with | nfc _ h => rw [hn] at h; cases h
        · rintro rfl
          cases h with
          | notNfc t' _ h h' => rw [hn] at h; injection h with h; subst h; exact h' ht
      · rename_i ht
        refine ⟨Or.inr ⟨_, rfl, .notNfc t h0 hn ht⟩, fun e _ => Nat.zero_le _, fun e hx e' _ => ?_⟩
        injection hx with hx; subst hx; exact Nat.zero_le _
  · rw [if_neg h0]
    refine zero (hrest.congr fun e => ⟨fun h => h.1, fun h => ⟨h, ?_, ?_⟩⟩)
    · rintro rfl; cases h with | nfc h _ => exact h0 h
    · rintro rfl; cases h with | notNfc t' h _ _ => exact h0 h

theorem blk_label_test {E : Env} {D : Data} (hI : Implements E.T D) (what : Nat) {label : List Nat}
    (hl : ∀ c ∈ label, c ≤ 0x10FFFF) :
    Blk (labelTestP E what label) (Fault D E.U what label) := (rblk_label_test hI what hl).1

end Idn2
