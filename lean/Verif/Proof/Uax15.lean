import Verif.Spec.Uax15

/-
Normalisation form C: the laws of `Uni.Laws` from facts about the data.
-/

namespace Idn2
namespace Spec.Uax15

variable {X : Uax15}

theorem ordIns_cons (c x : Nat) (r : List Nat) : X.ordIns c (x :: r) =
    if 0 < X.ccc x ∧ X.ccc x < X.ccc c then x :: X.ordIns c r else c :: x :: r := rfl

theorem compose_cons (c : Nat) (r : List Nat) : X.compose (c :: r) =
    if X.ccc c = 0 then X.composeFrom c [] r else c :: X.compose r := rfl

/-- A step without composition. -/
theorem composeFrom_cons {l c : Nat} (h : X.comp l c = none) (k r : List Nat) :
    X.composeFrom l k (c :: r) =
      if X.ccc c = 0 then l :: k ++ X.composeFrom c [] r else X.composeFrom l (k ++ [c]) r := by
  rw [composeFrom.eq_2, h, ite_self]

/-! ### Canonical ordering -/

theorem mem_ordIns {c x : Nat} {l : List Nat} : x ∈ X.ordIns c l ↔ x = c ∨ x ∈ l := by
  induction l with
  | nil => simp [ordIns]
  | cons y r ih =>
    unfold ordIns
    split
    · simp only [List.mem_cons, ih]
      constructor
      · rintro (h | h | h)
        · exact .inr (.inl h)
        · exact .inl h
        · exact .inr (.inr h)
      · rintro (h | h | h)
        · exact .inr (.inl h)
        · exact .inl h
        · exact .inr (.inr h)
    · simp only [List.mem_cons]

theorem mem_reorder {x : Nat} {s : List Nat} : x ∈ X.reorder s ↔ x ∈ s := by
  unfold reorder
  induction s with
  | nil => simp
  | cons c r ih => rw [List.foldr_cons, mem_ordIns, ih, List.mem_cons]

/-- Text in canonical order. -/
inductive Ordered (X : Uax15) : List Nat → Prop
  | nil : Ordered X []
  | one (c : Nat) : Ordered X [c]
  | cons (c d : Nat) (r : List Nat) : ¬ (0 < X.ccc d ∧ X.ccc d < X.ccc c) → Ordered X (d :: r) →
      Ordered X (c :: d :: r)

theorem Ordered.tail {c : Nat} {r : List Nat} (h : Ordered X (c :: r)) : Ordered X r := by
  cases h with
  | one => exact .nil
  | cons _ d r _ h => exact h

theorem ordIns_ordered {c : Nat} {l : List Nat} (h : Ordered X l) : Ordered X (X.ordIns c l) := by
  induction l with
  | nil => exact .one c
  | cons x r ih =>
    unfold ordIns
    split
    · rename_i hx
      have ih := ih h.tail
      cases r with
      | nil => exact .cons x c [] (by omega) (.one c)
      | cons y r =>
        unfold ordIns at ih ⊢
        split
        · rename_i hy
          rw [if_pos hy] at ih
          cases h with
          | cons _ _ _ h1 _ => exact .cons x y _ h1 ih
        · rename_i hy
          rw [if_neg hy] at ih
          exact .cons x c _ (by omega) ih
    · rename_i hx
      exact .cons c x r hx h

theorem reorder_ordered (s : List Nat) : Ordered X (X.reorder s) := by
  unfold reorder
  induction s with
  | nil => exact .nil
  | cons c r ih => exact ordIns_ordered ih

theorem reorder_id {s : List Nat} (h : Ordered X s) : X.reorder s = s := by
  unfold reorder
  induction h with
  | nil => rfl
  | one c => rfl
  | cons c d r h1 _ ih => rw [List.foldr_cons, ih, ordIns, if_neg h1]

/-- The order in which two marks of different class are inserted does not matter. -/
theorem ordIns_comm {a b : Nat} (ha : X.ccc a ≠ 0) (hb : X.ccc b ≠ 0) (hab : X.ccc a ≠ X.ccc b)
    (l : List Nat) : X.ordIns a (X.ordIns b l) = X.ordIns b (X.ordIns a l) := by
  induction l with
  | nil =>
    unfold ordIns
    simp only [ordIns]
    by_cases h : X.ccc a < X.ccc b
    · rw [if_neg (by omega), if_pos (by omega)]
    · rw [if_pos (by omega), if_neg (by omega)]
  | cons x r ih =>
    by_cases h1 : 0 < X.ccc x ∧ X.ccc x < X.ccc a
    · by_cases h2 : 0 < X.ccc x ∧ X.ccc x < X.ccc b
      · simp only [ordIns, if_pos h1, if_pos h2, ih]
      · have h3 : 0 < X.ccc b ∧ X.ccc b < X.ccc a := by omega
        have h4 : ¬ (0 < X.ccc x ∧ X.ccc x < X.ccc b) := h2
        simp only [ordIns, if_pos h1, if_neg h2, if_pos h3]
    · by_cases h2 : 0 < X.ccc x ∧ X.ccc x < X.ccc b
      · have h3 : 0 < X.ccc a ∧ X.ccc a < X.ccc b := by omega
        simp only [ordIns, if_neg h1, if_pos h2, if_pos h3]
      · by_cases h3 : X.ccc a < X.ccc b
        · have h4 : 0 < X.ccc a ∧ X.ccc a < X.ccc b := by omega
          have h5 : ¬ (0 < X.ccc b ∧ X.ccc b < X.ccc a) := by omega
          simp only [ordIns, if_neg h1, if_neg h2, if_pos h4, if_neg h5]
        · have h4 : 0 < X.ccc b ∧ X.ccc b < X.ccc a := by omega
          have h5 : ¬ (0 < X.ccc a ∧ X.ccc a < X.ccc b) := by omega
          simp only [ordIns, if_neg h1, if_neg h2, if_pos h4, if_neg h5]

theorem reorder_append (x y : List Nat) : X.reorder (x ++ y) = x.foldr X.ordIns (X.reorder y) := by
  unfold reorder; rw [List.foldr_append]

/-- A mark moves over marks of lower class. -/
theorem reorder_move {c : Nat} (x s y : List Nat) (hs : ∀ b ∈ s, X.ccc b ≠ 0 ∧ X.ccc b < X.ccc c) :
    X.reorder (x ++ c :: (s ++ y)) = X.reorder (x ++ (s ++ c :: y)) := by
  rw [reorder_append, reorder_append]
  congr 1
  induction s with
  | nil => rfl
  | cons b r ih =>
    have hb := hs b List.mem_cons_self
    have ih := ih fun z hz => hs z (List.mem_cons_of_mem _ hz)
    have e1 : X.reorder (c :: (b :: r ++ y)) = X.ordIns c (X.ordIns b (X.reorder (r ++ y))) := rfl
    have e2 : X.reorder (b :: r ++ c :: y) = X.ordIns b (X.reorder (r ++ c :: y)) := rfl
    have e3 : X.reorder (c :: (r ++ y)) = X.ordIns c (X.reorder (r ++ y)) := rfl
    rw [e1, e2, ordIns_comm (by omega) hb.1 (by omega), ← e3, ih]

/-! ### Composition and decomposition -/

theorem flatMap_decomp_id {s : List Nat} (h : ∀ x ∈ s, X.decomp x = [x]) : s.flatMap X.decomp = s := by
  induction s with
  | nil => rfl
  | cons c r ih =>
    rw [List.flatMap_cons, h c List.mem_cons_self, ih fun x hx => h x (List.mem_cons_of_mem _ hx)]
    rfl

/-- Decomposing what has been composed gives the text back, up to the order of marks. -/
theorem reorder_composeFrom (hX : X.Laws) (s : List Nat) :
    ∀ (x : List Nat) (l : Nat) (k : List Nat), (∀ c ∈ s, X.decomp c = [c]) →
      (∀ b ∈ k, X.decomp b = [b] ∧ X.ccc b ≠ 0) →
      X.reorder (x ++ (X.composeFrom l k s).flatMap X.decomp) =
        X.reorder (x ++ (X.decomp l ++ (k ++ s))) := by
  induction s with
  | nil =>
    intro x l k _ hk
    rw [composeFrom, List.flatMap_cons, flatMap_decomp_id fun b hb => (hk b hb).1, List.append_nil]
  | cons c r ih =>
    intro x l k hs hk
    have hr := fun y hy => hs y (List.mem_cons_of_mem c hy)
    have hc := hs c List.mem_cons_self
    unfold composeFrom
    split
    · rename_i d hd
      split at hd
      · rename_i hb
        rw [ih x d k hr hk, hX.parts l c d hd, hc]
        have := reorder_move (c := c) (x ++ X.decomp l) k r fun b h => ⟨(hk b h).2, hb b h⟩
        simpa only [List.append_assoc, List.singleton_append] using this
      · cases hd
    · split
      · have := ih (x ++ (X.decomp l ++ k)) c [] hr (by simp)
        rw [List.cons_append, List.flatMap_cons, List.flatMap_append,
          flatMap_decomp_id fun b hb => (hk b hb).1]
        simp only [List.append_assoc, List.nil_append, hc, List.singleton_append] at this ⊢
        exact this
      · rename_i h0
        rw [ih x l (k ++ [c]) hr (by
          intro b hb
          rw [List.mem_append, List.mem_singleton] at hb
          rcases hb with hb | rfl
          · exact hk b hb
          · exact ⟨hc, h0⟩)]
        simp only [List.append_assoc, List.singleton_append]

theorem reorder_compose (hX : X.Laws) {s : List Nat} (hs : ∀ c ∈ s, X.decomp c = [c]) :
    X.reorder ((X.compose s).flatMap X.decomp) = X.reorder s := by
  have key : ∀ x, X.reorder (x ++ (X.compose s).flatMap X.decomp) = X.reorder (x ++ s) := by
    induction s with
    | nil => intro x; rfl
    | cons c r ih =>
      intro x
      have hr := fun y hy => hs y (List.mem_cons_of_mem c hy)
      have hc := hs c List.mem_cons_self
      unfold compose
      split
      · rw [reorder_composeFrom hX r x c [] hr (by simp), hc]; rfl
      · have := ih hr (x ++ [c])
        rw [List.flatMap_cons, hc]
        simpa only [List.append_assoc, List.singleton_append] using this
  exact key []

theorem decomp_nfd (hX : X.Laws) {s : List Nat} : ∀ c ∈ X.nfd s, X.decomp c = [c] := by
  intro c hc
  rw [nfd, mem_reorder, List.mem_flatMap] at hc
  obtain ⟨a, _, h⟩ := hc
  exact hX.full a c h

/-- Form D of form C is form D. -/
theorem nfd_nfc (hX : X.Laws) (s : List Nat) : X.nfd (X.nfc s) = X.nfd s := by
  have h1 : X.nfd (X.nfc s) = X.reorder (X.nfd s) := by
    conv => lhs; unfold nfd nfc
    exact reorder_compose hX (decomp_nfd hX)
  rw [h1]
  exact reorder_id (reorder_ordered _)

theorem nfc_idem (hX : X.Laws) (s : List Nat) : X.nfc (X.nfc s) = X.nfc s := by
  conv => lhs; unfold nfc
  rw [show X.compose (X.nfd s) = X.nfc s from rfl, nfd_nfc hX]
  rfl

/-- Texts have the same form C exactly if they are equivalent. -/
theorem nfc_eq_iff (hX : X.Laws) {s t : List Nat} : X.nfc s = X.nfc t ↔ X.Equivalent s t := by
  constructor
  · intro h
    unfold Equivalent
    rw [← nfd_nfc hX s, h, nfd_nfc hX]
  · intro h
    unfold nfc
    rw [h]

/-! ### Separators -/

theorem ordIns_sep {e c : Nat} (hc : X.ccc c = 0) (l r : List Nat) :
    X.ordIns e (l ++ c :: r) = X.ordIns e l ++ c :: r := by
  induction l with
  | nil =>
    show X.ordIns e (c :: r) = _
    rw [ordIns_cons, if_neg (by omega)]; rfl
  | cons x l ih =>
    show X.ordIns e (x :: (l ++ c :: r)) = _
    unfold ordIns
    split
    · rw [ih]; rfl
    · rfl

theorem reorder_sep {c : Nat} (hc : X.ccc c = 0) (x y : List Nat) :
    X.reorder (x ++ c :: y) = X.reorder x ++ c :: X.reorder y := by
  induction x with
  | nil =>
    show X.ordIns c (X.reorder y) = c :: X.reorder y
    cases X.reorder y with
    | nil => rfl
    | cons z r => rw [ordIns_cons, if_neg (by omega)]
  | cons e x ih =>
    show X.ordIns e (X.reorder (x ++ c :: y)) = X.ordIns e (X.reorder x) ++ c :: X.reorder y
    rw [ih, ordIns_sep hc]

theorem composeFrom_sepL {c : Nat} (hc : ∀ b, X.comp c b = none) (y : List Nat) :
    ∀ k, X.composeFrom c k y = c :: (k ++ X.compose y) := by
  induction y with
  | nil => intro k; simp [composeFrom, compose]
  | cons d r ih =>
    intro k
    unfold composeFrom compose
    rw [hc d, ite_self]
    simp only
    split
    · rfl
    · rw [ih]; simp

theorem composeFrom_sep {c : Nat} (h0 : X.ccc c = 0) (hl : ∀ b, X.comp c b = none)
    (hr : ∀ a, X.comp a c = none) (x y : List Nat) :
    ∀ l k, X.composeFrom l k (x ++ c :: y) = X.composeFrom l k x ++ c :: X.compose y := by
  induction x with
  | nil =>
    intro l k
    show X.composeFrom l k (c :: y) = _
    rw [composeFrom_cons (hr l), if_pos h0, composeFrom_sepL hl]
    rfl
  | cons d r ih =>
    intro l k
    show X.composeFrom l k (d :: (r ++ c :: y)) = _
    unfold composeFrom
    split
    · exact ih _ _
    · split
      · rw [ih]; simp
      · exact ih _ _

theorem compose_sep {c : Nat} (h0 : X.ccc c = 0) (hl : ∀ b, X.comp c b = none)
    (hr : ∀ a, X.comp a c = none) (x y : List Nat) :
    X.compose (x ++ c :: y) = X.compose x ++ c :: X.compose y := by
  induction x with
  | nil =>
    show X.compose (c :: y) = _
    rw [compose_cons, if_pos h0, composeFrom_sepL hl]
    rfl
  | cons d r ih =>
    show X.compose (d :: (r ++ c :: y)) = _
    rw [compose_cons, compose_cons]
    split
    · exact composeFrom_sep h0 hl hr _ _ _ _
    · rw [ih]; rfl

theorem nfc_sep (hX : X.Laws) {c : Nat} (hc : c = 0 ∨ c = 0x2E) (a b : List Nat) :
    X.nfc (a ++ c :: b) = X.nfc a ++ c :: X.nfc b := by
  obtain ⟨h0, h1, h2⟩ := hX.ascii c (by omega)
  unfold nfc nfd
  rw [List.flatMap_append, List.flatMap_cons, h1]
  show X.compose (X.reorder (_ ++ c :: _)) = _
  rw [reorder_sep h0, compose_sep h0 (hX.sep c hc) h2]
  rfl

/-! ### What a normalised text consists of -/

/-- The code points of a composed text. -/
theorem composeFrom_all {P : Nat → Prop} (hP : ∀ a b c, P a → P b → X.comp a b = some c → P c)
    (s : List Nat) : ∀ l k, P l → (∀ x ∈ k, P x) → (∀ x ∈ s, P x) →
      ∀ x ∈ X.composeFrom l k s, P x := by
  induction s with
  | nil =>
    intro l k hl hk _ x hx
    rw [composeFrom, List.mem_cons] at hx
    rcases hx with rfl | hx
    · exact hl
    · exact hk x hx
  | cons c r ih =>
    intro l k hl hk hs
    have hc := hs c List.mem_cons_self
    have hr := fun y hy => hs y (List.mem_cons_of_mem c hy)
    unfold composeFrom
    split
    · rename_i d hd
      split at hd
      · exact ih d k (hP l c d hl hc hd) hk hr
      · cases hd
    · split
      · intro x hx
        rw [List.cons_append, List.mem_cons, List.mem_append] at hx
        rcases hx with rfl | hx | hx
        · exact hl
        · exact hk x hx
        · exact ih c [] hc (by simp) hr x hx
      · refine ih l (k ++ [c]) hl (fun x hx => ?_) hr
        rw [List.mem_append, List.mem_singleton] at hx
        rcases hx with hx | rfl
        · exact hk x hx
        · exact hc

theorem compose_all {P : Nat → Prop} (hP : ∀ a b c, P a → P b → X.comp a b = some c → P c)
    {s : List Nat} (hs : ∀ x ∈ s, P x) : ∀ x ∈ X.compose s, P x := by
  induction s with
  | nil => intro x hx; cases hx
  | cons c r ih =>
    have hc := hs c List.mem_cons_self
    have hr := fun y hy => hs y (List.mem_cons_of_mem c hy)
    unfold compose
    split
    · exact composeFrom_all hP r c [] hc (by simp) hr
    · intro x hx
      rw [List.mem_cons] at hx
      rcases hx with rfl | hx
      · exact hc
      · exact ih hr x hx

theorem nfc_all {P : Nat → Prop} (hP : ∀ a b c, P a → P b → X.comp a b = some c → P c)
    (hD : ∀ c, P c → ∀ x ∈ X.decomp c, P x) {s : List Nat} (hs : ∀ x ∈ s, P x) :
    ∀ x ∈ X.nfc s, P x := by
  refine compose_all hP fun x hx => ?_
  rw [nfd, mem_reorder, List.mem_flatMap] at hx
  obtain ⟨a, ha, h⟩ := hx
  exact hD a (hs a ha) x h

theorem nfc_nosep (hX : X.Laws) {c : Nat} (hc : c = 0 ∨ c = 0x2E) {s : List Nat} (h : c ∉ s) :
    c ∉ X.nfc s := by
  have := nfc_all (X := X) (P := fun x => x ≠ c)
    (fun a b d _ _ hd e => (hX.nosep c hc).1 a b (e ▸ hd))
    (fun a ha x hx e => ha ((hX.nosep c hc).2 a (e ▸ hx)))
    (s := s) (fun x hx e => h (e ▸ hx))
  exact fun hm => this c hm rfl

theorem composeFrom_ascii (hX : X.Laws) (s : List Nat) (hs : ∀ c ∈ s, c < 0x80) :
    ∀ l, X.composeFrom l [] s = l :: s := by
  induction s with
  | nil => intro l; rfl
  | cons c r ih =>
    intro l
    obtain ⟨h0, _, h2⟩ := hX.ascii c (hs c List.mem_cons_self)
    rw [composeFrom_cons (h2 l), if_pos h0, ih fun y hy => hs y (List.mem_cons_of_mem c hy)]
    rfl

theorem nfc_ascii (hX : X.Laws) {s : List Nat} (hs : ∀ c ∈ s, c < 0x80) : X.nfc s = s := by
  unfold nfc nfd
  rw [flatMap_decomp_id fun c hc => (hX.ascii c (hs c hc)).2.1]
  have ho : Ordered X s := by
    induction s with
    | nil => exact .nil
    | cons c r ih =>
      have ih := ih fun y hy => hs y (List.mem_cons_of_mem c hy)
      cases r with
      | nil => exact .one c
      | cons d r =>
        have := (hX.ascii d (hs d (by simp))).1
        exact .cons c d r (by omega) ih
  rw [reorder_id ho]
  cases s with
  | nil => rfl
  | cons c r =>
    rw [compose_cons, if_pos (hX.ascii c (hs c List.mem_cons_self)).1,
      composeFrom_ascii hX r fun y hy => hs y (List.mem_cons_of_mem c hy)]

/-! ### The quick check -/

/-- Two texts in the order of classes, put together. -/
def merge (X : Uax15) : List Nat → List Nat → List Nat
  | [], m => m
  | a, [] => a
  | a :: r, m :: k =>
    if 0 < X.ccc m ∧ X.ccc m < X.ccc a then m :: merge X (a :: r) k else a :: merge X r (m :: k)
termination_by a m => a.length + m.length

theorem merge_nil_right (a : List Nat) : merge X a [] = a := by
  cases a <;> simp [merge]

theorem ordIns_merge {a : Nat} {r : List Nat} (h : (a :: r).Pairwise fun x y => X.ccc x ≤ X.ccc y)
    (m : List Nat) : X.ordIns a (merge X r m) = merge X (a :: r) m := by
  have ha : ∀ x ∈ r, X.ccc a ≤ X.ccc x := (List.pairwise_cons.mp h).1
  have hstop : ∀ x l, x ∈ r → X.ordIns a (x :: l) = a :: x :: l := fun x l hx => by
    have := ha x hx
    rw [ordIns_cons, if_neg (by omega)]
  induction m with
  | nil =>
    rw [merge_nil_right, merge_nil_right]
    cases r with
    | nil => rfl
    | cons x r => exact hstop x r List.mem_cons_self
  | cons m k ih =>
    conv => rhs; unfold merge
    by_cases hm : 0 < X.ccc m ∧ X.ccc m < X.ccc a
    · rw [if_pos hm, ← ih]
      have e : merge X r (m :: k) = m :: merge X r k := by
        cases r with
        | nil => simp [merge]
        | cons x r =>
          have := ha x List.mem_cons_self
          conv => lhs; unfold merge
          rw [if_pos (by omega)]
      rw [e, ordIns_cons, if_pos hm]
    · rw [if_neg hm]
      cases r with
      | nil =>
        have e : merge X [] (m :: k) = m :: k := by simp [merge]
        rw [e, ordIns_cons, if_neg hm]
      | cons x r =>
        conv => lhs; unfold merge
        conv => rhs; unfold merge
        split
        · rw [ordIns_cons, if_neg hm]
        · exact hstop x _ List.mem_cons_self

theorem foldr_merge {a : List Nat} (h : a.Pairwise fun x y => X.ccc x ≤ X.ccc y) (m : List Nat) :
    a.foldr X.ordIns m = merge X a m := by
  induction a with
  | nil => simp [merge]
  | cons x r ih =>
    rw [List.foldr_cons, ih (List.pairwise_cons.mp h).2, ordIns_merge h]

/-- What may follow a starter and its marks. -/
def Fresh (X : Uax15) (z : List Nat) : Prop :=
  ∀ c r, z = c :: r → X.ccc c = 0 ∧ ∀ a, X.comp a c = none

theorem composeFrom_fresh {z : List Nat} (hz : Fresh X z) (l : Nat) (k : List Nat) :
    X.composeFrom l k z = l :: k ++ X.compose z := by
  cases z with
  | nil => simp [composeFrom, compose]
  | cons c r =>
    obtain ⟨h0, hc⟩ := hz c r rfl
    rw [composeFrom_cons (hc l), if_pos h0, compose_cons, if_pos h0]

theorem composeFrom_marks {z : List Nat} (hz : Fresh X z) {l : Nat} (m : List Nat)
    (hm : ∀ x ∈ m, X.ccc x ≠ 0 ∧ ∀ a, X.comp a x = none) :
    ∀ k, X.composeFrom l k (m ++ z) = l :: (k ++ m) ++ X.compose z := by
  induction m with
  | nil => intro k; rw [List.append_nil]; exact composeFrom_fresh hz l k
  | cons x m ih =>
    intro k
    obtain ⟨h0, hx⟩ := hm x List.mem_cons_self
    show X.composeFrom l k (x :: (m ++ z)) = _
    rw [composeFrom_cons (hx l), if_neg h0, ih fun y hy => hm y (List.mem_cons_of_mem _ hy)]
    simp

/-- A starter gets back what belongs to it, and the marks remain. -/
theorem composeFrom_merge {z : List Nat} (hz : Fresh X z) {c : Nat} (n : Nat) :
    ∀ (a m k : List Nat) (l : Nat), a.length + m.length = n →
      a.Pairwise (fun x y => X.ccc x ≤ X.ccc y) → a.foldlM X.comp l = some c →
      (∀ x ∈ m, X.ccc x ≠ 0 ∧ ∀ a, X.comp a x = none) → (∀ b ∈ k, ∀ x ∈ a, X.ccc b < X.ccc x) →
      X.composeFrom l k (merge X a m ++ z) = c :: (k ++ m) ++ X.compose z := by
  induction n with
  | zero =>
    intro a m k l hn _ hf hm _
    have ha : a = [] := List.length_eq_zero_iff.mp (by omega)
    subst ha
    have : l = c := by simpa using hf
    subst this
    have e : merge X [] m = m := by simp [merge]
    rw [e]
    exact composeFrom_marks hz m hm k
  | succ n ih =>
    intro a m k l hn hp hf hm hk
    cases a with
    | nil =>
      have : l = c := by simpa using hf
      subst this
      have e : merge X [] m = m := by simp [merge]
      rw [e]
      exact composeFrom_marks hz m hm k
    | cons x r =>
      have hxr := List.pairwise_cons.mp hp
      rw [List.foldlM_cons] at hf
      cases hd : X.comp l x with
      | none => rw [hd] at hf; cases hf
      | some d =>
        rw [hd] at hf
        have take : ∀ m', (∀ y ∈ m', X.ccc y ≠ 0 ∧ ∀ a, X.comp a y = none) →
            r.length + m'.length = n →
            X.composeFrom l k (x :: merge X r m' ++ z) = c :: (k ++ m') ++ X.compose z := by
          intro m' hm' hn'
          show X.composeFrom l k (x :: (merge X r m' ++ z)) = _
          rw [composeFrom.eq_2, if_pos fun b hb => hk b hb x List.mem_cons_self, hd]
          exact ih r m' k d hn' hxr.2 hf hm' fun b hb y hy => hk b hb y (List.mem_cons_of_mem _ hy)
        cases m with
        | nil =>
          have e : merge X (x :: r) [] = x :: merge X r [] := by
            rw [merge_nil_right, merge_nil_right]
          rw [e]
          exact take [] hm (by simpa using hn)
        | cons y m =>
          unfold merge
          split
          · rename_i hy
            have hy' := hm y List.mem_cons_self
            show X.composeFrom l k (y :: (merge X (x :: r) m ++ z)) = _
            rw [composeFrom_cons (hy'.2 l), if_neg hy'.1,
              ih (x :: r) m (k ++ [y]) l (by simp only [List.length_cons] at hn ⊢; omega) hp
                (by rw [List.foldlM_cons, hd]; exact hf)
                (fun w hw => hm w (List.mem_cons_of_mem _ hw)) ?_]
            · simp
            · intro b hb w hw
              rw [List.mem_append, List.mem_singleton] at hb
              rcases hb with hb | rfl
              · exact hk b hb w hw
              · rw [List.mem_cons] at hw
                rcases hw with rfl | hw
                · exact hy.2
                · exact Nat.lt_of_lt_of_le hy.2 (hxr.1 w hw)
          · exact take (y :: m) hm (by simp only [List.length_cons] at hn ⊢; omega)

/-- Text in the order the quick check asks for. -/
theorem ordered_of {s : List Nat}
    (h : ∀ a c d b, s = a ++ c :: d :: b → X.ccc c ≤ X.ccc d ∨ X.ccc d = 0) : Ordered X s := by
  induction s with
  | nil => exact .nil
  | cons c r ih =>
    have ih := ih fun a x y b e => h (c :: a) x y b (by rw [e]; rfl)
    cases r with
    | nil => exact .one c
    | cons d r =>
      refine .cons c d r ?_ ih
      have := h [] c d r rfl
      omega

theorem Ordered.append_left {s t : List Nat} (h : Ordered X (s ++ t)) : Ordered X s := by
  induction s with
  | nil => exact .nil
  | cons c r ih =>
    cases r with
    | nil => exact .one c
    | cons d r =>
      cases h with
      | cons _ _ _ h1 h2 => exact .cons c d r h1 (ih h2)

theorem Ordered.append_right {s t : List Nat} (h : Ordered X (s ++ t)) : Ordered X t := by
  induction s with
  | nil => exact h
  | cons c r ih => exact ih h.tail

theorem fresh_nfd (s : List Nat) (hs : ∀ c ∈ s, X.Quick c) (h0 : ∀ c r, s = c :: r → X.ccc c = 0) :
    Fresh X (X.nfd s) ∧ ∀ x, X.reorder (x ++ s.flatMap X.decomp) = X.reorder x ++ X.nfd s := by
  cases s with
  | nil =>
    refine ⟨fun c r h => by simp [nfd, reorder] at h, fun x => ?_⟩
    show X.reorder (x ++ []) = X.reorder x ++ []
    rw [List.append_nil, List.append_nil]
  | cons c r =>
    obtain ⟨o, t, e, ho, hn, _, _⟩ := (hs c List.mem_cons_self).starter (h0 c r rfl)
    have e1 : (c :: r).flatMap X.decomp = o :: (t ++ r.flatMap X.decomp) := by
      rw [List.flatMap_cons, e]; rfl
    have e2 : X.nfd (c :: r) = o :: X.reorder (t ++ r.flatMap X.decomp) := by
      unfold nfd
      rw [e1]
      exact reorder_sep ho [] _
    refine ⟨fun x y h => ?_, fun x => ?_⟩
    · rw [e2] at h
      injection h with h _
      subst h
      exact ⟨ho, hn⟩
    · rw [e1, reorder_sep ho, e2]

theorem split_marks (X : Uax15) (s : List Nat) : ∃ m z, s = m ++ z ∧ (∀ x ∈ m, X.ccc x ≠ 0) ∧
    ∀ x w, z = x :: w → X.ccc x = 0 := by
  induction s with
  | nil => exact ⟨[], [], rfl, by simp, by simp⟩
  | cons c r ih =>
    by_cases h : X.ccc c = 0
    · exact ⟨[], c :: r, rfl, by simp, fun x w e => by injection e with e _; subst e; exact h⟩
    · obtain ⟨m, z, rfl, h1, h2⟩ := ih
      refine ⟨c :: m, z, rfl, fun x hx => ?_, h2⟩
      rw [List.mem_cons] at hx
      rcases hx with rfl | hx
      · exact h
      · exact h1 x hx

/-- Text that begins with a starter. -/
theorem quick_starter (n : Nat) : ∀ s : List Nat, s.length = n → (∀ c ∈ s, X.Quick c) →
    Ordered X s → (∀ c r, s = c :: r → X.ccc c = 0) → X.nfc s = s := by
  induction n using Nat.strongRecOn with
  | _ n ih =>
    intro s hn hs ho h0
    cases s with
    | nil => rfl
    | cons c r =>
      have hc0 := h0 c r rfl
      obtain ⟨o, t, e, hoc, _, hf, hp⟩ := (hs c List.mem_cons_self).starter hc0
      -- the marks behind `c` and the rest
      obtain ⟨m, z, rfl, hm0, hz0⟩ := split_marks X r
      have hsz : ∀ x ∈ z, X.Quick x := fun x hx => hs x (by simp [hx])
      have hsm : ∀ x ∈ m, X.Quick x := fun x hx => hs x (by simp [hx])
      have hoz : Ordered X z := ho.tail.append_right
      have hom : Ordered X m := ho.tail.append_left
      have ihz := ih z.length (by
        simp only [List.length_cons, List.length_append] at hn; omega) z rfl hsz hoz hz0
      obtain ⟨hfr, hre⟩ := fresh_nfd z hsz hz0
      have e1 : X.nfd (c :: (m ++ z)) = o :: (merge X t m ++ X.nfd z) := by
        have : (c :: (m ++ z)).flatMap X.decomp = [] ++ o :: (t ++ m ++ z.flatMap X.decomp) := by
          rw [List.flatMap_cons, e, List.flatMap_append,
            flatMap_decomp_id fun x hx => ((hsm x hx).mark (hm0 x hx)).1]
          simp
        unfold nfd
        rw [this, reorder_sep hoc, hre, reorder_append t m, reorder_id hom, foldr_merge hp]
        rfl
      unfold nfc
      rw [e1, compose_cons, if_pos hoc,
        composeFrom_merge hfr _ t m [] o rfl hp hf
          (fun x hx => ⟨hm0 x hx, ((hsm x hx).mark (hm0 x hx)).2⟩) (by simp)]
      show _ ++ X.nfc z = _
      rw [ihz]
      simp

theorem compose_marks {m z : List Nat} (hm : ∀ x ∈ m, X.ccc x ≠ 0) :
    X.compose (m ++ z) = m ++ X.compose z := by
  induction m with
  | nil => rfl
  | cons x m ih =>
    show X.compose (x :: (m ++ z)) = _
    rw [compose_cons, if_neg (hm x List.mem_cons_self), ih fun y hy => hm y (List.mem_cons_of_mem _ hy)]
    rfl

/-- Text that passes the quick check is in form C. -/
theorem nfc_quick {s : List Nat} (hs : ∀ c ∈ s, X.Quick c)
    (h : ∀ a c d b, s = a ++ c :: d :: b → X.ccc c ≤ X.ccc d ∨ X.ccc d = 0) : X.nfc s = s := by
  have ho := ordered_of h
  obtain ⟨m, z, rfl, hm, hz⟩ := split_marks X s
  have hsz : ∀ x ∈ z, X.Quick x := fun x hx => hs x (by simp [hx])
  have hsm : ∀ x ∈ m, X.Quick x := fun x hx => hs x (by simp [hx])
  obtain ⟨_, hre⟩ := fresh_nfd z hsz hz
  have e : X.nfd (m ++ z) = m ++ X.nfd z := by
    unfold nfd
    rw [List.flatMap_append, flatMap_decomp_id fun x hx => ((hsm x hx).mark (hm x hx)).1, hre,
      reorder_id ho.append_left]
    rfl
  unfold nfc
  rw [e, compose_marks hm]
  show m ++ X.nfc z = m ++ z
  rw [quick_starter _ z rfl hsz ho.append_right hz]

/-- The laws of NFC hold for the algorithm of UAX #15. -/
theorem uni_laws (hX : X.Laws) {U : Uni} (hU : ∀ s, U.nfc s = some (X.nfc s)) : U.Laws where
  nfc_ascii a ha := by rw [hU, nfc_ascii hX ha]
  nfc_idem a b h := by
    rw [hU] at h
    injection h with h
    subst h
    rw [hU, nfc_idem hX]
  nfc_sep a c b hc := by
    rw [hU, hU a, hU b, nfc_sep hX hc]
    rfl
  nfc_nosep a b c hc hn h := by
    rw [hU] at h
    injection h with h
    subst h
    exact nfc_nosep hX hc hn
  nfc_scalar a b ha h := by
    rw [hU] at h
    injection h with h
    subst h
    exact nfc_all hX.scalar.2 hX.scalar.1 ha

end Spec.Uax15
end Idn2
