import Verif.Model.Tables

/-
`bsearch` on a sorted array.
-/

namespace Idn2

theorem bsearch_spec {cmp : Nat → Res Ordering} {n : Nat} {o : Nat → Ordering}
    (hc : ∀ i, i < n → cmp i = .ok (o i))
    (hgt : ∀ i j, i < j → j < n → o j = .gt → o i = .gt)
    (hlt : ∀ i j, i < j → j < n → o i = .lt → o j = .lt) (l u : Nat) (hu : u ≤ n)
    (h1 : ∀ i, i < l → i < n → o i = .gt) (h2 : ∀ i, u ≤ i → i < n → o i = .lt) :
    (∃ k, k < n ∧ bsearch cmp l u = .ok (some k) ∧ o k = .eq) ∨
    (bsearch cmp l u = .ok none ∧ ∀ k, k < n → o k ≠ .eq) := by
  fun_induction bsearch cmp l u with
  | case1 l u hlu hm => rw [hc _ (by omega)] at hm; cases hm
  | case2 l u hlu e hm => rw [hc _ (by omega)] at hm; cases hm
  | case3 l u hlu hm ih =>
    have hm' : o ((l + u) / 2) = .lt := by
      rw [hc _ (by omega)] at hm; injection hm
    refine ih (by omega) h1 ?_
    intro i hi hin
    by_cases heq : i = (l + u) / 2
    · rw [heq]; exact hm'
    · exact hlt _ i (by omega) hin hm'
  | case4 l u hlu hm ih =>
    have hm' : o ((l + u) / 2) = .gt := by
      rw [hc _ (by omega)] at hm; injection hm
    refine ih hu ?_ h2
    intro i hi hin
    by_cases heq : i = (l + u) / 2
    · rw [heq]; exact hm'
    · exact hgt i _ (by omega) (by omega) hm'
  | case5 l u hlu hm =>
    have hm' : o ((l + u) / 2) = .eq := by
      rw [hc _ (by omega)] at hm; injection hm
    exact Or.inl ⟨_, by omega, rfl, hm'⟩
  | case6 l u hlu =>
    refine Or.inr ⟨rfl, ?_⟩
    intro k hk he
    rcases Nat.lt_or_ge k l with h | h
    · rw [h1 k h hk] at he; cases he
    · rw [h2 k (by omega) hk] at he; cases he

/-- Comparison of a key with a closed interval. -/
def cmpIv (c a b : Nat) : Ordering := if c < a then .lt else if c > b then .gt else .eq

theorem cmpIv_eq {c a b : Nat} : cmpIv c a b = .eq ↔ a ≤ c ∧ c ≤ b := by
  unfold cmpIv
  split
  · constructor
    · intro h; cases h
    · omega
  · split
    · constructor
      · intro h; cases h
      · omega
    · constructor
      · intro _; omega
      · intro _; rfl

theorem cmpIv_lt {c a b : Nat} : cmpIv c a b = .lt ↔ c < a := by
  unfold cmpIv
  split
  · simp_all
  · split
    · constructor
      · intro h; cases h
      · omega
    · constructor
      · intro h; cases h
      · omega

theorem cmpIv_gt {c a b : Nat} (h : a ≤ b) : cmpIv c a b = .gt ↔ b < c := by
  unfold cmpIv
  split
  · constructor
    · intro h; cases h
    · omega
  · split
    · simp_all
    · constructor
      · intro h; cases h
      · omega

/-- The search in a list of disjoint increasing intervals. -/
theorem bsearch_intervals {α : Type} (iv : α → Nat × Nat) (l : List α) (c : Nat)
    (hiv : ∀ x ∈ l, (iv x).1 ≤ (iv x).2)
    (hs : l.Pairwise fun x y => (iv x).2 < (iv y).1)
    {cmp : Nat → Res Ordering}
    (hc : ∀ (i : Nat) (x : α), l[i]? = some x → cmp i = .ok (cmpIv c (iv x).1 (iv x).2)) :
    (∃ k x, l[k]? = some x ∧ bsearch cmp 0 l.length = .ok (some k) ∧
      (iv x).1 ≤ c ∧ c ≤ (iv x).2) ∨
    (bsearch cmp 0 l.length = .ok none ∧ ∀ x ∈ l, ¬ ((iv x).1 ≤ c ∧ c ≤ (iv x).2)) := by
  have hs' : ∀ (i j : Nat) x y, i < j → l[i]? = some x → l[j]? = some y → (iv x).2 < (iv y).1 := by
    intro i j x y hij hx hy
    obtain ⟨hi, rfl⟩ := List.getElem?_eq_some_iff.mp hx
    obtain ⟨hj, rfl⟩ := List.getElem?_eq_some_iff.mp hy
    exact List.pairwise_iff_getElem.mp hs i j hi hj hij
  let o : Nat → Ordering := fun i => match l[i]? with
    | some x => cmpIv c (iv x).1 (iv x).2
    | none => .lt
  have ho : ∀ (i : Nat) x, l[i]? = some x → o i = cmpIv c (iv x).1 (iv x).2 := by
    intro i x hx; simp only [o, hx]
  have hget : ∀ i, i < l.length → ∃ x, l[i]? = some x ∧ x ∈ l := by
    intro i hi
    exact ⟨l[i], List.getElem?_eq_getElem hi, List.getElem_mem hi⟩
  have key := bsearch_spec (cmp := cmp) (n := l.length) (o := o)
    (by
      intro i hi
      obtain ⟨x, hx, _⟩ := hget i hi
      rw [ho i x hx]
      exact hc i x hx)
    (by
      intro i j hij hj hgt
      obtain ⟨x, hx, hxm⟩ := hget i (by omega)
      obtain ⟨y, hy, hym⟩ := hget j hj
      rw [ho j y hy, cmpIv_gt (hiv y hym)] at hgt
      rw [ho i x hx, cmpIv_gt (hiv x hxm)]
      have := hs' i j x y hij hx hy
      have := hiv y hym
      omega)
    (by
      intro i j hij hj hlt
      obtain ⟨x, hx, hxm⟩ := hget i (by omega)
      obtain ⟨y, hy, hym⟩ := hget j hj
      rw [ho i x hx, cmpIv_lt] at hlt
      rw [ho j y hy, cmpIv_lt]
      have := hs' i j x y hij hx hy
      have := hiv x hxm
      omega)
    0 l.length (Nat.le_refl _) (by intro i hi; omega) (by intro i hi hi'; omega)
  rcases key with ⟨k, hk, hb, he⟩ | ⟨hb, hn⟩
  · obtain ⟨x, hx, hxm⟩ := hget k hk
    rw [ho k x hx, cmpIv_eq] at he
    exact Or.inl ⟨k, x, hx, hb, he⟩
  · refine Or.inr ⟨hb, ?_⟩
    intro x hxm hcx
    obtain ⟨k, hk, hkx⟩ := List.getElem_of_mem hxm
    have hx : l[k]? = some x := by rw [List.getElem?_eq_getElem hk, hkx]
    exact hn k hk (by rw [ho k x hx, cmpIv_eq]; exact hcx)

end Idn2
