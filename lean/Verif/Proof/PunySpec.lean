import Verif.Spec.Punycode

/-
Combinatorics of the insertion sequence: it rebuilds the string, and it is the only
increasing sequence that does.
-/

set_option linter.unusedSimpArgs false

namespace Idn2.Spec.Punycode

/-- Performing one insertion. -/
def ins (o : List Nat) (x : Nat × Nat) : List Nat := o.insertIdx x.2 x.1

/-- A sequence of insertions can follow state `s`: positions are inside the string and
`(n, i)` advances. -/
def Chain (b : Nat) : St → List (Nat × Nat) → Prop
  | _, [] => True
  | s, x :: xs => x.2 ≤ s.h ∧ (s.n < x.1 ∨ (s.n = x.1 ∧ s.i ≤ x.2)) ∧ Chain b (next b s x) xs

theorem chain_append {b : Nat} : ∀ {A K : List (Nat × Nat)} {s : St},
    Chain b s (A ++ K) ↔ Chain b s A ∧ Chain b (A.foldl (next b) s) K := by
  intro A
  induction A with
  | nil => intro K s; simp [Chain]
  | cons x A ih => intro K s; simp [Chain, ih, and_assoc]

theorem codes_append {b : Nat} : ∀ {A K : List (Nat × Nat)} {s : St},
    codes b s (A ++ K) = codes b s A ++ codes b (A.foldl (next b) s) K := by
  intro A
  induction A with
  | nil => intro K s; simp [codes]
  | cons x A ih => intro K s; simp [codes, ih]

theorem deltas_append {b : Nat} : ∀ {A K : List (Nat × Nat)} {s : St},
    deltas b s (A ++ K) = deltas b s A ++ deltas b (A.foldl (next b) s) K := by
  intro A
  induction A with
  | nil => intro K s; simp [deltas]
  | cons x A ih => intro K s; simp [deltas, ih]

theorem insertionsAt_nil_of {m : Nat} : ∀ {u : List Nat} {seen : Nat},
    (∀ x ∈ u, x ≠ m) → insertionsAt m seen u = [] := by
  intro u
  induction u with
  | nil => intros; rfl
  | cons x u ih =>
    intro seen h
    have hx := h x (by simp)
    have hu : ∀ y ∈ u, y ≠ m := fun y hy => h y (by simp [hy])
    simp only [insertionsAt, if_neg hx]
    split <;> exact ih hu

/-- number of elements `≤ m` -/
def cnt (m : Nat) (u : List Nat) : Nat := (u.filter (· ≤ m)).length

theorem insertionsAt_append {m : Nat} : ∀ {u v : List Nat} {seen : Nat},
    insertionsAt m seen (u ++ v) = insertionsAt m seen u ++ insertionsAt m (seen + cnt m u) v := by
  intro u
  induction u with
  | nil => intros; simp [insertionsAt, cnt]
  | cons x u ih =>
    intro v seen
    simp only [List.cons_append, insertionsAt, cnt, List.filter_cons]
    split
    · next h => subst h; simp [ih, cnt]; congr 1; omega
    · split
      · next h => simp [show x ≤ m by omega, ih, cnt]; congr 1; omega
      · next h => simp [show ¬ x ≤ m by omega, ih, cnt]

/-- Skipping a code point above `m` does not matter for the insertions of `m`. -/
theorem insertionsAt_skip {m x : Nat} {u v : List Nat} {seen : Nat} (h : m < x) :
    insertionsAt m seen (u ++ x :: v) = insertionsAt m seen (u ++ v) := by
  rw [insertionsAt_append, insertionsAt_append]
  simp only [insertionsAt]
  rw [if_neg (by omega), if_neg (by omega)]

theorem insertionsAt_last {m : Nat} {a c : List Nat} (ha : ∀ x ∈ a, x ≤ m) (hc : ∀ x ∈ c, x < m) :
    insertionsAt m 0 (a ++ m :: c) = insertionsAt m 0 (a ++ c) ++ [(m, a.length)] := by
  have hcn : ∀ s, insertionsAt m s c = [] := fun s =>
    insertionsAt_nil_of (fun x hx => Nat.ne_of_lt (hc x hx))
  have hcnt : cnt m a = a.length := by
    unfold cnt
    rw [List.filter_eq_self.mpr]
    intro x hx; simpa using ha x hx
  rw [insertionsAt_append, insertionsAt_append]
  simp [insertionsAt, hcn, hcnt]

theorem insertionsFrom_split {n m : Nat} (u : List Nat) (h1 : n ≤ m) (h2 : m ≤ 0x110000) :
    insertionsFrom n u =
      ((List.range' n (m - n)).flatMap fun k => insertionsAt k 0 u) ++ insertionsFrom m u := by
  unfold insertionsFrom
  rw [← List.flatMap_append]
  congr 1
  have : 0x110000 - n = (m - n) + (0x110000 - m) := by omega
  rw [this, ← List.range'_append]
  congr 2; omega

theorem flatMap_range_nil {n k : Nat} {u : List Nat} (h : ∀ x ∈ u, ¬ (n ≤ x ∧ x < n + k)) :
    ((List.range' n k).flatMap fun m => insertionsAt m 0 u) = [] := by
  rw [List.flatMap_eq_nil_iff]
  intro m hm
  rw [List.mem_range'_1] at hm
  refine insertionsAt_nil_of ?_
  intro x hx he
  exact h x hx (by omega)

theorem insertionsFrom_succ {n : Nat} (u : List Nat) (h : n < 0x110000) :
    insertionsFrom n u = insertionsAt n 0 u ++ insertionsFrom (n + 1) u := by
  rw [insertionsFrom_split u (show n ≤ n + 1 by omega) (by omega)]
  simp [show n + 1 - n = 1 by omega]

theorem insertionsFrom_skip {n m : Nat} {u : List Nat} (h1 : n ≤ m) (h2 : m ≤ 0x110000)
    (h : ∀ x ∈ u, ¬ (n ≤ x ∧ x < m)) : insertionsFrom n u = insertionsFrom m u := by
  rw [insertionsFrom_split u h1 h2, flatMap_range_nil, List.nil_append]
  intro x hx hc; exact h x hx (by omega)

theorem insertionsFrom_nil {n : Nat} {u : List Nat} (h : ∀ x ∈ u, x < n ∨ 0x110000 ≤ x) :
    insertionsFrom n u = [] := by
  unfold insertionsFrom
  apply flatMap_range_nil
  intro x hx hc
  have := h x hx
  omega

/-! ### The insertion sequence rebuilds the string -/

theorem insertIdx_append_length (a c : List Nat) (x : Nat) :
    (a ++ c).insertIdx a.length x = a ++ x :: c := by
  induction a with
  | nil => simp
  | cons y a ih => simp [ih]

theorem foldl_insertionsAt {m : Nat} : ∀ (r p : List Nat),
    (insertionsAt m (cnt m p) r).foldl ins (p.filter (· ≤ m) ++ r.filter (· < m)) =
      (p ++ r).filter (· ≤ m) := by
  intro r
  induction r with
  | nil => intro p; simp [insertionsAt]
  | cons x r ih =>
    intro p
    have ih' := ih (p ++ [x])
    simp only [List.append_assoc, List.singleton_append] at ih'
    rw [← ih']
    simp only [insertionsAt]
    by_cases hx : x = m
    · subst hx
      rw [if_pos rfl]
      simp only [List.foldl_cons, ins]
      have : cnt x p = (p.filter (· ≤ x)).length := rfl
      rw [this]
      have hd : decide (x < x) = false := by simp
      rw [List.filter_cons_of_neg (by simp)]
      rw [insertIdx_append_length]
      simp [cnt, List.filter_append, List.filter_cons]
    · rw [if_neg hx]
      by_cases hlt : x < m
      · rw [if_pos hlt]
        simp [cnt, List.filter_append, List.filter_cons, hlt, show x ≤ m by omega]
      · rw [if_neg hlt]
        simp [cnt, List.filter_append, List.filter_cons, hlt, show ¬ x ≤ m by omega]

theorem foldl_insertionsFrom {u : List Nat} (hu : ∀ x ∈ u, x < 0x110000) :
    ∀ (k n : Nat), 0x110000 - n = k → n ≤ 0x110000 →
      (insertionsFrom n u).foldl ins (u.filter (· < n)) = u := by
  intro k
  induction k with
  | zero =>
    intro n hk hn
    have : n = 0x110000 := by omega
    subst this
    rw [insertionsFrom_nil (fun x hx => Or.inl (hu x hx))]
    simp only [List.foldl_nil]
    rw [List.filter_eq_self]
    intro x hx; simpa using hu x hx
  | succ k ih =>
    intro n hk hn
    rw [insertionsFrom_succ u (by omega), List.foldl_append]
    have := foldl_insertionsAt (m := n) u []
    simp only [cnt, List.filter_nil, List.length_nil, List.nil_append] at this
    rw [this]
    have e : (u.filter (· ≤ n)) = u.filter (· < n + 1) := by
      apply List.filter_congr; intro x _; simp only [decide_eq_decide]; omega
    rw [e]
    exact ih (n + 1) (by omega) (by omega)

/-- The insertions rebuild the string from its basic code points. -/
theorem foldl_insertions {u : List Nat} (hu : ∀ x ∈ u, x < 0x110000) :
    (insertions u).foldl ins (basics u) = u :=
  foldl_insertionsFrom hu _ _ rfl (by omega)

/-! ### The insertion sequence is a chain -/

theorem foldl_next_h {b : Nat} : ∀ (xs : List (Nat × Nat)) (s : St),
    (xs.foldl (next b) s).h = s.h + xs.length := by
  intro xs
  induction xs with
  | nil => intro s; rfl
  | cons x xs ih => intro s; rw [List.foldl_cons, ih]; simp [next]; omega

theorem chain_insertionsAt {b m : Nat} : ∀ (r : List Nat) (seen : Nat) (s : St),
    s.h = seen + (r.filter (· < m)).length →
    (s.n < m ∨ (s.n = m ∧ s.i ≤ seen)) →
    Chain b s (insertionsAt m seen r) ∧
      ((insertionsAt m seen r).foldl (next b) s).n ≤ m ∧
      (((insertionsAt m seen r).foldl (next b) s).h = seen + cnt m r) := by
  intro r
  induction r with
  | nil =>
    intro seen s hh hl
    simp [insertionsAt, Chain, cnt, hh]
    omega
  | cons x r ih =>
    intro seen s hh hl
    simp only [insertionsAt]
    by_cases hx : x = m
    · subst hx
      simp only [↓reduceIte, Chain, List.foldl_cons]
      have h1 := ih (seen + 1) (next b s (x, seen))
        (by simp [next, hh, List.filter_cons]; omega) (Or.inr ⟨rfl, by simp [next]⟩)
      have hle : seen ≤ s.h := by omega
      refine ⟨⟨hle, hl, h1.1⟩, h1.2.1, ?_⟩
      rw [h1.2.2]; simp [cnt, List.filter_cons]; omega
    · rw [if_neg hx]
      by_cases hlt : x < m
      · rw [if_pos hlt]
        have h1 := ih (seen + 1) s (by rw [hh]; simp [List.filter_cons, hlt]; omega) (by omega)
        refine ⟨h1.1, h1.2.1, ?_⟩
        rw [h1.2.2]; simp [cnt, List.filter_cons, show x ≤ m by omega]; omega
      · rw [if_neg hlt]
        have h1 := ih seen s (by rw [hh]; simp [List.filter_cons, hlt]) hl
        refine ⟨h1.1, h1.2.1, ?_⟩
        rw [h1.2.2]; simp [cnt, List.filter_cons, show ¬ x ≤ m by omega]

theorem filter_le_eq_lt (u : List Nat) (n : Nat) :
    u.filter (· ≤ n) = u.filter (· < n + 1) := by
  apply List.filter_congr; intro x _; simp only [decide_eq_decide]; omega

theorem chain_insertionsFrom {b : Nat} (u : List Nat) : ∀ (k n : Nat) (s : St),
    0x110000 - n = k → n ≤ 0x110000 → s.h = (u.filter (· < n)).length →
    (s.n < n ∨ (s.n = n ∧ s.i = 0)) → Chain b s (insertionsFrom n u) := by
  intro k
  induction k with
  | zero =>
    intro n s hk hn hh hl
    have : insertionsFrom n u = [] := by
      unfold insertionsFrom; simp [hk]
    rw [this]; trivial
  | succ k ih =>
    intro n s hk hn hh hl
    rw [insertionsFrom_succ u (by omega), chain_append]
    have h1 := chain_insertionsAt (b := b) (m := n) u 0 s (by omega) (by omega)
    refine ⟨h1.1, ih (n + 1) _ (by omega) (by omega) ?_ (Or.inl (by omega))⟩
    rw [h1.2.2]; simp [cnt, filter_le_eq_lt]

theorem chain_insertions (u : List Nat) :
    Chain (basics u).length (init (basics u).length) (insertions u) :=
  chain_insertionsFrom u _ _ _ rfl (by omega) rfl (Or.inr ⟨rfl, rfl⟩)

/-! ### Uniqueness -/

theorem flatMap_congr' {α β : Type} {f g : α → List β} : ∀ {l : List α},
    (∀ x ∈ l, f x = g x) → l.flatMap f = l.flatMap g := by
  intro l
  induction l with
  | nil => intros; rfl
  | cons x l ih =>
    intro h
    rw [List.flatMap_cons, List.flatMap_cons, h x (by simp), ih (fun y hy => h y (by simp [hy]))]

/-- Appending one insertion that advances extends the insertion sequence by it. -/
theorem insertions_snoc {o : List Nat} {m p : Nat} (hp : p ≤ o.length) (hm1 : 0x80 ≤ m)
    (hm2 : m < 0x110000) (h1 : ∀ x ∈ o, x ≤ m) (h2 : ∀ x ∈ o.drop p, x < m) :
    insertions (ins o (m, p)) = insertions o ++ [(m, p)] := by
  have he : ins o (m, p) = o.take p ++ m :: o.drop p := by
    have := insertIdx_append_length (o.take p) (o.drop p) m
    rw [List.take_append_drop, List.length_take, Nat.min_eq_left hp] at this
    exact this
  have ho : o = o.take p ++ o.drop p := (List.take_append_drop p o).symm
  rw [he]
  unfold insertions
  rw [insertionsFrom_split _ hm1 (by omega), insertionsFrom_succ _ hm2,
    insertionsFrom_nil (n := m + 1)]
  · rw [insertionsFrom_split o hm1 (by omega), insertionsFrom_succ o hm2,
      insertionsFrom_nil (n := m + 1)]
    · have e1 : ((List.range' 128 (m - 128)).flatMap fun k =>
          insertionsAt k 0 (o.take p ++ m :: o.drop p)) =
          (List.range' 128 (m - 128)).flatMap fun k => insertionsAt k 0 o := by
        apply flatMap_congr'
        intro k hk
        rw [List.mem_range'_1] at hk
        rw [insertionsAt_skip (by omega), ← ho]
      have e2 := insertionsAt_last (m := m) (a := o.take p) (c := o.drop p)
        (fun x hx => h1 x (List.mem_of_mem_take hx)) h2
      rw [← ho, List.length_take, Nat.min_eq_left hp] at e2
      rw [e1, e2]
      simp
    · intro x hx; have := h1 x hx; omega
  · intro x hx
    rw [List.mem_append, List.mem_cons] at hx
    rcases hx with hx | hx | hx
    · have := h1 x (List.mem_of_mem_take hx); omega
    · omega
    · have := h1 x (List.mem_of_mem_drop hx); omega

/-- What is known about the string rebuilt so far, in state `s`. -/
structure Ok (s : St) (o : List Nat) : Prop where
  len : s.h = o.length
  n_ge : 0x80 ≤ s.n
  le : ∀ x ∈ o, x ≤ s.n
  drop : ∀ x ∈ o.drop s.i, x < s.n

theorem Ok.step {b : Nat} {s : St} {o : List Nat} {x : Nat × Nat} (h : Ok s o)
    (hp : x.2 ≤ s.h) (hl : s.n < x.1 ∨ (s.n = x.1 ∧ s.i ≤ x.2)) (hm : x.1 < 0x110000) :
    Ok (next b s x) (ins o x) ∧ insertions (ins o x) = insertions o ++ [x] ∧
      basics (ins o x) = basics o := by
  obtain ⟨m, p⟩ := x
  simp only at hp hl hm
  have hle : ∀ x ∈ o, x ≤ m := fun y hy => by have := h.le y hy; omega
  have hdr : ∀ x ∈ o.drop p, x < m := by
    intro y hy
    rcases hl with hl | ⟨hl1, hl2⟩
    · have := h.le y (List.mem_of_mem_drop hy); omega
    · have h1 : o.drop p = (o.drop s.i).drop (p - s.i) := by
        rw [List.drop_drop]; congr 1; omega
      rw [h1] at hy
      have := h.drop y (List.mem_of_mem_drop hy)
      omega
  have hge := h.n_ge
  have hlen := h.len
  have he : ins o (m, p) = o.take p ++ m :: o.drop p := by
    have := insertIdx_append_length (o.take p) (o.drop p) m
    rw [List.take_append_drop, List.length_take, Nat.min_eq_left (by omega)] at this
    exact this
  refine ⟨⟨?_, ?_, ?_, ?_⟩, insertions_snoc (by omega) (by omega) hm hle hdr, ?_⟩
  · simp only [next, he, List.length_append, List.length_take, List.length_cons, List.length_drop]
    omega
  · simp only [next]; omega
  · intro y hy
    simp only [next]
    rw [he, List.mem_append, List.mem_cons] at hy
    rcases hy with hy | hy | hy
    · exact hle y (List.mem_of_mem_take hy)
    · omega
    · exact hle y (List.mem_of_mem_drop hy)
  · simp only [next]
    rw [he]
    have : (o.take p ++ m :: o.drop p).drop (p + 1) = o.drop p := by
      rw [List.drop_append, List.length_take, Nat.min_eq_left (by omega)]
      rw [show p + 1 - p = 1 by omega, List.drop_eq_nil_of_le (by rw [List.length_take]; omega)]
      rfl
    rw [this]; exact hdr
  · unfold basics
    rw [he, List.filter_append, List.filter_cons_of_neg (by simp; omega), ← List.filter_append,
      List.take_append_drop]

/-- Any chain of insertions is recovered from the string it builds. -/
theorem insertions_foldl {b : Nat} : ∀ (xs : List (Nat × Nat)) (s : St) (o : List Nat),
    Ok s o → Chain b s xs → (∀ x ∈ xs, x.1 < 0x110000) →
    insertions (xs.foldl ins o) = insertions o ++ xs ∧ basics (xs.foldl ins o) = basics o := by
  intro xs
  induction xs with
  | nil => intro s o _ _ _; simp
  | cons x xs ih =>
    intro s o h hc hb
    obtain ⟨c1, c2, c3⟩ := hc
    obtain ⟨g1, g2, g3⟩ := h.step (b := b) c1 c2 (hb x (by simp))
    obtain ⟨e1, e2⟩ := ih _ _ g1 c3 (fun y hy => hb y (by simp [hy]))
    simp only [List.foldl_cons]
    rw [e1, e2, g2, g3]
    simp

theorem Ok.init {o : List Nat} (h : ∀ x ∈ o, x < 0x80) : Ok (init o.length) o :=
  ⟨rfl, Nat.le_refl _, fun x hx => Nat.le_of_lt (h x hx), fun x hx => h x (List.mem_of_mem_drop hx)⟩

theorem insertions_basic {o : List Nat} (h : ∀ x ∈ o, x < 0x80) : insertions o = [] :=
  insertionsFrom_nil fun x hx => Or.inl (h x hx)

theorem basics_basic {o : List Nat} (h : ∀ x ∈ o, x < 0x80) : basics o = o := by
  unfold basics
  rw [List.filter_eq_self]
  intro x hx; simpa using h x hx

end Idn2.Spec.Punycode
