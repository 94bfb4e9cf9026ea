import Verif.Spec.Domain

/-
Facts about splitting names into labels.
-/

namespace Idn2
open Spec

theorem splitDot_ne_nil (s : List Nat) : splitDot s ≠ [] := by
  cases s with
  | nil => simp [splitDot]
  | cons c r =>
    unfold splitDot
    split
    · simp
    · split <;> simp

theorem splitDot_cons_dot (r : List Nat) : splitDot (0x2E :: r) = [] :: splitDot r := by
  simp [splitDot]

theorem splitDot_cons {c : Nat} (h : c ≠ 0x2E) {r l : List Nat} {ls : List (List Nat)}
    (hr : splitDot r = l :: ls) : splitDot (c :: r) = (c :: l) :: ls := by
  rw [splitDot, if_neg h, hr]

theorem splitDot_nodot {l : List Nat} (h : 0x2E ∉ l) : splitDot l = [l] := by
  induction l with
  | nil => rfl
  | cons c l ih =>
    rw [List.mem_cons, not_or] at h
    exact splitDot_cons (fun hc => h.1 hc.symm) (ih h.2)

theorem splitDot_append_dot {l : List Nat} (h : 0x2E ∉ l) (r : List Nat) :
    splitDot (l ++ 0x2E :: r) = l :: splitDot r := by
  induction l with
  | nil => exact splitDot_cons_dot r
  | cons c l ih =>
    rw [List.mem_cons, not_or] at h
    exact splitDot_cons (fun hc => h.1 hc.symm) (ih h.2)

theorem mem_takeWhile_ne {d : Nat} (s : List Nat) : d ∉ s.takeWhile (· != d) := by
  intro h
  have := List.all_takeWhile (p := (· != d)) (l := s)
  rw [List.all_eq_true] at this
  have := this d h
  simp at this

/-- The label loops cut names at the first full stop. -/
theorem splitDot_eq (s : List Nat) :
    splitDot s = s.takeWhile (· != 0x2E) ::
      (match s.dropWhile (· != 0x2E) with
      | [] => []
      | _ :: rest => splitDot rest) := by
  have hn := mem_takeWhile_ne (d := 0x2E) s
  have he := List.takeWhile_append_dropWhile (p := (· != 0x2E)) (l := s)
  cases hd : s.dropWhile (· != 0x2E) with
  | nil =>
    rw [hd, List.append_nil] at he
    conv => lhs; rw [← he]
    exact splitDot_nodot hn
  | cons c rest =>
    have hc : c = 0x2E := by
      have := List.head_dropWhile_not (p := (· != 0x2E)) (l := s) (by rw [hd]; simp)
      simp only [hd, List.head_cons] at this
      simpa using this
    subst hc
    rw [hd] at he
    conv => lhs; rw [← he]
    exact splitDot_append_dot hn rest

theorem mem_splitDot_nodot {s l : List Nat} (h : l ∈ splitDot s) : 0x2E ∉ l := by
  induction s generalizing l with
  | nil => simp [splitDot] at h; simp [h]
  | cons c r ih =>
    unfold splitDot at h
    split at h
    · rw [List.mem_cons] at h
      rcases h with rfl | h
      · simp
      · exact ih h
    · rename_i hc
      cases hr : splitDot r with
      | nil => exact absurd hr (splitDot_ne_nil r)
      | cons l' ls =>
        rw [hr] at h ih
        simp only [List.mem_cons] at h ih
        rcases h with rfl | h
        · simp only [List.mem_cons, not_or]
          exact ⟨fun h => hc h.symm, ih (Or.inl rfl)⟩
        · exact ih (Or.inr h)

theorem mem_of_mem_splitDot {s l : List Nat} (h : l ∈ splitDot s) {c : Nat} (hc : c ∈ l) : c ∈ s := by
  induction s generalizing l with
  | nil => simp [splitDot] at h; simp [h] at hc
  | cons d r ih =>
    unfold splitDot at h
    split at h
    · rw [List.mem_cons] at h
      rcases h with rfl | h
      · cases hc
      · exact List.mem_cons_of_mem _ (ih h hc)
    · cases hr : splitDot r with
      | nil => exact absurd hr (splitDot_ne_nil r)
      | cons l' ls =>
        rw [hr] at h ih
        simp only [List.mem_cons] at h ih
        rcases h with rfl | h
        · rw [List.mem_cons] at hc ⊢
          rcases hc with rfl | hc
          · exact Or.inl rfl
          · exact Or.inr (ih (Or.inl rfl) hc)
        · exact List.mem_cons_of_mem _ (ih (Or.inr h) hc)

theorem joinDot_cons {l : List Nat} {ls : List (List Nat)} (h : ls ≠ []) :
    joinDot (l :: ls) = l ++ 0x2E :: joinDot ls := by
  cases ls with
  | nil => exact absurd rfl h
  | cons x xs => rfl

theorem joinDot_splitDot (s : List Nat) : joinDot (splitDot s) = s := by
  induction s with
  | nil => rfl
  | cons c r ih =>
    unfold splitDot
    split
    · rename_i hc
      rw [joinDot_cons (splitDot_ne_nil r), ih, hc]; rfl
    · cases hr : splitDot r with
      | nil => exact absurd hr (splitDot_ne_nil r)
      | cons l ls =>
        rw [hr] at ih
        simp only
        cases ls with
        | nil => rw [← ih]; rfl
        | cons x xs =>
          rw [joinDot_cons (by simp)] at ih ⊢
          rw [← ih]; rfl

theorem splitDot_joinDot {ls : List (List Nat)} (h : ls ≠ []) (hn : ∀ l ∈ ls, 0x2E ∉ l) :
    splitDot (joinDot ls) = ls := by
  induction ls with
  | nil => exact absurd rfl h
  | cons l ls ih =>
    cases ls with
    | nil => exact splitDot_nodot (hn l List.mem_cons_self)
    | cons x xs =>
      rw [joinDot_cons (by simp), splitDot_append_dot (hn l List.mem_cons_self),
        ih (by simp) fun y hy => hn y (List.mem_cons_of_mem _ hy)]

theorem mem_joinDot {ls : List (List Nat)} {c : Nat} (h : c ∈ joinDot ls) :
    c = 0x2E ∨ ∃ l ∈ ls, c ∈ l := by
  induction ls with
  | nil => cases h
  | cons l ls ih =>
    cases ls with
    | nil => exact Or.inr ⟨l, List.mem_cons_self, h⟩
    | cons x xs =>
      rw [joinDot_cons (by simp), List.mem_append, List.mem_cons] at h
      rcases h with h | h | h
      · exact Or.inr ⟨l, List.mem_cons_self, h⟩
      · exact Or.inl h
      · rcases ih h with h | ⟨y, hy, hc⟩
        · exact Or.inl h
        · exact Or.inr ⟨y, List.mem_cons_of_mem _ hy, hc⟩

theorem mem_joinDot_of {ls : List (List Nat)} {l : List Nat} {c : Nat} (hl : l ∈ ls) (hc : c ∈ l) :
    c ∈ joinDot ls := by
  induction ls with
  | nil => cases hl
  | cons x xs ih =>
    cases xs with
    | nil =>
      rw [List.mem_singleton] at hl
      subst hl; exact hc
    | cons y ys =>
      rw [joinDot_cons (by simp), List.mem_append, List.mem_cons]
      rw [List.mem_cons] at hl
      rcases hl with rfl | hl
      · exact Or.inl hc
      · exact Or.inr (Or.inr (ih hl))

theorem length_le_joinDot {ls : List (List Nat)} {l : List Nat} (hl : l ∈ ls) :
    l.length ≤ (joinDot ls).length := by
  induction ls with
  | nil => cases hl
  | cons x xs ih =>
    cases xs with
    | nil =>
      rw [List.mem_singleton] at hl
      subst hl; exact Nat.le_refl _
    | cons y ys =>
      rw [joinDot_cons (by simp), List.length_append, List.length_cons]
      rw [List.mem_cons] at hl
      rcases hl with rfl | hl
      · omega
      · have := ih hl; omega

end Idn2
