import Verif.Spec.Closed
import Verif.Proof.DataLaws

/-
A check of `Spec.Closed` for the lines of the mapping file.  The lines are put into a search tree
first.
-/

namespace Idn2
open Spec

/-- A search tree over intervals with a status. -/
inductive RowTree where
  | leaf
  | node (l : RowTree) (first last : Nat) (s : Status) (r : RowTree)

/-- The status of `x`, if the tree holds it. -/
def RowTree.find : RowTree → Nat → Option Status
  | .leaf, _ => none
  | .node l a b s r, x =>
    if Nat.blt x a then l.find x else if Nat.blt b x then r.find x else some s

/-- A tree of the first lines, of height `h`, and the lines left over. -/
def RowTree.build : Nat → List MapRow → RowTree × List MapRow
  | 0, rows => (.leaf, rows)
  | h + 1, rows =>
    match RowTree.build h rows with
    | (l, []) => (l, [])
    | (l, m :: rest) =>
      match RowTree.build h rest with
      | (r, rest) => (.node l m.first m.last m.status r, rest)

/-- The tree holds nothing but lines of the list. -/
def RowTree.Within : RowTree → List MapRow → Prop
  | .leaf, _ => True
  | .node l a b s r, rows =>
    l.Within rows ∧ (∃ m ∈ rows, m.first = a ∧ m.last = b ∧ m.status = s) ∧ r.Within rows

theorem RowTree.within_build (all : List MapRow) : ∀ (h : Nat) (rows : List MapRow),
    (∀ m ∈ rows, m ∈ all) →
    (RowTree.build h rows).1.Within all ∧ ∀ m ∈ (RowTree.build h rows).2, m ∈ all := by
  intro h
  induction h with
  | zero => intro rows hr; exact ⟨trivial, hr⟩
  | succ h ih =>
    intro rows hr
    have h1 := ih rows hr
    unfold RowTree.build
    cases hb : RowTree.build h rows with
    | mk l rest =>
      rw [hb] at h1
      cases rest with
      | nil => exact ⟨h1.1, h1.2⟩
      | cons m rest =>
        have h2 := ih rest fun x hx => h1.2 x (List.mem_cons_of_mem _ hx)
        cases hc : RowTree.build h rest with
        | mk r rest' =>
          rw [hc] at h2
          simp only []
          rw [hc]
          exact ⟨⟨h1.1, ⟨m, h1.2 m List.mem_cons_self, rfl, rfl, rfl⟩, h2.1⟩, h2.2⟩

theorem RowTree.find_some {rows : List MapRow} {x : Nat} {s : Status} : ∀ {t : RowTree},
    t.Within rows → t.find x = some s →
    ∃ m ∈ rows, m.first ≤ x ∧ x ≤ m.last ∧ m.status = s := by
  intro t
  induction t with
  | leaf => intro _ h; cases h
  | node l a b s' r ihl ihr =>
    intro hw h
    unfold RowTree.find at h
    by_cases h1 : Nat.blt x a = true
    · rw [if_pos h1] at h
      exact ihl hw.1 h
    · rw [if_neg h1] at h
      by_cases h2 : Nat.blt b x = true
      · rw [if_pos h2] at h
        exact ihr hw.2.2 h
      · rw [if_neg h2] at h
        obtain ⟨m, hm, rfl, rfl, rfl⟩ := hw.2.1
        rw [Nat.blt_eq] at h1 h2
        cases h
        exact ⟨m, hm, by omega, by omega, rfl⟩

/-- One line of the file. -/
def closedRow (t : RowTree) (r : MapRow) : Bool :=
  match r.status with
  | .mapped | .deviation => r.mapping.all fun x =>
    match t.find x with
    | some .valid => true
    | _ => false
  | .std3Mapped => r.mapping.all fun x =>
    match t.find x with
    | some .valid | some .std3Valid => true
    | _ => false
  | _ => true

def closedCheck (rows : List MapRow) (height : Nat) : Bool :=
  match RowTree.build height rows with
  | (t, _) => rows.all (closedRow t)

theorem closed_of_check {csv : List CsvRow} {rows : List MapRow} {qc : List QcRow} {height : Nat}
    (hF : FilesOk csv rows qc) (h : closedCheck rows height = true) :
    Closed (dataOf csv rows qc) := by
  have hw := (RowTree.within_build rows height rows fun _ hm => hm).1
  unfold closedCheck at h
  generalize RowTree.build height rows = tr at h hw
  obtain ⟨t, rest⟩ := tr
  simp only [List.all_eq_true] at h
  have hfind : ∀ {x : Nat} {s : Status}, t.find x = some s → (dataOf csv rows qc).status x = s := by
    intro x s hx
    obtain ⟨m, hm, h1, h2, h3⟩ := RowTree.find_some hw hx
    have := find_unique (fun r : MapRow => (r.first, r.last)) (hF.rowsSorted.imp fun h => Or.inl h)
      hm (c := x) ⟨h1, h2⟩
    simp only [] at this
    simp only [dataOf, this, h3]
  have hrow : ∀ c, (dataOf csv rows qc).mapping c = [] ∨ ∃ r ∈ rows,
      (dataOf csv rows qc).mapping c = r.mapping ∧ (dataOf csv rows qc).status c = r.status := by
    intro c
    cases hg : rows.find? (fun r => decide (r.first ≤ c ∧ c ≤ r.last)) with
    | none => left; simp only [dataOf, hg]
    | some r =>
      right
      exact ⟨r, List.mem_of_find?_eq_some hg, by simp only [dataOf, hg], by simp only [dataOf, hg]⟩
  constructor
  · intro c hc x hx
    rcases hrow c with h0 | ⟨r, hr, h1, h2⟩
    · rw [h0] at hx; cases hx
    · have := h r hr
      unfold closedRow at this
      rw [h1] at hx
      rw [h2] at hc
      have hall : r.mapping.all (fun x => match t.find x with
          | some .valid => true
          | _ => false) = true := by
        rcases hc with hc | hc <;> rw [hc] at this <;> exact this
      rw [List.all_eq_true] at hall
      have := hall x hx
      split at this
      · rename_i hs; exact hfind hs
      · cases this
  · intro c hc x hx
    rcases hrow c with h0 | ⟨r, hr, h1, h2⟩
    · rw [h0] at hx; cases hx
    · have := h r hr
      unfold closedRow at this
      rw [h1] at hx
      rw [h2] at hc
      rw [hc] at this
      simp only [List.all_eq_true] at this
      have := this x hx
      split at this
      · rename_i hs; exact Or.inl (hfind hs)
      · rename_i hs; exact Or.inr (hfind hs)
      · cases this

end Idn2
