import Verif.Spec.Rfc5892
import Verif.Props.Delims
import Verif.Props.Uts46

/-
Property C42 for the tables of the repository: the deviation characters of UTS #46 are sharp s,
final sigma and the two joiners, and no mapping gives one.
-/

namespace Idn2
open Spec

/-- UTS #46, section 2.3, the deviation characters. -/
def Spec.deviations : List Nat := [0xDF, 0x3C2, 0x200C, 0x200D]

/-- The lines with the status "deviation" are about these, and no mapping contains them. -/
def deviationCheck (rows : List MapRow) : Bool :=
  (rows.all fun r => !(r.status == .deviation) ||
    (List.range' r.first (r.last + 1 - r.first)).all fun c => deviations.contains c) &&
  deviations.all fun d => sourceCheck d [] rows

theorem Shipped.deviation_check : deviationCheck map = true := by decide +kernel

theorem Shipped.deviation_status : ∀ c ∈ deviations, D.status c = .deviation := by decide +kernel

/-- C42, the data. -/
theorem C42_deviations (c : Nat) : Shipped.D.status c = .deviation ↔ c ∈ deviations := by
  refine ⟨fun h => ?_, Shipped.deviation_status c⟩
  have hk := Shipped.deviation_check
  simp only [deviationCheck, Bool.and_eq_true] at hk
  simp only [Shipped.D, dataOf] at h
  split at h
  · rename_i r hr
    have h1 := List.all_eq_true.mp hk.1 r (List.mem_of_find?_eq_some hr)
    have h2 := List.find?_some hr
    simp only [decide_eq_true_eq] at h2
    rw [h] at h1
    simp only [beq_self_eq_true, Bool.not_true, Bool.false_or, List.all_eq_true] at h1
    simpa using h1 c (List.mem_range'.mpr ⟨c - r.first, by omega, by omega⟩)
  · cases h

theorem Shipped.no_deviation {c d : Nat} (hd : d ∈ deviations) : d ∉ D.mapping c := by
  intro h
  have hk := deviation_check
  simp only [deviationCheck, Bool.and_eq_true] at hk
  have := source_of_check (List.all_eq_true.mp hk.2 d hd) h
  cases this

/-- C42 for the tables of the repository: if the name has none of the four characters and
normalisation does not bring one in, then what nontransitional lookup accepts transitional lookup
accepts with the same result. -/
theorem C42_shipped {U : Uni} (hL : U.Laws) (hU : ∀ d ∈ deviations, ¬ U.BringsIn d) {f g : Nat}
    {u n : List Nat} (hu : ∀ c ∈ u, isScalar c) (h0 : 0 ∉ u) (f2 : f.testBit 2 = false)
    (f6 : f.testBit 6 = false) (g2 : g.testBit 2 = true) (hg : ¬ Conflict g)
    (h5 : g.testBit 5 = f.testBit 5) (h7 : g.testBit 7 = f.testBit 7)
    (hd : ∀ d ∈ deviations, d ∉ u) (h : LookupOk ⟨Shipped.T, U⟩ f (utf8s u) n) :
    LookupOk ⟨Shipped.T, U⟩ g (utf8s u) n := by
  refine C42_transitional (World.shipped hL) hu h0 f2 f6 g2 hg h5 h7 ?_ ?_ h
  · intro c hc hs
    exact hd c ((C42_deviations c).mp hs) hc
  · intro x hx c hc hs
    have hm := (C42_deviations c).mp hs
    refine hU c hm ⟨_, x, ?_, hx, hc⟩
    intro hmem
    obtain ⟨y, hy, he⟩ := List.mem_flatMap.mp hmem
    unfold emit at he
    have hno := Shipped.no_deviation (c := y) hm
    have hne : c ≠ y := fun e => hd c hm (e ▸ hy)
    split at he
    · exact hne (List.mem_singleton.mp he)
    · exact hno he
    · cases he
    · exact hne (by simpa using he)
    · exact hne (List.mem_singleton.mp he)
    · split at he
      · cases he
      · exact hne (List.mem_singleton.mp he)
    · split at he
      · cases he
      · exact hno he

/-- The four characters themselves are mapped away by transitional processing. -/
theorem C42_mapped : Shipped.D.mapping 0xDF = str "ss" ∧ Shipped.D.mapping 0x3C2 = [0x3C3] ∧
    Shipped.D.mapping 0x200C = [] ∧ Shipped.D.mapping 0x200D = [] := by decide +kernel

/-- The capital sharp s is not one of them. -/
example : Shipped.D.status 0x1E9E ≠ .deviation ∧ Shipped.D.status 0xDF = .deviation :=
  ⟨fun h => absurd ((C42_deviations _).mp h) (by decide), (C42_deviations _).mpr (by decide)⟩

end Idn2
