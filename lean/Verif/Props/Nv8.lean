import Verif.Spec.Nv8
import Verif.Data.MapText
import Verif.Props.Versions

/-
Property C109: the code points that IDNA2008 allows are those that UTS #46 says it allows.
-/

namespace Idn2
open Spec

/-- The lines of the mapping table with their marks. -/
def Shipped.mapMarked : List (MapRow × Bool) := map.zip (marks mapText)

/-- The code point is marked NV8 or XV8. -/
def Shipped.Marked (c : Nat) : Prop := ∃ r ∈ mapMarked, r.2 = true ∧ r.1.first ≤ c ∧ c ≤ r.1.last

/-- IDNA2008 allows the code point, perhaps in some contexts only. -/
def IdnaProp.allowsB : IdnaProp → Bool
  | .pvalid | .contextj | .contexto => true
  | _ => false

/-- By the mapping table IDNA2008 allows it. -/
def lineAllowsB (r : MapRow × Bool) : Bool :=
  match r.1.status with
  | .valid => !r.2
  | .deviation => true
  | _ => false

def nv8Pair (a : CsvRow) (b : MapRow × Bool) : Bool :=
  match a.prop.allowsB, lineAllowsB b with
  | true, true => true
  | false, false => true
  | true, false => false
  | false, true =>
    newerRanges.any (fun r => Nat.ble r.1 (max a.first b.1.first) && Nat.ble (min a.last b.1.last) r.2) ||
      (Nat.beq (max a.first b.1.first) 0x2E && Nat.beq (min a.last b.1.last) 0x2E)

theorem Shipped.marks_length : (marks mapText).length = map.length := by decide +kernel

theorem Shipped.csv_top : (csv.all fun r => Nat.ble r.last 0x10FFFF) = true := by decide +kernel

theorem Shipped.nv8_pairs :
    walk (fun r : CsvRow => (r.first, r.last)) (fun r : MapRow × Bool => (r.1.first, r.1.last)) nv8Pair
      12000 csv mapMarked = true := by decide +kernel

theorem Shipped.mapMarked_fst : mapMarked.map Prod.fst = map := by
  unfold mapMarked
  exact List.map_fst_zip (Nat.le_of_eq marks_length.symm)

theorem Shipped.mapMarked_sorted :
    mapMarked.Pairwise fun x y => x.1.last < y.1.first := by
  have := files_ok.rowsSorted
  rw [← mapMarked_fst, List.pairwise_map] at this
  exact this

/-- The line of a code point. -/
theorem Shipped.mapMarked_line {c : Nat} (hc : c ≤ 0x10FFFF) :
    ∃ r ∈ mapMarked, (r.1.first ≤ c ∧ c ≤ r.1.last) ∧ D.status c = r.1.status ∧
      (r.2 = true ↔ Marked c) := by
  have hF := files_ok
  obtain ⟨b, hb, hbc⟩ := hF.mapCover c hc
  have e2 : D.status c = b.status := by
    have := find_unique (fun r : MapRow => (r.first, r.last))
      (hF.rowsSorted.imp fun h => Or.inl h) hb (c := c) hbc
    simp only [] at this
    simp only [D, dataOf, this]
  rw [← mapMarked_fst] at hb
  obtain ⟨r, hr, rfl⟩ := List.mem_map.mp hb
  refine ⟨r, hr, hbc, e2, fun h => ⟨r, hr, h, hbc⟩, ?_⟩
  rintro ⟨s, hs, h, hsc⟩
  have hu : ∀ {r s : MapRow × Bool}, r ∈ mapMarked → s ∈ mapMarked →
      (r.1.first ≤ c ∧ c ≤ r.1.last) → (s.1.first ≤ c ∧ c ≤ s.1.last) → r = s := by
    intro r s hr hs h1 h2
    have h3 := find_unique (fun r : MapRow × Bool => (r.1.first, r.1.last))
      (mapMarked_sorted.imp fun h => Or.inl h) hr (c := c) h1
    have h4 := find_unique (fun r : MapRow × Bool => (r.1.first, r.1.last))
      (mapMarked_sorted.imp fun h => Or.inl h) hs (c := c) h2
    rw [h3] at h4
    exact Option.some.inj h4
  rw [hu hr hs hbc hsc]
  exact h

/-- C109.  IDNA2008 allows a code point, by lib/idna-tables-properties.csv, exactly if UTS #46, by
lib/IdnaMappingTable.txt, has it as a deviation character or as valid without the mark NV8 or XV8,
and it is neither the full stop nor newer than Unicode 11. -/
theorem C109_agree (c : Nat) :
    (Shipped.D.prop c = .pvalid ∨ Shipped.D.prop c = .contextj ∨ Shipped.D.prop c = .contexto) ↔
      (Shipped.D.status c = .deviation ∨ (Shipped.D.status c = .valid ∧ ¬ Shipped.Marked c)) ∧
        c ≠ 0x2E ∧ ¬ Newer c := by
  have hF := Shipped.files_ok
  have hall : ∀ p : IdnaProp, (p = .pvalid ∨ p = .contextj ∨ p = .contexto) ↔ p.allowsB = true := by
    intro p; cases p <;> simp [IdnaProp.allowsB]
  by_cases hc : c ≤ 0x10FFFF
  · obtain ⟨a, ha, hac⟩ := csvCover Shipped.csv_cover hc
    obtain ⟨b, hb, hbc, e2, hmk⟩ := Shipped.mapMarked_line hc
    have e1 : Shipped.D.prop c = a.prop := by
      have := find_unique (fun r : CsvRow => (r.first, r.last))
        (hF.csvSorted.imp fun h => Or.inl h) ha (c := c) hac
      simp only [] at this
      simp only [Shipped.D, dataOf, this]
    have hline : (Shipped.D.status c = .deviation ∨
        (Shipped.D.status c = .valid ∧ ¬ Shipped.Marked c)) ↔ lineAllowsB b = true := by
      rw [← hmk, e2]
      unfold lineAllowsB
      cases b.1.status <;> simp
    have hw := walk_ok _ _ _ _ _ _ Shipped.nv8_pairs hF.csvSorted Shipped.mapMarked_sorted ha hb hac
      hbc
    rw [hall, hline]
    unfold nv8Pair at hw
    rw [← e1] at hw
    constructor
    · intro h
      rw [h] at hw
      refine ⟨?_, ?_, ?_⟩
      · cases hl : lineAllowsB b with
        | true => rfl
        | false => rw [hl] at hw; simp at hw
      · rintro rfl
        have hd := (World.shipped World.sample.uni).data.dot.2
        rw [hd] at h
        cases h
      · intro hn
        rw [((C104_disagree c).mpr hn).1] at h
        cases h
    · rintro ⟨h, hd, hn⟩
      rw [h] at hw
      cases hl : (Shipped.D.prop c).allowsB with
      | true => rfl
      | false =>
        rw [hl] at hw
        simp only [Bool.or_eq_true, List.any_eq_true, Bool.and_eq_true, Nat.ble_eq, Nat.beq_eq] at hw
        rcases hw with ⟨r, hr, h3, h4⟩ | ⟨h3, h4⟩
        · exact absurd ⟨r, hr, by omega, by omega⟩ hn
        · omega
  · have hp : Shipped.D.prop c = .unassigned := by
      simp only [Shipped.D, dataOf]
      cases hg : Shipped.csv.find? (fun r => decide (r.first ≤ c ∧ c ≤ r.last)) with
      | none => rfl
      | some b =>
        have h1 := List.mem_of_find?_eq_some hg
        have h2 := List.find?_some hg
        simp only [decide_eq_true_eq] at h2
        have h3 := List.all_eq_true.mp Shipped.csv_top b h1
        rw [Nat.ble_eq] at h3
        omega
    have hs : Shipped.D.status c = .disallowed := by
      simp only [Shipped.D, dataOf]
      cases hg : Shipped.map.find? (fun r => decide (r.first ≤ c ∧ c ≤ r.last)) with
      | none => rfl
      | some b =>
        have hb := hF.mapTop b (List.mem_of_find?_eq_some hg)
        have := List.find?_some hg
        simp only [decide_eq_true_eq] at this
        omega
    rw [hp, hs]
    simp

/-- C109, for lookup: without transitional processing and with STD3 rules or without UTS #46
processing, every character outside ASCII of a label that a name with a result stands for is one
of those. -/
theorem C109_lookup {U : Uni} (h : U.Laws) {f : Nat} (f2 : f.testBit 2 = false)
    (f56 : f.testBit 5 = true ∨ f.testBit 6 = true) (f7 : f.testBit 7 = false) {u n : List Nat}
    (hs : ∀ c ∈ u, isScalar c) (h0 : 0 ∉ u) (ho : LookupOk ⟨Shipped.T, U⟩ f (utf8s u) n)
    {vs : List (List Nat)} (hv : StandsFor Shipped.D U f u vs) :
    ∀ v ∈ vs, ∀ c ∈ v, 0x80 ≤ c →
      Shipped.D.status c = .deviation ∨ (Shipped.D.status c = .valid ∧ ¬ Shipped.Marked c) := by
  intro v hm c hc h80
  have hf := C84_valid (World.shipped h) f7 hs h0 ho hv v hm ⟨c, hc, h80⟩
  have hbit : (labelTests f).testBit 4 = true ∧ (labelTests f).testBit 10 = true ∧
      ¬ (((labelTests f).testBit 12 = true ∨ (labelTests f).testBit 13 = true) ∧
        (labelTests f).testBit 14 = true) := by
    unfold labelTests
    rw [f2]
    rcases f56 with h | h <;> rw [h]
    · cases f.testBit 6 <;> decide
    · cases f.testBit 5 <;> decide
  refine ((C109_agree c).mp ?_).1
  cases hp : Shipped.D.prop c with
  | pvalid => simp
  | contextj => simp
  | contexto => simp
  | disallowed => exact absurd (.disallowed c hbit.1 hc hp fun hx => hbit.2.2 ⟨hx.1, hx.2.1⟩) (hf _)
  | unassigned => exact absurd (.unassigned c hbit.2.1 hc hp) (hf _)

/-- U+2603, a snowman, is valid for UTS #46, marked, and DISALLOWED; "ä" is valid, not marked, and
PVALID. -/
example : (Shipped.D.status 0x2603 = .valid ∧ Shipped.Marked 0x2603 ∧
    Shipped.D.prop 0x2603 = .disallowed) ∧
    Shipped.D.status 0xE4 = .valid ∧ ¬ Shipped.Marked 0xE4 ∧ Shipped.D.prop 0xE4 = .pvalid := by
  have h1 : Shipped.D.status 0x2603 = .valid ∧ Shipped.D.prop 0x2603 = .disallowed ∧
      Shipped.D.status 0xE4 = .valid ∧ Shipped.D.prop 0xE4 = .pvalid := by decide +kernel
  obtain ⟨a, b, c, d⟩ := h1
  refine ⟨⟨a, Classical.byContradiction fun hm => ?_, b⟩, c, fun hm => ?_, d⟩
  · have := (C109_agree 0x2603).mpr ⟨.inr ⟨a, hm⟩, by decide, by decide⟩
    rw [b] at this
    simp at this
  · have := ((C109_agree 0xE4).mp (.inl d)).1
    rw [c] at this
    simp [hm] at this

end Idn2
