import Verif.Proof.Gen
import Verif.Spec.Laws

/-
Deciding `Data.Laws` for given files.
-/

namespace Idn2
open Spec

/-- Two intervals meet. -/
def overlapB (a b : Nat × Nat) : Bool := Nat.ble a.1 b.2 && Nat.ble b.1 a.2

theorem overlapB_true {a b : Nat × Nat} {c : Nat} (ha : a.1 ≤ c ∧ c ≤ a.2)
    (hb : b.1 ≤ c ∧ c ≤ b.2) : overlapB a b = true := by
  unfold overlapB
  rw [Bool.and_eq_true, Nat.ble_eq, Nat.ble_eq]
  omega

/-- Walk along two ordered lists of intervals, checking `ok` on each overlapping pair. -/
def walk {α β : Type} (ia : α → Nat × Nat) (ib : β → Nat × Nat) (ok : α → β → Bool) :
    Nat → List α → List β → Bool
  | _, [], _ => true
  | _, _, [] => true
  | 0, _, _ => false
  | n + 1, a :: as, b :: bs =>
    (!overlapB (ia a) (ib b) || ok a b) &&
      (if Nat.blt (ia a).2 (ib b).2 then walk ia ib ok n as (b :: bs)
       else walk ia ib ok n (a :: as) bs)

theorem walk_ok {α β : Type} (ia : α → Nat × Nat) (ib : β → Nat × Nat) (ok : α → β → Bool)
    (n : Nat) (as : List α) (bs : List β) (h : walk ia ib ok n as bs = true)
    (ha : as.Pairwise fun x y => (ia x).2 < (ia y).1)
    (hb : bs.Pairwise fun x y => (ib x).2 < (ib y).1) {a : α} {b : β} (hma : a ∈ as) (hmb : b ∈ bs)
    {c : Nat} (hca : (ia a).1 ≤ c ∧ c ≤ (ia a).2) (hcb : (ib b).1 ≤ c ∧ c ≤ (ib b).2) :
    ok a b = true := by
  induction n generalizing as bs with
  | zero =>
    cases as with
    | nil => cases hma
    | cons x as =>
      cases bs with
      | nil => cases hmb
      | cons y bs => simp [walk] at h
  | succ n ih =>
    cases as with
    | nil => cases hma
    | cons x as =>
      cases bs with
      | nil => cases hmb
      | cons y bs =>
        unfold walk at h
        rw [Bool.and_eq_true] at h
        obtain ⟨h1, h2⟩ := h
        rw [List.pairwise_cons] at ha hb
        by_cases hlt : (ia x).2 < (ib y).2
        · have : Nat.blt (ia x).2 (ib y).2 = true := by rw [Nat.blt_eq]; exact hlt
          rw [this, if_pos rfl] at h2
          rw [List.mem_cons] at hma
          rcases hma with rfl | hma
          · rw [List.mem_cons] at hmb
            rcases hmb with rfl | hmb
            · rw [Bool.or_eq_true] at h1
              rcases h1 with h1 | h1
              · rw [overlapB_true hca hcb] at h1
                cases h1
              · exact h1
            · have := hb.1 b hmb
              omega
          · exact ih as (y :: bs) h2 ha.2 (List.pairwise_cons.mpr hb) hma hmb
        · have : Nat.blt (ia x).2 (ib y).2 = false := by
            rw [← Bool.not_eq_true, Nat.blt_eq]; exact hlt
          rw [this] at h2
          simp only [Bool.false_eq_true, ↓reduceIte] at h2
          rw [List.mem_cons] at hmb
          rcases hmb with rfl | hmb
          · rw [List.mem_cons] at hma
            rcases hma with rfl | hma
            · rw [Bool.or_eq_true] at h1
              rcases h1 with h1 | h1
              · rw [overlapB_true hca hcb] at h1
                cases h1
              · exact h1
            · have := ha.1 a hma
              omega
          · exact ih (x :: as) bs h2 (List.pairwise_cons.mpr ha) hb.2 hma hmb

/-- "IDNA2008 allows it" implies "valid or deviation". -/
def pvalidPair (a : CsvRow) (b : MapRow) : Bool :=
  match a.prop with
  | .pvalid | .contextj | .contexto =>
    (match b.status with
    | .valid | .deviation => true
    | _ => false)
  | _ => true

def isScalarB (c : Nat) : Bool :=
  Nat.blt c 0xD800 || (Nat.ble 0xE000 c && Nat.ble c 0x10FFFF)

theorem isScalarB_iff (c : Nat) : isScalarB c = true ↔ isScalar c := by
  simp [isScalarB, isScalar, Nat.blt_eq]

/-- The ASCII part of the laws, for one character. -/
def asciiLawB (D : Data) (c : Nat) : Bool :=
  if (0x61 ≤ c ∧ c ≤ 0x7A) ∨ (0x30 ≤ c ∧ c ≤ 0x39) ∨ c = 0x2D then
    D.status c = .valid ∧ D.prop c = .pvalid
  else if c = 0x2E then D.status c = .valid ∧ D.prop c = .disallowed
  else if 0x41 ≤ c ∧ c ≤ 0x5A then
    D.status c = .mapped ∧ D.mapping c = [c + 32] ∧ D.prop c = .disallowed
  else D.status c = .std3Valid ∧ D.prop c = .disallowed

def asciiLawsB (D : Data) : Bool := (List.range 128).all (asciiLawB D)

def dotsB (rows : List MapRow) : Bool :=
  [0x3002, 0xFF0E, 0xFF61].all fun c => rows.contains ⟨c, c, .mapped, [0x2E]⟩

def lawsCheck (csv : List CsvRow) (rows : List MapRow) (qc : List QcRow) (fuel : Nat) : Bool :=
  asciiLawsB (dataOf csv rows qc) &&
  walk (fun r : CsvRow => (r.first, r.last)) (fun r : MapRow => (r.first, r.last)) pvalidPair fuel csv
    rows &&
  rows.all (fun r => r.mapping.all fun x => !Nat.beq x 0 && isScalarB x) && dotsB rows &&
  csv.all (fun r => Nat.ble r.last 0x10FFFF)

theorem FilesOk.rowsSorted {csv : List CsvRow} {rows : List MapRow} {qc : List QcRow}
    (h : FilesOk csv rows qc) : rows.Pairwise fun x y => x.last < y.first := by
  refine (pairwise_of_adj (fun r : MapRow => (r.first, r.last)) rows
    (fun r hr => (h.map.row r hr).1.iv) ?_)
  intro a x y b he
  have := (h.map.adj a x y b he).1
  simp only
  omega

theorem lawsCheck_ok {csv : List CsvRow} {rows : List MapRow} {qc : List QcRow} {fuel : Nat}
    (hF : FilesOk csv rows qc) (h : lawsCheck csv rows qc fuel = true) :
    Data.Laws (dataOf csv rows qc) := by
  simp only [lawsCheck, Bool.and_eq_true] at h
  obtain ⟨⟨⟨⟨h1, h2⟩, h3⟩, h4⟩, hcsv⟩ := h
  have hascii : ∀ c, c < 128 → asciiLawB (dataOf csv rows qc) c = true := by
    intro c hc
    unfold asciiLawsB at h1
    rw [List.all_eq_true] at h1
    exact h1 c (List.mem_range.mpr hc)
  have hsort := hF.rowsSorted
  refine ⟨?_, ?_, ?_, ?_, ?_, ?_, ?_⟩
  · intro c hc
    unfold isLowerLDH at hc
    have := hascii c (by omega)
    unfold asciiLawB at this
    rw [if_pos hc] at this
    simpa using this
  · have := hascii 0x2E (by omega)
    unfold asciiLawB at this
    rw [if_neg (by omega), if_pos rfl] at this
    simpa using this
  · intro c h5 h6
    have := hascii c (by omega)
    unfold asciiLawB at this
    rw [if_neg (by omega), if_neg (by omega), if_pos ⟨h5, h6⟩] at this
    simpa using this
  · intro c hc h5 h6 h7
    unfold isLowerLDH at h5
    have := hascii c hc
    unfold asciiLawB at this
    rw [if_neg h5, if_neg h6, if_neg h7] at this
    simpa using this
  · intro c hp
    cases hf : csv.find? (fun r => decide (r.first ≤ c ∧ c ≤ r.last)) with
    | none =>
      simp only [dataOf, hf] at hp
      rcases hp with hp | hp | hp <;> cases hp
    | some a =>
      have ha := List.mem_of_find?_eq_some hf
      have hac := List.find?_some hf
      simp only [decide_eq_true_eq] at hac
      simp only [dataOf, hf] at hp
      cases hg : rows.find? (fun r => decide (r.first ≤ c ∧ c ≤ r.last)) with
      | none =>
        exfalso
        rw [List.all_eq_true] at hcsv
        have := hcsv a ha
        rw [Nat.ble_eq] at this
        obtain ⟨b, hb, hbc⟩ := hF.mapCover c (by omega)
        rw [List.find?_eq_none] at hg
        exact hg b hb (by simpa using hbc)
      | some b =>
        have hb := List.mem_of_find?_eq_some hg
        have hbc := List.find?_some hg
        simp only [decide_eq_true_eq] at hbc
        have := walk_ok _ _ _ _ _ _ h2 hF.csvSorted hsort ha hb hac hbc
        simp only [dataOf, hg]
        unfold pvalidPair at this
        rcases hp with hp | hp | hp <;> rw [hp] at this <;> revert this <;>
          cases b.status <;> simp
  · intro c x hx
    cases hg : rows.find? (fun r => decide (r.first ≤ c ∧ c ≤ r.last)) with
    | none => simp only [dataOf, hg] at hx; cases hx
    | some b =>
      simp only [dataOf, hg] at hx
      have hb := List.mem_of_find?_eq_some hg
      rw [List.all_eq_true] at h3
      have := h3 b hb
      rw [List.all_eq_true] at this
      have := this x hx
      rw [Bool.and_eq_true, isScalarB_iff, Bool.not_eq_true', ← Bool.not_eq_true, Nat.beq_eq] at this
      exact this
  · intro c hc
    have hm : (⟨c, c, .mapped, [0x2E]⟩ : MapRow) ∈ rows := by
      unfold dotsB at h4
      simp only [List.all_cons, List.all_nil, Bool.and_true, Bool.and_eq_true,
        List.contains_iff_mem] at h4
      rcases hc with rfl | rfl | rfl
      · exact h4.1
      · exact h4.2.1
      · exact h4.2.2
    have := find_unique (fun r : MapRow => (r.first, r.last)) (hsort.imp fun h => Or.inl h) hm
      (c := c) ⟨Nat.le_refl _, Nat.le_refl _⟩
    simp only [] at this
    simp only [dataOf, this, and_self]

end Idn2
