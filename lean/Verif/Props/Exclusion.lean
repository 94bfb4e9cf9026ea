import Verif.Spec.Exclusion
import Verif.Data.QcText
import Verif.Data.Qc
import Verif.Props.Casefold

/-
Property C111: nothing that cannot occur in NFC is left after the mapping of UTS #46.
-/

namespace Idn2
open Spec

/-- The code point is excluded from composition, so that it is not in any text in NFC. -/
def Shipped.Excluded (c : Nat) : Prop := ∃ r ∈ exclusions qcText, r.1 ≤ c ∧ c ≤ r.2

/-- An excluded code point is replaced, or the name refused. -/
def excludedPair (b : MapRow) (_ : Nat × Nat) : Bool :=
  match b.status with
  | .mapped | .std3Mapped | .disallowed => true
  | _ => false

def noRows (qc : List QcRow) : List (Nat × Nat) :=
  (qc.filter fun r => Nat.beq r.check 1).map fun r => (r.first, r.last)

theorem Shipped.exclusions_qc : exclusions qcText = noRows qc := by decide +kernel

theorem Shipped.noRows_sorted : chainB (fun a b => Nat.blt a.2 b.1) (noRows qc) = true ∧
    (noRows qc).all (fun r => Nat.ble r.1 r.2 && Nat.ble r.2 0x10FFFF) = true := by decide +kernel

/-- No code point is in two lines of NFC_QC. -/
def disjointB : List QcRow → Bool
  | [] => true
  | r :: l => (l.all fun s => Nat.blt r.last s.first || Nat.blt s.last r.first) && disjointB l

theorem Shipped.qc_disjoint : disjointB qc = true := by decide +kernel

theorem Shipped.excluded_pairs :
    walk (fun r : MapRow => (r.first, r.last)) id excludedPair 12000 map (noRows qc) = true := by
  decide +kernel

theorem sorted_of_chain {l : List (Nat × Nat)} (h : chainB (fun a b => Nat.blt a.2 b.1) l = true)
    (hw : ∀ r ∈ l, r.1 ≤ r.2) : l.Pairwise fun x y => x.2 < y.1 := by
  induction l with
  | nil => exact .nil
  | cons x l ih =>
    have hl : chainB (fun a b : Nat × Nat => Nat.blt a.2 b.1) l = true := by
      cases l with
      | nil => rfl
      | cons y l =>
        simp only [chainB, Bool.and_eq_true] at h
        exact h.2
    have hp := ih hl fun r hr => hw r (List.mem_cons_of_mem _ hr)
    refine List.pairwise_cons.mpr ⟨?_, hp⟩
    cases l with
    | nil => simp
    | cons y l =>
      simp only [chainB, Bool.and_eq_true, Nat.blt_eq] at h
      intro z hz
      rcases List.mem_cons.mp hz with rfl | hz
      · exact h.1
      · have h1 := (List.pairwise_cons.mp hp).1 z hz
        have h2 := hw y (by simp)
        omega

theorem disjoint_find {l : List QcRow} (h : disjointB l = true) {r : QcRow} (hr : r ∈ l) {c : Nat}
    (hc : r.first ≤ c ∧ c ≤ r.last) :
    l.find? (fun r => decide (r.first ≤ c ∧ c ≤ r.last)) = some r := by
  induction l with
  | nil => cases hr
  | cons x l ih =>
    simp only [disjointB, Bool.and_eq_true, List.all_eq_true, Bool.or_eq_true, Nat.blt_eq] at h
    rw [List.find?_cons]
    rcases List.mem_cons.mp hr with rfl | hr
    · simp [hc]
    · have := h.1 r hr
      rw [show decide (x.first ≤ c ∧ c ≤ x.last) = false by simp; omega]
      exact ih h.2 hr

/-- C111.  NFC_QC is No exactly for the code points excluded from composition. -/
theorem C111_quick (c : Nat) : Shipped.D.qc c = some 1 ↔ Shipped.Excluded c := by
  unfold Shipped.Excluded
  rw [Shipped.exclusions_qc]
  simp only [Shipped.D, dataOf, noRows, List.mem_map, List.mem_filter, Nat.beq_eq]
  constructor
  · intro h
    cases hf : Shipped.qc.find? (fun r => decide (r.first ≤ c ∧ c ≤ r.last)) with
    | none => rw [hf] at h; cases h
    | some r =>
      rw [hf] at h
      have h2 := List.find?_some hf
      simp only [decide_eq_true_eq] at h2
      simp only [Option.map_some, Option.some.injEq] at h
      exact ⟨_, ⟨r, ⟨List.mem_of_find?_eq_some hf, h⟩, rfl⟩, h2⟩
  · rintro ⟨_, ⟨r, ⟨hr, hk⟩, rfl⟩, hc⟩
    rw [disjoint_find Shipped.qc_disjoint hr hc, ← hk]
    rfl

/-- C111.  The mapping table replaces all of them, or has them as disallowed. -/
theorem C111_status {c : Nat} (h : Shipped.Excluded c) : Shipped.D.status c = .mapped ∨
    Shipped.D.status c = .std3Mapped ∨ Shipped.D.status c = .disallowed := by
  have hF := Shipped.files_ok
  obtain ⟨r, hr, hc⟩ := h
  rw [Shipped.exclusions_qc] at hr
  have hs := Shipped.noRows_sorted
  simp only [List.all_eq_true, Bool.and_eq_true, Nat.ble_eq] at hs
  obtain ⟨b, hb, hbc⟩ := hF.mapCover c (by have := (hs.2 r hr).2; omega)
  have hfu := find_unique (fun r : MapRow => (r.first, r.last))
    (hF.rowsSorted.imp fun h => Or.inl h) hb (c := c) hbc
  simp only [] at hfu
  have e1 : Shipped.D.status c = b.status := by simp only [Shipped.D, dataOf, hfu]
  have hw := walk_ok _ _ _ _ _ _ Shipped.excluded_pairs hF.rowsSorted
    (sorted_of_chain hs.1 fun r hr => (hs.2 r hr).1) hb hr hbc hc
  rw [e1]
  unfold excludedPair at hw
  revert hw
  cases b.status <;> simp

/-- C111.  After the mapping of a name without disallowed characters none of them is left. -/
theorem C111_mapped {tr std3 : Bool} {u : List Nat} (hd : ∀ c ∈ u, Shipped.D.status c ≠ .disallowed) :
    ∀ x ∈ u.flatMap (emit Shipped.D tr std3), ¬ Shipped.Excluded x := by
  intro x hx he
  have hst := C111_status he
  obtain ⟨c, hc, hx⟩ := List.mem_flatMap.mp hx
  have key : Shipped.D.status x = .valid ∨ Shipped.D.status x = .std3Valid ∨
      Shipped.D.status x = .deviation := by
    have hk := hd c hc
    have hm := C81_closed.mapped c
    have h3 := C81_closed.std3 c
    unfold emit at hx
    cases hs : Shipped.D.status c <;> rw [hs] at hx hk hm h3 <;> simp only [] at hx
    · rw [List.mem_singleton.mp hx]; exact .inl hs
    · exact .inl (hm (.inl rfl) x hx)
    · cases hx
    · split at hx
      · exact .inl (hm (.inr rfl) x hx)
      · rw [List.mem_singleton.mp hx]; exact .inr (.inr hs)
    · exact absurd rfl hk
    · split at hx
      · cases hx
      · rcases h3 rfl x hx with h | h
        · exact .inl h
        · exact .inr (.inl h)
    · split at hx
      · cases hx
      · rw [List.mem_singleton.mp hx]; exact .inr (.inl hs)
  rcases key with h | h | h <;> rw [h] at hst <;> simp at hst

/-- C111.  IDNA2008 does not allow them. -/
theorem C111_property {c : Nat} (h : Shipped.D.prop c = .pvalid ∨ Shipped.D.prop c = .contextj ∨
    Shipped.D.prop c = .contexto) : ¬ Shipped.Excluded c := by
  intro he
  have hst := C111_status he
  rcases ((C109_agree c).mp h).1 with h | ⟨h, -⟩ <;> rw [h] at hst <;> simp at hst

/-- C111, for lookup without transitional processing: none of them is in a label outside ASCII that a
name with a result stands for, whatever the NFC of libunistring; with the exception of the six that are
mapped only without STD3 rules, and those are left to NFC. -/
theorem C111_lookup {U : Uni} (h : U.Laws) {f : Nat} (f2 : f.testBit 2 = false)
    (f7 : f.testBit 7 = false) {u n : List Nat} (hs : ∀ c ∈ u, isScalar c) (h0 : 0 ∉ u)
    (ho : LookupOk ⟨Shipped.T, U⟩ f (utf8s u) n) {vs : List (List Nat)}
    (hv : StandsFor Shipped.D U f u vs) : ∀ v ∈ vs, (∃ c ∈ v, 0x80 ≤ c) → ∀ c ∈ v,
      Shipped.Excluded c →
        f.testBit 5 = false ∧ f.testBit 6 = false ∧ Shipped.D.status c = .std3Mapped := by
  intro v hm hna c hc he
  have hf := C84_valid (World.shipped h) f7 hs h0 ho hv v hm hna
  have hst := C111_status he
  cases f6 : f.testBit 6 with
  | false =>
    have hb : (labelTests f).testBit 12 = false ∧ (labelTests f).testBit 13 = true ∧
        ((labelTests f).testBit 14 = true ↔ f.testBit 5 = false) := by
      unfold labelTests
      rw [f2, f6]
      cases f.testBit 5 <;> decide
    have ht : Tr46Valid Shipped.D false ((labelTests f).testBit 14) c := Classical.byContradiction
      fun ht => hf _ (.invalidNontransitional c hb.1 hb.2.1 hc ht)
    rcases ht with ht | ⟨-, ht⟩ | ⟨h14, ht | ht⟩
    · rw [ht] at hst; simp at hst
    · rw [ht] at hst; simp at hst
    · rw [ht] at hst; simp at hst
    · exact ⟨hb.2.2.mp h14, rfl, ht⟩
  | true =>
    have hb : (labelTests f).testBit 4 = true ∧ (labelTests f).testBit 10 = true ∧
        ¬ ((labelTests f).testBit 12 = true ∨ (labelTests f).testBit 13 = true) := by
      unfold labelTests
      rw [f2, f6]
      cases f.testBit 5 <;> decide
    have hp : Shipped.D.prop c = .pvalid ∨ Shipped.D.prop c = .contextj ∨
        Shipped.D.prop c = .contexto := by
      cases hp : Shipped.D.prop c with
      | pvalid => simp
      | contextj => simp
      | contexto => simp
      | disallowed => exact absurd (.disallowed c hb.1 hc hp fun hx => hb.2.2 hx.1) (hf _)
      | unassigned => exact absurd (.unassigned c hb.2.1 hc hp) (hf _)
    exact absurd he (C111_property hp)

/-- U+0340, U+212B ANGSTROM SIGN and U+2F800 are excluded, "å" is not. -/
example : Shipped.Excluded 0x340 ∧ Shipped.Excluded 0x212B ∧ Shipped.Excluded 0x2F800 ∧
    ¬ Shipped.Excluded 0xE5 := by
  unfold Shipped.Excluded
  rw [Shipped.exclusions_qc]
  decide +kernel

/-- The angstrom sign is mapped to "å", which is not excluded. -/
example : ∀ x ∈ [0x212B].flatMap (emit Shipped.D false false), ¬ Shipped.Excluded x :=
  C111_mapped (by decide +kernel)

end Idn2
