import Verif.Spec.Rfc5892
import Verif.Props.Versions
import Verif.Props.Rfc5891

/-
Property C108: the classes that RFC 5892 settles by itself.
-/

namespace Idn2
open Spec

/-! ### The check -/

/-- The lines of the file about code points of the ranges have the property in question. -/
def rangesB (ok : IdnaProp → Bool) (rs : List (Nat × Nat)) (csv : List CsvRow) : Bool :=
  walk (fun r : CsvRow => (r.first, r.last)) id (fun a _ => ok a.prop) 5000 csv rs &&
    chainB (fun a b => Nat.blt a.2 b.1) rs && rs.all fun r => Nat.ble r.1 r.2 && Nat.ble r.2 0x10FFFF

theorem chain_pairwise : ∀ {rs : List (Nat × Nat)},
    chainB (fun a b => Nat.blt a.2 b.1) rs = true → (∀ r ∈ rs, r.1 ≤ r.2) →
    rs.Pairwise fun x y => x.2 < y.1 := by
  intro rs
  induction rs with
  | nil => intro _ _; exact .nil
  | cons a r ih =>
    intro h hle
    cases r with
    | nil => exact .cons (by simp) .nil
    | cons b r =>
      simp only [chainB, Bool.and_eq_true] at h
      have hp := ih h.2 fun x hx => hle x (List.mem_cons_of_mem _ hx)
      refine .cons ?_ hp
      have h1 : a.2 < b.1 := by have := h.1; rwa [Nat.blt_eq] at this
      have h2 := hle b (by simp)
      intro x hx
      rcases List.mem_cons.mp hx with rfl | hx
      · exact h1
      · have := (List.pairwise_cons.mp hp).1 x hx
        omega

theorem Shipped.prop_of_ranges {ok : IdnaProp → Bool} {rs : List (Nat × Nat)}
    (h : rangesB ok rs csv = true) {c : Nat} (hc : InRanges rs c) : ok (D.prop c) = true := by
  obtain ⟨r, hr, hrc⟩ := hc
  simp only [rangesB, Bool.and_eq_true, List.all_eq_true, Nat.ble_eq] at h
  obtain ⟨⟨h1, h2⟩, h3⟩ := h
  obtain ⟨a, ha, hac⟩ := csvCover csv_cover (c := c) (by have := h3 r hr; omega)
  have e1 : D.prop c = a.prop := by
    have := find_unique (fun r : CsvRow => (r.first, r.last))
      (files_ok.csvSorted.imp fun h => Or.inl h) ha (c := c) hac
    simp only [] at this
    simp only [D, dataOf, this]
  rw [e1]
  exact walk_ok _ _ _ _ _ _ h1 files_ok.csvSorted (chain_pairwise h2 fun r hr => (h3 r hr).1) ha hr
    hac hrc

theorem Shipped.rfc5892_valid : rangesB (· == .pvalid) exceptionsValid csv = true := by
  decide +kernel
theorem Shipped.rfc5892_contexto : rangesB (· == .contexto) exceptionsContextO csv = true := by
  decide +kernel
theorem Shipped.rfc5892_disallowed :
    rangesB (· == .disallowed) exceptionsDisallowed csv = true := by decide +kernel
theorem Shipped.rfc5892_ldh : rangesB (· == .pvalid) ldh csv = true := by decide +kernel
theorem Shipped.rfc5892_ascii : rangesB (· == .disallowed) asciiRest csv = true := by decide +kernel
theorem Shipped.rfc5892_join : rangesB (· == .contextj) joinControl csv = true := by decide +kernel
theorem Shipped.rfc5892_jamo : rangesB (· == .disallowed) oldHangulJamo csv = true := by
  decide +kernel
theorem Shipped.rfc5892_nonchar : rangesB (· == .disallowed) noncharacters csv = true := by
  decide +kernel
theorem Shipped.rfc5892_surrogate : rangesB (· == .disallowed) surrogatesPrivate csv = true := by
  decide +kernel
theorem Shipped.rfc5892_blocks :
    rangesB (fun p => p == .disallowed || p == .unassigned) ignorableBlocks csv = true := by
  decide +kernel

/-- C108.  What RFC 5892 settles by itself, the file has. -/
theorem C108_settled {c : Nat} {p : IdnaProp} (h : Settled c p) : Shipped.D.prop c = p := by
  cases h with
  | valid h => simpa using Shipped.prop_of_ranges Shipped.rfc5892_valid h
  | contexto h => simpa using Shipped.prop_of_ranges Shipped.rfc5892_contexto h
  | disallowed h => simpa using Shipped.prop_of_ranges Shipped.rfc5892_disallowed h
  | ldh h => simpa using Shipped.prop_of_ranges Shipped.rfc5892_ldh h
  | ascii h => simpa using Shipped.prop_of_ranges Shipped.rfc5892_ascii h
  | join h => simpa using Shipped.prop_of_ranges Shipped.rfc5892_join h
  | jamo h => simpa using Shipped.prop_of_ranges Shipped.rfc5892_jamo h
  | nonchar h => simpa using Shipped.prop_of_ranges Shipped.rfc5892_nonchar h
  | surrogate h => simpa using Shipped.prop_of_ranges Shipped.rfc5892_surrogate h

/-- C108, the ignorable blocks. -/
theorem C108_blocks {c : Nat} (h : InRanges ignorableBlocks c) :
    Shipped.D.prop c = .disallowed ∨ Shipped.D.prop c = .unassigned := by
  simpa using Shipped.prop_of_ranges Shipped.rfc5892_blocks h

/-- C108.  No other code points have contextual rules. -/
theorem C108_context (c : Nat) :
    (Shipped.D.prop c = .contextj ↔ InRanges joinControl c) ∧
    (Shipped.D.prop c = .contexto ↔ InRanges exceptionsContextO c) := by
  refine ⟨⟨fun h => ?_, fun h => C108_settled (.join h)⟩,
    ⟨fun h => ?_, fun h => C108_settled (.contexto h)⟩⟩
  · have := Shipped.ruled.contextj c h
    exact ⟨_, List.mem_cons_self, by omega⟩
  · have := Shipped.ruled.contexto c h
    unfold hasContextO at this
    simp only [InRanges, exceptionsContextO, List.mem_cons, List.not_mem_nil, or_false,
      exists_eq_or_imp, exists_eq_left]
    omega

/-! ### What follows for names -/

/-- The lines of the mapping table about code points of the ranges have no STD3 status. -/
def noStd3B (rs : List (Nat × Nat)) (rows : List MapRow) : Bool :=
  walk (fun r : MapRow => (r.first, r.last)) id
    (fun a _ => !(a.status == .std3Valid) && !(a.status == .std3Mapped)) 12000 rows rs &&
    chainB (fun a b => Nat.blt a.2 b.1) rs && rs.all fun r => Nat.ble r.1 r.2 && Nat.ble r.2 0x10FFFF

/-- The ranges of barred code points outside ASCII. -/
def barredParts : List (List (Nat × Nat)) :=
  [exceptionsDisallowed, oldHangulJamo, noncharacters, surrogatesPrivate, ignorableBlocks]

theorem Shipped.barred_std3 : (barredParts.all fun rs => noStd3B rs map) = true := by decide +kernel

theorem barred_part {c : Nat} (h : Barred c) : c < 0x80 ∨ ∃ rs ∈ barredParts, InRanges rs c := by
  rcases h with h | h
  · cases h with
    | disallowed h => exact .inr ⟨_, by simp [barredParts], h⟩
    | ascii h =>
      obtain ⟨r, hr, h1, h2⟩ := h
      have : ∀ r ∈ asciiRest, r.2 < 0x80 := by decide
      have := this r hr
      exact .inl (by omega)
    | jamo h => exact .inr ⟨oldHangulJamo, by simp [barredParts], h⟩
    | nonchar h => exact .inr ⟨noncharacters, by simp [barredParts], h⟩
    | surrogate h => exact .inr ⟨surrogatesPrivate, by simp [barredParts], h⟩
  · exact .inr ⟨ignorableBlocks, by simp [barredParts], h⟩

theorem barred_prop {c : Nat} (h : Barred c) :
    Shipped.D.prop c = .disallowed ∨ Shipped.D.prop c = .unassigned :=
  h.elim (fun h => .inl (C108_settled h)) C108_blocks

theorem barred_status {c : Nat} (h : Barred c) (hc : 0x80 ≤ c) :
    Shipped.D.status c ≠ .std3Valid ∧ Shipped.D.status c ≠ .std3Mapped := by
  rcases barred_part h with h | ⟨rs, hrs, r, hr, hrc⟩
  · omega
  · have hk := List.all_eq_true.mp Shipped.barred_std3 rs hrs
    simp only [noStd3B, Bool.and_eq_true, List.all_eq_true, Nat.ble_eq] at hk
    obtain ⟨⟨h1, h2⟩, h3⟩ := hk
    have hF := Shipped.files_ok
    obtain ⟨b, hb, hbc⟩ := hF.mapCover c (by have := h3 r hr; omega)
    have e2 : Shipped.D.status c = b.status := by
      have := find_unique (fun r : MapRow => (r.first, r.last))
        (hF.rowsSorted.imp fun h => Or.inl h) hb (c := c) hbc
      simp only [] at this
      simp only [Shipped.D, dataOf, this]
    have := walk_ok _ _ _ _ _ _ h1 hF.rowsSorted (chain_pairwise h2 fun r hr => (h3 r hr).1) hb hr
      hbc hrc
    simp only [Bool.and_eq_true, Bool.not_eq_true', beq_eq_false_iff_ne, ne_eq] at this
    rw [e2]
    exact this

/-- C108, for lookup.  Without transitional processing, no label that a name with a result stands
for has one of the barred code points outside ASCII. -/
theorem C108_lookup {U : Uni} (h : U.Laws) {f : Nat} (f2 : f.testBit 2 = false)
    (f7 : f.testBit 7 = false) {u n : List Nat} (hs : ∀ c ∈ u, isScalar c) (h0 : 0 ∉ u)
    (ho : LookupOk ⟨Shipped.T, U⟩ f (utf8s u) n) {vs : List (List Nat)}
    (hv : StandsFor Shipped.D U f u vs) : ∀ v ∈ vs, ∀ c ∈ v, 0x80 ≤ c → ¬ Barred c := by
  intro v hm c hc h80 hb
  have hf := C84_valid (World.shipped h) f7 hs h0 ho hv v hm ⟨c, hc, h80⟩
  have hbit : (labelTests f).testBit 4 = true ∧ (labelTests f).testBit 10 = true := by
    unfold labelTests
    rw [f2]
    cases f.testBit 5 <;> cases f.testBit 6 <;> decide
  rcases barred_prop hb with hp | hp
  · refine hf _ (.disallowed c hbit.1 hc hp fun hx => ?_)
    have := barred_status hb h80
    exact hx.2.2.elim this.1 this.2
  · exact hf _ (.unassigned c hbit.2 hc hp)

/-- C108, for registration: what is registered is ASCII as submitted, or the A-label of a label
without barred code points. -/
theorem C108_register {U : Uni} (h : U.Laws) {f : Nat} {ul al : Option (List Nat)} {n : List Nat}
    (hsome : ul ≠ none ∨ al ≠ none) (hr : RegOk ⟨Shipped.T, U⟩ f ul al n) :
    (ul = some n ∧ al = none ∧ ∀ c ∈ n, c < 0x80) ∨
      ∃ v, n = xn ++ Punycode.encode v ∧ ∀ c ∈ v, ¬ Barred c := by
  have key : ∀ v : List Nat, (∀ e, ¬ Fault Shipped.D U regTests v e) → ∀ c ∈ v, ¬ Barred c := by
    intro v hf c hc hb
    rcases barred_prop hb with hp | hp
    · exact hf _ (.disallowed c (by decide) hc hp fun hx =>
        absurd hx.1 (by decide))
    · exact hf _ (.unassigned c (by decide) hc hp)
  cases al with
  | some a =>
    cases (C66_register_alabel (World.shipped h) f ul a (.ok n)).mp hr with
    | alabel p v h1 h2 h3 h4 h5 h6 h7 =>
      exact .inr ⟨v, by rw [h2, h7], key v h6⟩
  | none =>
    cases ul with
    | none => simp at hsome
    | some t =>
      cases (C65_register_ulabel (World.shipped h) f t (.ok n)).mp hr with
      | ascii h1 _ => exact .inl ⟨rfl, rfl, h1⟩
      | ulabel q v h1 h2 h3 h4 h5 h6 => exact .inr ⟨v, rfl, key v h5⟩

/-- U+00DF is allowed, U+0640 is not, the digit U+0660 has a rule; U+0641 is not settled. -/
example : Shipped.D.prop 0xDF = .pvalid ∧ Barred 0x640 ∧ Shipped.D.prop 0x660 = .contexto ∧
    ∀ p, ¬ Settled 0x641 p :=
  ⟨C108_settled (.valid (by decide)), .inl (.disallowed (by decide)),
    C108_settled (.contexto (by decide)), fun p h => by cases h <;> revert ‹InRanges _ _› <;> decide⟩

end Idn2
