import Verif.Data.Fold
import Verif.Props.Nv8
import Verif.Props.DeviationData
import Verif.Props.Closed

/-
Property C110: what UTS #46 processing makes of a character is its NFKC_Casefold.
-/

namespace Idn2
open Spec

theorem numsB_eq : ∀ {l m : List Nat}, numsB l m = true → l = m := by
  intro l
  induction l with
  | nil => intro m h; cases m with
    | nil => rfl
    | cons => cases h
  | cons a l ih =>
    intro m h
    cases m with
    | nil => cases h
    | cons b m =>
      simp only [numsB, Bool.and_eq_true, Nat.beq_eq] at h
      rw [h.1, ih h.2]

/-- The lines are among the intervals, and the intervals with a value are lines. -/
theorem mem_fill {a b : Nat} {v : List Nat} {rs : List FoldRow} {k : Nat} :
    (a, b, some v) ∈ fill k rs ↔ ⟨a, b, v⟩ ∈ rs := by
  induction rs generalizing k with
  | nil => simp [fill]
  | cons r rs ih =>
    have e : (a, b, some v) = (r.first, r.last, some r.to) ↔ (⟨a, b, v⟩ : FoldRow) = r := by
      cases r; simp
    unfold fill
    split
    · rw [List.mem_cons, List.mem_cons, List.mem_cons, ih, e]
      constructor
      · rintro (h | h)
        · simp at h
        · exact h
      · exact .inr
    · rw [List.mem_cons, List.mem_cons, ih, e]

theorem fill_sorted {l : List (Nat × Nat × Option (List Nat))} (h : fillB l = true) :
    l.Pairwise fun x y => x.2.1 < y.1 := by
  simp only [fillB, Bool.and_eq_true] at h
  obtain ⟨⟨h, -⟩, -⟩ := h
  induction l with
  | nil => exact .nil
  | cons x l ih =>
    refine List.pairwise_cons.mpr ⟨?_, ?_⟩
    · clear ih
      induction l generalizing x with
      | nil => simp
      | cons y l ih =>
        simp only [chainB, Bool.and_eq_true, Nat.beq_eq, Nat.ble_eq] at h
        intro z hz
        rcases List.mem_cons.mp hz with rfl | hz
        · omega
        · cases l with
          | nil => cases hz
          | cons w l =>
            have h2 := ih y h.2 z hz
            have h3 := h.2
            simp only [chainB, Bool.and_eq_true, Nat.beq_eq, Nat.ble_eq] at h3
            omega
    · cases l with
      | nil => exact .nil
      | cons y l =>
        simp only [chainB, Bool.and_eq_true] at h
        exact ih h.2

theorem fill_cover {l : List (Nat × Nat × Option (List Nat))} (h : fillB l = true) {c : Nat}
    (hc : c ≤ 0x10FFFF) : ∃ x ∈ l, x.1 ≤ c ∧ c ≤ x.2.1 := by
  simp only [fillB, Bool.and_eq_true] at h
  obtain ⟨⟨h1, h2⟩, h3⟩ := h
  refine cover_of_adj (fun x : Nat × Nat × Option (List Nat) => (x.1, x.2.1)) l ?_ c ?_ ?_
  · intro a x y b he
    have := chainB_adj h1 a x y b he
    simp only [Bool.and_eq_true, Nat.beq_eq] at this
    exact this.1
  · cases hh : l.head? with
    | none => rw [hh] at h2; cases h2
    | some r =>
      rw [hh] at h2
      simp only [Nat.beq_eq] at h2
      exact ⟨r, rfl, by simp [h2]⟩
  · cases hh : l.getLast? with
    | none => rw [hh] at h3; cases h3
    | some r =>
      rw [hh] at h3
      simp only [Nat.beq_eq] at h3
      exact ⟨r, rfl, by simp [h3, hc]⟩

/-- NFKC_Casefold of a code point by the interval that it is in. -/
theorem casefold_of_fill {rs : List FoldRow} (h : fillB (fill 0 rs) = true) {c : Nat}
    {x : Nat × Nat × Option (List Nat)} (hx : x ∈ fill 0 rs) (hc : x.1 ≤ c ∧ c ≤ x.2.1) :
    casefold rs c = match x.2.2 with | some l => l | none => [c] := by
  have hu : ∀ y ∈ fill 0 rs, (y.1 ≤ c ∧ c ≤ y.2.1) → y = x := by
    intro y hy hyc
    have h1 := find_unique (fun x : Nat × Nat × Option (List Nat) => (x.1, x.2.1))
      ((fill_sorted h).imp fun h => Or.inl h) hx (c := c) hc
    have h2 := find_unique (fun x : Nat × Nat × Option (List Nat) => (x.1, x.2.1))
      ((fill_sorted h).imp fun h => Or.inl h) hy (c := c) hyc
    rw [h1] at h2
    exact (Option.some.inj h2).symm
  unfold casefold
  cases hf : rs.find? (fun r => decide (r.first ≤ c ∧ c ≤ r.last)) with
  | some r =>
    have h1 := List.mem_of_find?_eq_some hf
    have h2 := List.find?_some hf
    simp only [decide_eq_true_eq] at h2
    rw [← hu (r.first, r.last, some r.to) (mem_fill.mpr h1) h2]
  | none =>
    obtain ⟨a, b, v⟩ := x
    cases v with
    | none => rfl
    | some v =>
      have h1 := List.find?_eq_none.mp hf ⟨a, b, v⟩ (mem_fill.mp hx)
      simp only [decide_eq_true_eq] at h1
      exact absurd hc h1

theorem foldPair_emit {b : MapRow} {x : Nat × Nat × Option (List Nat)} (hw : foldPair b x = true)
    (h : b.status ≠ .disallowed) {c : Nat} (hbc : b.first ≤ c ∧ c ≤ b.last) (h1 : c ≠ 0x3002)
    (h2 : c ≠ 0xFF61) :
    (match b.status with
      | .valid => [c]
      | .mapped => b.mapping
      | .ignored => []
      | .deviation => if true = true then b.mapping else [c]
      | .disallowed => [c]
      | .std3Valid => if false = true then [] else [c]
      | .std3Mapped => if false = true then [] else b.mapping) =
    match x.2.2 with | some l => l | none => [c] := by
  obtain ⟨x1, x2, v⟩ := x
  unfold foldPair at hw
  cases hs : b.status <;> rw [hs] at hw h <;> cases v <;> simp at hw h ⊢
  · omega
  · rcases hw with hw | hw
    · exact (numsB_eq hw).symm
    · omega
  · rename_i l
    cases l with
    | nil => rfl
    | cons => cases hw
  · exact (numsB_eq hw).symm
  · exact (numsB_eq hw).symm

/-- C110.  What the mapping table makes of a code point that is not disallowed, with transitional
processing and without STD3 rules, is its NFKC_Casefold by lib/DerivedNormalizationProps.txt; the
ideographic full stops are the exceptions. -/
theorem C110_mapping {c : Nat} (h : Shipped.D.status c ≠ .disallowed) (h1 : c ≠ 0x3002)
    (h2 : c ≠ 0xFF61) : emit Shipped.D true false c = casefold Shipped.fold c := by
  have hF := Shipped.files_ok
  by_cases hc : c ≤ 0x10FFFF
  · obtain ⟨b, hb, hbc⟩ := hF.mapCover c hc
    obtain ⟨x, hx, hxc⟩ := fill_cover Shipped.fill_ok hc
    have hfu := find_unique (fun r : MapRow => (r.first, r.last))
      (hF.rowsSorted.imp fun h => Or.inl h) hb (c := c) hbc
    simp only [] at hfu
    have e1 : Shipped.D.status c = b.status := by simp only [Shipped.D, dataOf, hfu]
    have e2 : Shipped.D.mapping c = b.mapping := by simp only [Shipped.D, dataOf, hfu]
    have hw := walk_ok _ _ _ _ _ _ Shipped.fold_pairs hF.rowsSorted (fill_sorted Shipped.fill_ok) hb hx
      hbc hxc
    rw [casefold_of_fill Shipped.fill_ok hx hxc]
    unfold emit
    rw [e1, e2]
    exact foldPair_emit hw (e1 ▸ h) hbc h1 h2
  · exfalso
    apply h
    simp only [Shipped.D, dataOf]
    cases hg : Shipped.map.find? (fun r => decide (r.first ≤ c ∧ c ≤ r.last)) with
    | none => rfl
    | some b =>
      have hb := hF.mapTop b (List.mem_of_find?_eq_some hg)
      have := List.find?_some hg
      simp only [decide_eq_true_eq] at this
      omega

/-- C110, the same for any flags, apart from what the flags are for: deviation characters without
transitional processing, and the characters that STD3 rules remove. -/
theorem C110_emit {c : Nat} (tr std3 : Bool) (h : Shipped.D.status c ≠ .disallowed) (h1 : c ≠ 0x3002)
    (h2 : c ≠ 0xFF61) (ht : tr = true ∨ c ∉ deviations)
    (hs : std3 = true → Shipped.D.status c ≠ .std3Valid ∧ Shipped.D.status c ≠ .std3Mapped) :
    emit Shipped.D tr std3 c = casefold Shipped.fold c := by
  rw [← C110_mapping h h1 h2]
  rw [← C42_deviations] at ht
  unfold emit
  revert h ht hs
  cases Shipped.D.status c <;> cases tr <;> cases std3 <;> simp

theorem valid_nodots {c : Nat} (h : Shipped.D.status c = .valid ∨ Shipped.D.status c = .std3Valid) :
    c ≠ 0x3002 ∧ c ≠ 0xFF61 := by
  have hd := (World.shipped World.sample.uni).data
  constructor <;> rintro rfl
  · rw [(hd.dots 0x3002 (by decide)).1] at h
    simp at h
  · rw [(hd.dots 0xFF61 (by decide)).1] at h
    simp at h

/-- C110.  The code points that IDNA2008 allows are not changed by NFKC_Casefold, with the exception
of sharp s, final sigma and the joiners (RFC 5892, section 2.2, "Unstable"). -/
theorem C110_stable {c : Nat} (h : Shipped.D.prop c = .pvalid ∨ Shipped.D.prop c = .contextj ∨
    Shipped.D.prop c = .contexto) : c ∈ deviations ∨ casefold Shipped.fold c = [c] := by
  rcases ((C109_agree c).mp h).1 with h | h
  · exact .inl ((C42_deviations c).mp h)
  · refine .inr ?_
    rw [← C110_mapping (by rw [h.1]; decide) (valid_nodots (.inl h.1)).1 (valid_nodots (.inl h.1)).2]
    unfold emit; rw [h.1]

/-- C110, for lookup without transitional processing: a label outside ASCII that a name with a result
stands for is not changed by NFKC_Casefold, apart from deviation characters.  With the default flags
characters that STD3 rules exclude may be mapped, too. -/
theorem C110_lookup {U : Uni} (h : U.Laws) {f : Nat} (f2 : f.testBit 2 = false)
    (f7 : f.testBit 7 = false) {u n : List Nat} (hs : ∀ c ∈ u, isScalar c) (h0 : 0 ∉ u)
    (ho : LookupOk ⟨Shipped.T, U⟩ f (utf8s u) n) {vs : List (List Nat)}
    (hv : StandsFor Shipped.D U f u vs) : ∀ v ∈ vs, (∃ c ∈ v, 0x80 ≤ c) → U.nfc v = some v ∧
      ∀ c ∈ v, c ∈ deviations ∨ casefold Shipped.fold c = [c] ∨
        (f.testBit 5 = false ∧ f.testBit 6 = false ∧ Shipped.D.status c = .std3Mapped) := by
  intro v hm hna
  have hf := C84_valid (World.shipped h) f7 hs h0 ho hv v hm hna
  constructor
  · have hb : (labelTests f).testBit 0 = true := by
      unfold labelTests
      rw [f2]
      cases f.testBit 5 <;> cases f.testBit 6 <;> decide
    cases hn : U.nfc v with
    | none => exact absurd (.nfc hb hn) (hf _)
    | some t =>
      by_cases ht : t = v
      · rw [ht]
      · exact absurd (.notNfc t hb hn ht) (hf _)
  intro c hc
  cases f6 : f.testBit 6 with
  | false =>
    have hb : (labelTests f).testBit 12 = false ∧ (labelTests f).testBit 13 = true ∧
        ((labelTests f).testBit 14 = true ↔ f.testBit 5 = false) := by
      unfold labelTests
      rw [f2, f6]
      cases f.testBit 5 <;> decide
    have ht : Tr46Valid Shipped.D false ((labelTests f).testBit 14) c := Classical.byContradiction
      fun ht => hf _ (.invalidNontransitional c hb.1 hb.2.1 hc ht)
    have key : Shipped.D.status c = .valid ∨ Shipped.D.status c = .std3Valid →
        casefold Shipped.fold c = [c] := by
      intro hx
      rw [← C110_mapping (by rcases hx with hx | hx <;> rw [hx] <;> decide) (valid_nodots hx).1
        (valid_nodots hx).2]
      unfold emit
      rcases hx with hx | hx <;> rw [hx] <;> rfl
    rcases ht with ht | ⟨-, ht⟩ | ⟨h14, ht | ht⟩
    · exact .inr (.inl (key (.inl ht)))
    · exact .inl ((C42_deviations c).mp ht)
    · exact .inr (.inl (key (.inr ht)))
    · exact .inr (.inr ⟨hb.2.2.mp h14, rfl, ht⟩)
  | true =>
    have hb : (labelTests f).testBit 4 = true ∧ (labelTests f).testBit 10 = true ∧
        ¬ ((labelTests f).testBit 12 = true ∨ (labelTests f).testBit 13 = true) := by
      unfold labelTests
      rw [f2, f6]
      cases f.testBit 5 <;> decide
    have hp : Shipped.D.prop c = .pvalid ∨ Shipped.D.prop c = .contextj ∨
        Shipped.D.prop c = .contexto := by
      cases hp : Shipped.D.prop c with
      | pvalid => simp
      | contextj => simp
      | contexto => simp
      | disallowed => exact absurd (.disallowed c hb.1 hc hp fun hx => hb.2.2 hx.1) (hf _)
      | unassigned => exact absurd (.unassigned c hb.2.1 hc hp) (hf _)
    rcases C110_stable hp with h | h
    · exact .inl h
    · exact .inr (.inl h)

/-- The characters of which UTS #46 processing with the flags `f` makes their NFKC_Casefold. -/
structure Folding (f c : Nat) : Prop where
  allowed : Shipped.D.status c ≠ .disallowed
  dot : c ≠ 0x3002 ∧ c ≠ 0xFF61
  deviation : f.testBit 2 = true ∨ c ∉ deviations
  std3 : f.testBit 5 = true → Shipped.D.status c ≠ .std3Valid ∧ Shipped.D.status c ≠ .std3Mapped

theorem folding_flatMap {f : Nat} {u : List Nat} (hu : ∀ c ∈ u, Folding f c) :
    u.flatMap (emit Shipped.D (f.testBit 2) (f.testBit 5)) = u.flatMap (casefold Shipped.fold) := by
  induction u with
  | nil => simp only [List.flatMap_nil]
  | cons c r ih =>
    have h := hu c List.mem_cons_self
    rw [List.flatMap_cons, List.flatMap_cons, ih fun c hc => hu c (List.mem_cons_of_mem _ hc),
      C110_emit _ _ h.allowed h.dot.1 h.dot.2 h.deviation h.std3]

/-- C110.  Two names that are the same after toNFKC_Casefold have the same result or the same error in
lookup with UTS #46 processing. -/
theorem C110_caseless {U : Uni} (h : U.Laws) {f : Nat} (f6 : f.testBit 6 = false) {u v : List Nat}
    (hu : ∀ c ∈ u, isScalar c) (hv : ∀ c ∈ v, isScalar c) (hu0 : 0 ∉ u) (hv0 : 0 ∉ v)
    (hfu : ∀ c ∈ u, Folding f c) (hfv : ∀ c ∈ v, Folding f c)
    (hlu : (u.flatMap (casefold Shipped.fold)).length < 255)
    (hlv : (v.flatMap (casefold Shipped.fold)).length < 255)
    (hm : U.nfc (u.flatMap (casefold Shipped.fold)) = U.nfc (v.flatMap (casefold Shipped.fold))) :
    (∀ n, LookupOk ⟨Shipped.T, U⟩ f (utf8s u) n ↔ LookupOk ⟨Shipped.T, U⟩ f (utf8s v) n) ∧
    ∀ e, LookupErr ⟨Shipped.T, U⟩ f (utf8s u) e ↔ LookupErr ⟨Shipped.T, U⟩ f (utf8s v) e := by
  refine C33_mapped_form (World.shipped h) hu hv hu0 hv0 f6 ?_ ?_ ?_
  · constructor
    · rintro ⟨c, hc, hd⟩; exact absurd hd (hfu c hc).allowed
    · rintro ⟨c, hc, hd⟩; exact absurd hd (hfv c hc).allowed
  · rw [folding_flatMap hfu, folding_flatMap hfv]
    omega
  · rw [folding_flatMap hfu, folding_flatMap hfv]
    exact hm

/-- What lookup makes of a name is what it makes of its NFKC_Casefold. -/
theorem C110_folded {U : Uni} (h : U.Laws) {f : Nat} (f6 : f.testBit 6 = false) {u : List Nat}
    (hu : ∀ c ∈ u, isScalar c) (hu0 : 0 ∉ u) (hfu : ∀ c ∈ u, Folding f c) :
    (∀ n, LookupOk ⟨Shipped.T, U⟩ f (utf8s (u.flatMap (casefold Shipped.fold))) n ↔
      LookupOk ⟨Shipped.T, U⟩ f (utf8s u) n) ∧
    ∀ e, LookupErr ⟨Shipped.T, U⟩ f (utf8s (u.flatMap (casefold Shipped.fold))) e ↔
      LookupErr ⟨Shipped.T, U⟩ f (utf8s u) e := by
  rw [← folding_flatMap hfu]
  exact C81_lookup (World.shipped h) C81_closed hu hu0 f6 id

/-- A Roman numeral in one character, and in letters. -/
example {U : Uni} (h : U.Laws) (n : List Nat) :
    LookupOk ⟨Shipped.T, U⟩ 0 (utf8s [0x2167]) n ↔ LookupOk ⟨Shipped.T, U⟩ 0 (utf8s (str "viii")) n := by
  have hk : Shipped.D.status 0x2167 = .mapped ∧ Shipped.D.mapping 0x2167 = str "viii" := by
    decide +kernel
  have h1 : Folding 0 0x2167 := ⟨by rw [hk.1]; decide, by decide, by decide, by decide⟩
  have e1 : casefold Shipped.fold 0x2167 = str "viii" := by
    rw [← C110_mapping h1.allowed (by decide) (by decide), ← hk.2]
    unfold emit
    rw [hk.1]
  have := (C110_folded h (f := 0) (by decide) (u := [0x2167]) (by unfold isScalar; decide) (by decide)
    (by simpa using h1)).1 n
  rw [List.flatMap_cons, List.flatMap_nil, List.append_nil, e1] at this
  exact this.symm

/-- "A", one quarter and the soft hyphen in the file. -/
example : (casefold (Shipped.fold.take 100) 0x41, casefold (Shipped.fold.take 100) 0xBC,
    casefold (Shipped.fold.take 100) 0xAD) = ([0x61], [0x31, 0x2044, 0x34], []) := by decide +kernel

end Idn2
