import Verif.Spec.Versions
import Verif.Props.BidiName
import Verif.Props.Relax
import Verif.Props.ConformNot

/-
Property C104: the Unicode versions of the data files.
-/

namespace Idn2
open Spec

/-! ### The check -/

/-- What the two lines have in common is newer, if the one says UNASSIGNED and the other does not
say "disallowed". -/
def newerPair (a : CsvRow) (b : MapRow) : Bool :=
  !(a.prop == .unassigned) || b.status == .disallowed ||
    newerRanges.any fun r => Nat.ble r.1 (max a.first b.first) && Nat.ble (min a.last b.last) r.2

/-- The lines of the properties follow each other without gaps. -/
def csvCoverB (csv : List CsvRow) : Bool :=
  chainB (fun a b => Nat.beq (a.last + 1) b.first) csv &&
  (match csv.head? with | some r => Nat.beq r.first 0 | none => false) &&
  (match csv.getLast? with | some r => Nat.beq r.last 0x10FFFF | none => false)

theorem csvCover {csv : List CsvRow} (h : csvCoverB csv = true) {c : Nat} (hc : c ≤ 0x10FFFF) :
    ∃ r ∈ csv, r.first ≤ c ∧ c ≤ r.last := by
  simp only [csvCoverB, Bool.and_eq_true] at h
  obtain ⟨⟨h1, h2⟩, h3⟩ := h
  refine cover_of_adj (fun r : CsvRow => (r.first, r.last)) csv ?_ c ?_ ?_
  · intro a x y b he
    have := chainB_adj h1 a x y b he
    rwa [Nat.beq_eq] at this
  · cases hh : csv.head? with
    | none => rw [hh] at h2; cases h2
    | some r =>
      rw [hh] at h2
      simp only [Nat.beq_eq] at h2
      exact ⟨r, rfl, by simp only; omega⟩
  · cases hh : csv.getLast? with
    | none => rw [hh] at h3; cases h3
    | some r =>
      rw [hh] at h3
      simp only [Nat.beq_eq] at h3
      exact ⟨r, rfl, by simp only; omega⟩

theorem newer_sorted : newerRanges.Pairwise fun x y => x.2 < y.1 := by decide +kernel

theorem Shipped.csv_cover : csvCoverB csv = true := by decide +kernel

theorem Shipped.newer_pairs :
    walk (fun r : CsvRow => (r.first, r.last)) (fun r : MapRow => (r.first, r.last)) newerPair 12000
      csv map = true := by decide +kernel

theorem Shipped.newer_csv :
    walk (fun r : CsvRow => (r.first, r.last)) id (fun a _ => a.prop == .unassigned) 12000
      csv newerRanges = true := by decide +kernel

theorem Shipped.newer_map :
    walk (fun r : MapRow => (r.first, r.last)) id (fun a _ => !(a.status == .disallowed)) 12000
      map newerRanges = true := by decide +kernel

theorem newer_le {c : Nat} (h : Newer c) : 0x80 ≤ c ∧ c ≤ 0x10FFFF := by
  obtain ⟨r, hr, h1, h2⟩ := h
  have : ∀ r ∈ newerRanges, 0x80 ≤ r.1 ∧ r.2 ≤ 0x10FFFF := by decide +kernel
  have := this r hr
  omega

theorem newer_scalar {c : Nat} (h : Newer c) : isScalar c := by
  obtain ⟨r, hr, h1, h2⟩ := h
  have : ∀ r ∈ newerRanges, r.2 < 0xD800 ∨ (0xE000 ≤ r.1 ∧ r.2 ≤ 0x10FFFF) := by decide +kernel
  have := this r hr
  unfold isScalar
  omega

/-- C104, where the two files disagree: just the code points added after Unicode 11 are UNASSIGNED
in the one and not disallowed in the other. -/
theorem C104_disagree (c : Nat) :
    Shipped.D.prop c = .unassigned ∧ Shipped.D.status c ≠ .disallowed ↔ Newer c := by
  have hF := Shipped.files_ok
  by_cases hc : c ≤ 0x10FFFF
  · obtain ⟨a, ha, hac⟩ := csvCover Shipped.csv_cover hc
    obtain ⟨b, hb, hbc⟩ := hF.mapCover c hc
    have e1 : Shipped.D.prop c = a.prop := by
      have := find_unique (fun r : CsvRow => (r.first, r.last))
        (hF.csvSorted.imp fun h => Or.inl h) ha (c := c) hac
      simp only [] at this
      simp only [Shipped.D, dataOf, this]
    have e2 : Shipped.D.status c = b.status := by
      have := find_unique (fun r : MapRow => (r.first, r.last))
        (hF.rowsSorted.imp fun h => Or.inl h) hb (c := c) hbc
      simp only [] at this
      simp only [Shipped.D, dataOf, this]
    rw [e1, e2]
    constructor
    · rintro ⟨h1, h2⟩
      have := walk_ok _ _ _ _ _ _ Shipped.newer_pairs hF.csvSorted hF.rowsSorted ha hb hac hbc
      unfold newerPair at this
      simp only [Bool.or_eq_true, Bool.not_eq_true', beq_eq_false_iff_ne, ne_eq, beq_iff_eq,
        List.any_eq_true, Bool.and_eq_true, Nat.ble_eq] at this
      rcases this with (h | h) | ⟨r, hr, h3, h4⟩
      · exact absurd h1 h
      · exact absurd h h2
      · exact ⟨r, hr, by omega, by omega⟩
    · rintro ⟨r, hr, hrc⟩
      have h1 := walk_ok _ _ _ _ _ _ Shipped.newer_csv hF.csvSorted newer_sorted ha hr hac hrc
      have h2 := walk_ok _ _ _ _ _ _ Shipped.newer_map hF.rowsSorted newer_sorted hb hr hbc hrc
      simp only [beq_iff_eq, Bool.not_eq_true', beq_eq_false_iff_ne, ne_eq] at h1 h2
      exact ⟨h1, h2⟩
  · constructor
    · rintro ⟨-, h⟩
      refine absurd ?_ h
      unfold Shipped.D dataOf
      simp only
      cases hg : Shipped.map.find? (fun r => decide (r.first ≤ c ∧ c ≤ r.last)) with
      | none => rfl
      | some b =>
        have hb := hF.mapTop b (List.mem_of_find?_eq_some hg)
        have := List.find?_some hg
        simp only [decide_eq_true_eq] at this
        omega
    · intro h
      have := newer_le h
      omega

/-- C104.  Without transitional processing no name that stands for a label with such a character
has a result. -/
theorem C104_refused {U : Uni} (h : U.Laws) {f : Nat} (f2 : f.testBit 2 = false)
    (f7 : f.testBit 7 = false) {u n : List Nat} (hs : ∀ c ∈ u, isScalar c) (h0 : 0 ∉ u)
    (ho : LookupOk ⟨Shipped.T, U⟩ f (utf8s u) n) {vs : List (List Nat)}
    (hv : StandsFor Shipped.D U f u vs) : ∀ v ∈ vs, ∀ c ∈ v, ¬ Newer c := by
  intro v hm c hc hn
  refine C84_valid (World.shipped h) f7 hs h0 ho hv v hm ⟨c, hc, (newer_le hn).1⟩ .unassigned ?_
  refine .unassigned c ?_ hc ((C104_disagree c).mpr hn).1
  unfold labelTests
  rw [f2]
  cases f.testBit 5 <;> cases f.testBit 6 <;> decide

/-! ### The length of the encoding of one character -/

theorem digits_length_le (b : Nat) : ∀ m q k, q < 10 ^ m → (Punycode.digits b q k).length ≤ m + 1 := by
  intro m
  induction m with
  | zero =>
    intro q k h
    rw [Punycode.digits]
    have : 1 ≤ Punycode.threshold k b := by unfold Punycode.threshold; omega
    rw [if_pos (by omega)]
    simp
  | succ m ih =>
    intro q k h
    rw [Punycode.digits]
    have h1 : Punycode.threshold k b ≤ 26 := by unfold Punycode.threshold; omega
    split
    · simp
    · simp only [List.length_cons]
      have h2 : (q - Punycode.threshold k b) / (36 - Punycode.threshold k b) ≤ q / 10 :=
        Nat.le_trans (Nat.div_le_div_right (Nat.sub_le _ _)) (Nat.div_le_div_left (by omega) (by omega))
      have h3 : q / 10 < 10 ^ m := by rw [Nat.pow_succ] at h; omega
      have := ih ((q - Punycode.threshold k b) / (36 - Punycode.threshold k b)) (k + 36) (by omega)
      omega

theorem insertions_one {c : Nat} (h1 : 0x80 ≤ c) (h2 : c ≤ 0x10FFFF) :
    Punycode.insertions [c] = [(c, 0)] := by
  unfold Punycode.insertions
  rw [Punycode.insertionsFrom_skip (m := c) h1 (by omega) (by intro x hx; simp at hx; omega),
    Punycode.insertionsFrom_succ _ (by omega),
    Punycode.insertionsFrom_nil (n := c + 1) (by intro x hx; simp at hx; omega)]
  simp [Punycode.insertionsAt]

theorem encode_one_length {c : Nat} (h1 : 0x80 ≤ c) (h2 : c ≤ 0x10FFFF) :
    (Punycode.encode [c]).length ≤ 8 := by
  have hb : Punycode.basics [c] = [] := by
    unfold Punycode.basics
    simp
    omega
  unfold Punycode.encode Punycode.headPart
  rw [hb, insertions_one h1 h2]
  simp only [Punycode.codes, Punycode.init, Punycode.delta, List.length_nil, if_pos, List.append_nil,
    List.nil_append, List.length_map]
  exact digits_length_le 72 7 _ 36 (by omega)

/-! ### The violation -/

/-- UTS #46 has a result for a new character alone, if it is a left-to-right letter that
normalisation does not change. -/
theorem newer_toASCII {U : Uni} {c : Nat} (hc : Newer c) (hv : Shipped.D.status c = .valid)
    (hn : U.nfc [c] = some [c]) (hm : U.isM c = false) (hb : U.bidi c = .L) (tr std3 : Bool) :
    Uts46.ToASCII Shipped.D U tr std3 [c] [[c]] (xn ++ Punycode.encode [c]) := by
  have hle := newer_le hc
  have hst : Uts46.status Shipped.D std3 c = .valid := by unfold Uts46.status; rw [hv]
  have hmap : [c].flatMap (Uts46.mapOne Shipped.D tr std3) = [c] := by
    simp [Uts46.mapOne, hst]
  have hsp : splitDot [c] = [[c]] := by
    have : c ≠ 0x2E := by omega
    simp [splitDot, this]
  have hxn : ¬ xn <+: [c] := by
    intro h
    have := h.length_le
    simp [xn] at this
  have hj : c ≠ 0x200C ∧ c ≠ 0x200D := by
    constructor <;> (rintro rfl; revert hc; decide +kernel)
  have hace : Uts46.ace [c] = xn ++ Punycode.encode [c] := by
    unfold Uts46.ace
    rw [if_neg]
    intro h
    have := h c (by simp)
    omega
  have hlen := encode_one_length hle.1 hle.2
  refine ⟨⟨?_, ⟨[c], by rw [hmap, hn], ?_⟩, ?_⟩, ?_, ?_⟩
  · intro x hx
    obtain rfl : x = c := by simpa using hx
    rw [hst]
    decide
  · rw [hsp]
    refine .cons (.ulabel hxn ⟨hn, by simp, ?_, by simp; omega, ?_, ?_, ?_⟩) .nil
    · unfold NoEdgeHyphen
      simp
      omega
    · intro x hx
      obtain rfl : c = x := by simpa using hx
      exact hm
    · intro x hx
      obtain rfl : x = c := by simpa using hx
      exact .inl hst
    · intro pos x hx h
      have : x ∈ [c] := List.mem_of_getElem? hx
      obtain rfl : x = c := by simpa using this
      rcases h with h | h
      · exact absurd h hj.1
      · exact absurd h hj.2
  · refine bidiName_ltr ?_
    intro v h x hx
    obtain rfl : v = [c] := by simpa using h
    obtain rfl : x = c := by simpa using hx
    rw [hb]
    decide
  · simp [hace, joinDot]
  · have : Uts46.noRoot ([[c]].map Uts46.ace) = [xn ++ Punycode.encode [c]] := by
      simp [Uts46.noRoot, hace, xn]
    constructor
    · rw [this]
      intro d hd
      obtain rfl : d = xn ++ Punycode.encode [c] := by simpa using hd
      simp [xn]
      omega
    · rw [this]
      simp [joinDot, xn]
      omega

/-- C104 is violated: each such character has a result in UTS #46, transitional or not; the
library has it in transitional processing only, and otherwise refuses the character whatever the
flags are (but NO_ALABEL_ROUNDTRIP). -/
theorem C104_violated {U : Uni} (h : U.Laws) {c : Nat} (hc : Newer c)
    (hv : Shipped.D.status c = .valid) (hn : U.nfc [c] = some [c]) (hm : U.isM c = false)
    (hb : U.bidi c = .L) :
    (∀ tr std3, Uts46.ToASCII Shipped.D U tr std3 [c] [[c]] (xn ++ Punycode.encode [c])) ∧
    LookupOk ⟨Shipped.T, U⟩ 4 (utf8s [c]) (xn ++ Punycode.encode [c]) ∧
    ∀ f n, f.testBit 2 = false → f.testBit 7 = false →
      ¬ LookupOk ⟨Shipped.T, U⟩ f (utf8s [c]) n := by
  have hle := newer_le hc
  have hT := newer_toASCII hc hv hn hm hb
  have hsc : ∀ x ∈ [c], isScalar x := by
    intro x hx
    obtain rfl : x = c := by simpa using hx
    exact newer_scalar hc
  have h0 : 0 ∉ [c] := by simp; omega
  refine ⟨hT, ?_, ?_⟩
  · refine C97_complete (World.shipped h) Shipped.ruled (f := 4) (by decide) (by decide) (by decide) hsc h0
      (hT _ _) ?_ ?_
    · intro v hm' _ x hx
      obtain rfl : v = [c] := by simpa using hm'
      obtain rfl : x = c := by simpa using hx
      rw [if_pos (by decide)]
      intro h
      omega
    · have hst : Uts46.status Shipped.D (Nat.testBit 4 5) c = .valid := by unfold Uts46.status; rw [hv]
      simp [Uts46.mapOne, hst]
  · intro f n f2 f7 ho
    obtain ⟨vs, hs, _⟩ := lookup_stands (World.shipped h) f7 hsc h0 ho
    have hno := C104_refused h f2 f7 hsc h0 ho hs
    obtain ⟨x, ws, h1, h2, h3⟩ := hs
    obtain rfl : x = [c] := by
      unfold Processed at h1
      split at h1
      · exact h1
      · have he : [c].flatMap (emit Shipped.D (f.testBit 2) (f.testBit 5)) = [c] := by
          simp [emit, hv]
        have := h1.2.2.1
        rw [he, hn] at this
        injection this with this
        exact this.symm
    have hsp : splitDot [c] = [[c]] := by
      have : c ≠ 0x2E := by omega
      simp [splitDot, this]
    rw [hsp] at h2
    have hxn : ¬ xn <+: [c] := by
      intro h
      have := h.length_le
      simp [xn] at this
    have hw : ws = [[c]] := by
      cases h2 with
      | cons a b =>
        cases b
        rw [a.unique (.other (.inr hxn))]
    subst hw
    have hvs : vs = [[c]] := by
      split at h3
      · cases h3 with
        | cons a b =>
          cases b
          rw [a.unique (norm_self hn)]
      · exact h3
    subst hvs
    exact hno [c] (by simp) c (by simp) hc

/-- U+A7BB, a letter of Unicode 12.0, with a small normaliser that has the laws. -/
example : LookupOk ⟨Shipped.T, Sample.U⟩ 4 (utf8s [0xA7BB]) (xn ++ Punycode.encode [0xA7BB]) ∧
    ∀ n, ¬ LookupOk ⟨Shipped.T, Sample.U⟩ 0 (utf8s [0xA7BB]) n :=
  have h := C104_violated World.sample.uni (c := 0xA7BB) (by decide +kernel) (by decide +kernel)
    (by decide +kernel) (by decide +kernel) (by decide +kernel)
  ⟨h.2.1, fun n => h.2.2 0 n (by decide) (by decide)⟩

/-- The letter in the files, and U+00E4, which both files know. -/
example : Shipped.D.prop 0xA7BB = .unassigned ∧ Shipped.D.status 0xA7BB = .valid ∧
    Shipped.D.prop 0xE4 = .pvalid ∧ ¬ Newer 0xE4 := by decide +kernel

/-- How many there are. -/
example : (newerRanges.map fun r => r.2 + 1 - r.1).sum = 6476 := by decide +kernel

end Idn2
