import Verif.Model.Gen
import Verif.Proof.Bsearch

/-
Mapping streams written by the generator and read by the library; sorting; search.
-/

namespace Idn2

/-! ### Streams -/

/-- The bytes stored for a sequence of code points. -/
def streamOf (m : List Nat) : List Nat := m.flatMap cpToStream

@[simp] theorem streamOf_nil : streamOf [] = [] := rfl
@[simp] theorem streamOf_cons (c : Nat) (m : List Nat) :
    streamOf (c :: m) = cpToStream c ++ streamOf m := rfl

theorem cpToStream_length_pos (c : Nat) : 0 < (cpToStream c).length := by
  unfold cpToStream; (repeat' split) <;> simp

theorem readCp_stream (c : Nat) (hc : c < 4294967296) (rest : List Nat) :
    readCp (cpToStream c ++ rest) 0 = .ok (c, rest) := by
  unfold cpToStream
  split
  · simp only [List.cons_append, List.nil_append, readCp, u32]
    rw [if_neg (by omega)]
    congr 2
    omega
  · split
    · simp only [List.cons_append, List.nil_append, readCp, u32]
      rw [if_pos (by omega), if_neg (by omega)]
      congr 2
      omega
    · split
      · simp only [List.cons_append, List.nil_append, readCp, u32]
        rw [if_pos (by omega), if_pos (by omega), if_neg (by omega)]
        congr 2
        omega
      · split
        · simp only [List.cons_append, List.nil_append, readCp, u32]
          rw [if_pos (by omega), if_pos (by omega), if_pos (by omega), if_neg (by omega)]
          congr 2
          omega
        · simp only [List.cons_append, List.nil_append, readCp, u32]
          rw [if_pos (by omega), if_pos (by omega), if_pos (by omega), if_pos (by omega),
            if_neg (by omega)]
          congr 2
          omega

theorem readCps_stream (m : List Nat) (hm : ∀ c ∈ m, c < 4294967296) (rest : List Nat) :
    readCps m.length (streamOf m ++ rest) = .ok m := by
  induction m with
  | nil => rfl
  | cons c m ih =>
    simp only [List.length_cons, readCps, streamOf_cons, List.append_assoc]
    rw [readCp_stream c (hm c (by simp))]
    simp only [Res.bind_ok]
    rw [ih (fun c hc => hm c (by simp [hc]))]
    rfl

theorem cpStreamLen_cp (c n : Nat) (rest : List Nat) :
    cpStreamLen (n + 1) (cpToStream c ++ rest) =
      (cpStreamLen n rest).map (· + (cpToStream c).length) := by
  unfold cpToStream
  split
  · simp only [List.cons_append, List.nil_append, cpStreamLen, List.length_cons, List.length_nil]
    rw [if_pos (by omega)]
  · split
    · simp only [List.cons_append, List.nil_append, cpStreamLen, List.length_cons, List.length_nil]
      rw [if_neg (by omega), if_pos (by omega)]
      simp only [Option.map_map]; rfl
    · split
      · simp only [List.cons_append, List.nil_append, cpStreamLen, List.length_cons, List.length_nil]
        rw [if_neg (by omega), if_neg (by omega), if_pos (by omega)]
        simp only [Option.map_map]; rfl
      · split
        · simp only [List.cons_append, List.nil_append, cpStreamLen, List.length_cons,
            List.length_nil]
          rw [if_neg (by omega), if_neg (by omega), if_neg (by omega), if_pos (by omega)]
          simp only [Option.map_map]; rfl
        · simp only [List.cons_append, List.nil_append, cpStreamLen, List.length_cons,
            List.length_nil]
          rw [if_neg (by omega), if_neg (by omega), if_neg (by omega), if_neg (by omega),
            if_pos (by omega)]
          simp only [Option.map_map]; rfl

theorem cpStreamLen_stream (m rest : List Nat) :
    cpStreamLen m.length (streamOf m ++ rest) = some (streamOf m).length := by
  induction m with
  | nil => simp [cpStreamLen]
  | cons c m ih =>
    rw [List.length_cons, streamOf_cons, List.append_assoc, cpStreamLen_cp, ih]
    simp only [Option.map_some, List.length_append]
    rw [Nat.add_comm]

/-! ### memmem -/

theorem u8_memmem_some {needle hay : List Nat} {p : Nat} (h : u8_memmem needle hay = some p) :
    needle <+: hay.drop p ∧ p + needle.length ≤ hay.length := by
  induction hay generalizing p with
  | nil =>
    unfold u8_memmem at h
    split at h
    · rename_i hn; subst hn; injection h with h; subst h; simp
    · cases h
  | cons b r ih =>
    unfold u8_memmem at h
    split at h
    · rename_i hp
      injection h with h; subst h
      have := List.isPrefixOf_iff_prefix.mp hp
      exact ⟨this, by simpa using this.length_le⟩
    · cases hr : u8_memmem needle r with
      | none => rw [hr] at h; cases h
      | some q =>
        rw [hr] at h
        simp only [Option.map_some, Option.some.injEq] at h
        subst h
        obtain ⟨h1, h2⟩ := ih hr
        exact ⟨by simpa using h1, by simp only [List.length_cons]; omega⟩

/-! ### qsort -/

theorem qsortInsert_perm {α : Type} (cmp : α → α → Ordering) (x : α) (l : List α) :
    (qsortInsert cmp x l).Perm (x :: l) := by
  induction l with
  | nil => exact List.Perm.refl _
  | cons y r ih =>
    unfold qsortInsert
    split
    · exact ((ih.cons y).trans (List.Perm.swap x y r))
    · exact List.Perm.refl _

theorem qsort_perm {α : Type} (cmp : α → α → Ordering) (l : List α) : (qsort cmp l).Perm l := by
  induction l with
  | nil => exact List.Perm.refl _
  | cons x r ih => exact (qsortInsert_perm cmp x _).trans (ih.cons x)

/-- Sorting disjoint intervals. -/
theorem qsort_intervals {α : Type} (iv : α → Nat × Nat) (cmp : α → α → Ordering)
    (hcmp : ∀ x y, cmp x y = cmpIv (iv x).1 (iv y).1 (iv y).2) (l : List α)
    (hiv : ∀ x ∈ l, (iv x).1 ≤ (iv x).2)
    (hd : l.Pairwise fun x y => (iv x).2 < (iv y).1 ∨ (iv y).2 < (iv x).1) :
    (qsort cmp l).Pairwise fun x y => (iv x).2 < (iv y).1 := by
  have ins : ∀ (x : α) (l : List α), (iv x).1 ≤ (iv x).2 → (∀ y ∈ l, (iv y).1 ≤ (iv y).2) →
      (∀ y ∈ l, (iv x).2 < (iv y).1 ∨ (iv y).2 < (iv x).1) →
      l.Pairwise (fun x y => (iv x).2 < (iv y).1) →
      (qsortInsert cmp x l).Pairwise fun x y => (iv x).2 < (iv y).1 := by
    intro x l
    induction l with
    | nil => intro _ _ _ _; simp [qsortInsert]
    | cons y r ih =>
      intro hx hl hxd hs
      rw [List.pairwise_cons] at hs
      have hy := hl y (by simp)
      have hxy := hxd y (by simp)
      unfold qsortInsert
      rw [hcmp]
      split
      · rename_i hg
        rw [cmpIv_gt hy] at hg
        rw [List.pairwise_cons]
        refine ⟨?_, ih hx (fun z hz => hl z (by simp [hz])) (fun z hz => hxd z (by simp [hz])) hs.2⟩
        intro z hz
        have hz' := (qsortInsert_perm cmp x r).subset hz
        rw [List.mem_cons] at hz'
        rcases hz' with rfl | hz'
        · exact hg
        · exact hs.1 z hz'
      · rename_i hg
        rw [cmpIv_gt hy] at hg
        have hlt : (iv x).2 < (iv y).1 := by omega
        rw [List.pairwise_cons]
        refine ⟨?_, List.pairwise_cons.mpr hs⟩
        intro z hz
        rw [List.mem_cons] at hz
        rcases hz with rfl | hz
        · exact hlt
        · have := hs.1 z hz
          omega
  induction l with
  | nil => simp [qsort]
  | cons x r ih =>
    rw [List.pairwise_cons] at hd
    refine ins x _ (hiv x (by simp)) ?_ ?_ (ih (fun y hy => hiv y (by simp [hy])) hd.2)
    · intro y hy; exact hiv y (by simp [(qsort_perm cmp r).subset hy])
    · intro y hy; exact hd.1 y ((qsort_perm cmp r).subset hy)

/-! ### find? on disjoint intervals -/

theorem find_unique {α : Type} (iv : α → Nat × Nat) {l : List α} {c : Nat}
    (hd : l.Pairwise fun x y => (iv x).2 < (iv y).1 ∨ (iv y).2 < (iv x).1) {x : α} (hx : x ∈ l)
    (hc : (iv x).1 ≤ c ∧ c ≤ (iv x).2) :
    l.find? (fun r => decide ((iv r).1 ≤ c ∧ c ≤ (iv r).2)) = some x := by
  induction l with
  | nil => cases hx
  | cons y r ih =>
    rw [List.pairwise_cons] at hd
    rw [List.find?_cons]
    rw [List.mem_cons] at hx
    rcases hx with rfl | hx
    · rw [decide_eq_true hc]
    · have := hd.1 x hx
      rw [decide_eq_false (by omega)]
      exact ih hd.2 hx

theorem find_none {α : Type} (iv : α → Nat × Nat) {l : List α} {c : Nat}
    (h : ∀ x ∈ l, ¬ ((iv x).1 ≤ c ∧ c ≤ (iv x).2)) :
    l.find? (fun r => decide ((iv r).1 ≤ c ∧ c ≤ (iv r).2)) = none := by
  rw [List.find?_eq_none]
  intro x hx
  simpa using h x hx

/-! ### The property table -/

theorem property_gendata {T : Tables} {csv : List CsvRow} (hT : T.idna_table = gendata csv)
    (hiv : ∀ r ∈ csv, r.first ≤ r.last) (hs : csv.Pairwise fun x y => x.last < y.first)
    (rows : List MapRow) (qc : List QcRow) (c : Nat) :
    property T c = .ok ((dataOf csv rows qc).prop c) := by
  have hmem : ∀ x ∈ gendata csv, ∃ r ∈ csv, r.prop ≠ .unassigned ∧ x = ⟨r.first, r.last, r.prop⟩ := by
    intro x hx
    unfold gendata at hx
    rw [List.mem_map] at hx
    obtain ⟨r, hr, rfl⟩ := hx
    rw [List.mem_filter] at hr
    exact ⟨r, hr.1, by simpa using hr.2, rfl⟩
  have hs' : (gendata csv).Pairwise fun x y => x.stop < y.start := by
    unfold gendata
    rw [List.pairwise_map]
    exact hs.sublist List.filter_sublist
  have hd : csv.Pairwise fun x y => x.last < y.first ∨ y.last < x.first :=
    hs.imp fun h => Or.inl h
  have key := bsearch_intervals (fun r : IdnaRow => (r.start, r.stop)) (gendata csv) c
    (by intro x hx; obtain ⟨r, hr, _, rfl⟩ := hmem x hx; exact hiv r hr) hs'
    (cmp := rowCmp (gendata csv) c) (by intro i x hx; simp only [rowCmp, hx]; rfl)
  unfold property
  rw [hT]
  rcases key with ⟨k, x, hx, hb, hc⟩ | ⟨hb, hn⟩
  · rw [hb]
    simp only [hx]
    obtain ⟨r, hr, _, rfl⟩ := hmem x (List.mem_of_getElem? hx)
    have hf := find_unique (fun r : CsvRow => (r.first, r.last)) hd hr hc
    simp only [dataOf]
    simp only [] at hf
    rw [hf]
  · rw [hb]
    simp only [dataOf]
    cases hf : csv.find? (fun r => decide (r.first ≤ c ∧ c ≤ r.last)) with
    | none => rfl
    | some r =>
      have hr := List.mem_of_find?_eq_some hf
      have hrc := List.find?_some hf
      simp only [decide_eq_true_eq] at hrc
      by_cases hu : r.prop = .unassigned
      · simp only [hu]
      · exfalso
        refine hn ⟨r.first, r.last, r.prop⟩ ?_ hrc
        unfold gendata
        rw [List.mem_map]
        exact ⟨r, List.mem_filter.mpr ⟨hr, by simpa using hu⟩, rfl⟩

/-! ### The NFC_QC table -/

theorem nfcqc_gen {T : Tables} {qc : List QcRow}
    (hT : T.nfcqc_map = (qsort compare_qc qc).map fun r => (r.first, r.last, r.check))
    (hiv : ∀ r ∈ qc, r.first ≤ r.last)
    (hd : qc.Pairwise fun x y => x.last < y.first ∨ y.last < x.first)
    (csv : List CsvRow) (rows : List MapRow) (c : Nat) :
    get_nfcqc_map T c = .ok ((dataOf csv rows qc).qc c) := by
  have hp := qsort_perm compare_qc qc
  have hs := qsort_intervals (fun r : QcRow => (r.first, r.last)) compare_qc (fun _ _ => rfl) qc hiv hd
  have key := bsearch_intervals (fun r : QcRow => (r.first, r.last)) (qsort compare_qc qc) c
    (fun x hx => hiv x (hp.subset hx)) hs
    (cmp := qcCmp ((qsort compare_qc qc).map fun r => (r.first, r.last, r.check)) c)
    (by intro i x hx; simp only [qcCmp, List.getElem?_map, hx]; rfl)
  unfold get_nfcqc_map
  rw [hT, List.length_map]
  rcases key with ⟨k, x, hx, hb, hc⟩ | ⟨hb, hn⟩
  · rw [hb]
    simp only [List.getElem?_map, hx]
    have hf := find_unique (fun r : QcRow => (r.first, r.last)) hd
      (hp.subset (List.mem_of_getElem? hx)) hc
    simp only [dataOf]
    simp only [] at hf
    rw [hf]
    rfl
  · rw [hb]
    simp only [dataOf]
    have hf := find_none (fun r : QcRow => (r.first, r.last)) (l := qc) (c := c)
      (fun x hx => hn x (hp.symm.subset hx))
    simp only [] at hf
    rw [hf]
    rfl

end Idn2
