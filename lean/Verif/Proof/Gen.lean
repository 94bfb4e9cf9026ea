import Verif.Proof.GenOut

/-
The generators are correct: the tables they print answer queries as the data files say.
-/

namespace Idn2
open Spec (Continues)

/-- Adjacent elements are in increasing order: decided in one pass. -/
def chainB {α : Type} (r : α → α → Bool) : List α → Bool
  | [] => true
  | [_] => true
  | x :: y :: l => r x y && chainB r (y :: l)

theorem chainB_adj {α : Type} {r : α → α → Bool} {l : List α} (h : chainB r l = true) :
    ∀ a x y b, l = a ++ x :: y :: b → r x y = true := by
  induction l with
  | nil => intro a x y b h; simp at h
  | cons z l ih =>
    intro a x y b he
    cases l with
    | nil =>
      have := congrArg List.length he
      simp at this
      omega
    | cons w l =>
      simp only [chainB, Bool.and_eq_true] at h
      cases a with
      | nil =>
        simp only [List.nil_append, List.cons.injEq] at he
        obtain ⟨rfl, rfl, _⟩ := he
        exact h.1
      | cons a0 a =>
        simp only [List.cons_append, List.cons.injEq] at he
        exact ih h.2 a x y b he.2

/-- Sorted neighbours and proper intervals: sorted. -/
theorem pairwise_of_adj {α : Type} (iv : α → Nat × Nat) (l : List α)
    (hiv : ∀ x ∈ l, (iv x).1 ≤ (iv x).2)
    (h : ∀ a x y b, l = a ++ x :: y :: b → (iv x).2 < (iv y).1) :
    l.Pairwise fun x y => (iv x).2 < (iv y).1 := by
  induction l with
  | nil => exact List.Pairwise.nil
  | cons x l ih =>
    have ih := ih (fun y hy => hiv y (by simp [hy]))
      (fun a u v b he => h (x :: a) u v b (by rw [he]; rfl))
    rw [List.pairwise_cons]
    refine ⟨?_, ih⟩
    cases l with
    | nil => simp
    | cons y l =>
      have h1 := h [] x y l rfl
      intro z hz
      rw [List.mem_cons] at hz
      rcases hz with rfl | hz
      · exact h1
      · rw [List.pairwise_cons] at ih
        have := ih.1 z hz
        have := hiv y (by simp)
        omega

/-- Contiguous intervals cover everything between their ends. -/
theorem cover_of_adj {α : Type} (iv : α → Nat × Nat) (l : List α)
    (h : ∀ a x y b, l = a ++ x :: y :: b → (iv x).2 + 1 = (iv y).1) (c : Nat)
    (h1 : ∃ x, l.head? = some x ∧ (iv x).1 ≤ c) (h2 : ∃ x, l.getLast? = some x ∧ c ≤ (iv x).2) :
    ∃ x ∈ l, (iv x).1 ≤ c ∧ c ≤ (iv x).2 := by
  induction l with
  | nil => obtain ⟨x, hx, _⟩ := h1; cases hx
  | cons x l ih =>
    obtain ⟨x', hx, hxc⟩ := h1
    simp only [List.head?_cons, Option.some.injEq] at hx
    subst hx
    by_cases hc : c ≤ (iv x).2
    · exact ⟨x, by simp, hxc, hc⟩
    · cases l with
      | nil =>
        obtain ⟨z, hz, hz2⟩ := h2
        simp only [List.getLast?_singleton, Option.some.injEq] at hz
        subst hz
        omega
      | cons y l =>
        have h3 := h [] x y l rfl
        obtain ⟨z, hz, hzc⟩ := ih (fun a u v b he => h (x :: a) u v b (by rw [he]; rfl))
          ⟨y, rfl, by omega⟩ (by
            obtain ⟨z, hz, hz2⟩ := h2
            exact ⟨z, by rw [← hz, List.getLast?_cons_cons], hz2⟩)
        exact ⟨z, by simp [hz], hzc⟩

/-- What the generators and the library need of the data files: the lines of the property
file are in order; those of the mapping file are in order, cover the code space, have
mappings of at most 20 code points and at most 16384 bytes in total, and lines of the same
kind do not meet at a table boundary; the NFC_QC lines are disjoint and fewer than 140. -/
structure FilesOk (csv : List CsvRow) (rows : List MapRow) (qc : List QcRow) : Prop where
  csvIv : ∀ r ∈ csv, r.first ≤ r.last
  csvSorted : csv.Pairwise fun x y => x.last < y.first
  map : MapOk rows
  mapTop : ∀ r ∈ rows, r.last ≤ 0x10FFFF
  mapCover : ∀ c, c ≤ 0x10FFFF → ∃ r ∈ rows, r.first ≤ c ∧ c ≤ r.last
  qcIv : ∀ r ∈ qc, r.first ≤ r.last
  qcDisj : qc.Pairwise fun x y => x.last < y.first ∨ y.last < x.first
  qcLen : qc.length < 140

theorem map_key_pairwise {α β : Type} {f : α → β} {R : β → β → Prop} {l l' : List α}
    (h : l'.map f = l.map f) (hp : l.Pairwise fun a b => R (f a) (f b)) :
    l'.Pairwise fun a b => R (f a) (f b) := by
  rw [← List.pairwise_map (f := f)] at hp ⊢
  rw [h]; exact hp

theorem map_key_forall {α β : Type} {f : α → β} {P : β → Prop} {l l' : List α}
    (h : l'.map f = l.map f) (hp : ∀ a ∈ l, P (f a)) : ∀ a ∈ l', P (f a) := by
  intro a ha
  have : f a ∈ l.map f := by rw [← h]; exact List.mem_map_of_mem ha
  obtain ⟨b, hb, hb'⟩ := List.mem_map.mp this
  rw [← hb']; exact hp b hb

theorem map_key_exists {α β : Type} {f : α → β} {P : β → Prop} {l l' : List α}
    (h : l'.map f = l.map f) (hp : ∃ a ∈ l, P (f a)) : ∃ a ∈ l', P (f a) := by
  obtain ⟨a, ha, hpa⟩ := hp
  have : f a ∈ l'.map f := by rw [h]; exact List.mem_map_of_mem ha
  obtain ⟨b, hb, hb'⟩ := List.mem_map.mp this
  exact ⟨b, hb, by rw [hb']; exact hpa⟩

/-- The result, if there is one. -/
def GRes.toOption {α : Type} : GRes α → Option α
  | ok a => some a
  | _ => none

theorem GRes.toOption_ok {α : Type} (a : α) : (GRes.ok a).toOption = some a := rfl

theorem bit_and (s t : Status) : ((s.bit &&& t.bit) == t.bit) = (s == t) := by
  cases s <;> cases t <;> decide

/-- The mapping data of the lines, in bytes. -/
theorem streamOf_bytes (m : List Nat) : (streamOf m).length = (m.map Spec.cpBytes).sum := by
  induction m with
  | nil => rfl
  | cons c m ih =>
    rw [streamOf_cons, List.length_append, List.map_cons, List.sum_cons, ih]
    congr 1
    unfold cpToStream Spec.cpBytes
    repeat' split
    all_goals first | rfl | omega

theorem streams_bytes (rows : List MapRow) :
    (rows.map fun r => (streamOf r.mapping).length).sum =
      Spec.mapBytes rows := by
  unfold Spec.mapBytes
  induction rows with
  | nil => rfl
  | cons r rows ih =>
    rw [List.map_cons, List.sum_cons, ih, List.flatMap_cons, List.map_append, List.sum_append,
      streamOf_bytes]

theorem adj_of_pairwise {α : Type} {R : α → α → Prop} {l : List α} (h : l.Pairwise R) :
    ∀ a x y b, l = a ++ x :: y :: b → R x y := by
  intro a x y b he
  rw [he, List.pairwise_append] at h
  have := h.2.1
  rw [List.pairwise_cons] at this
  exact this.1 y (by simp)

/-- The scan succeeds exactly on files that satisfy the conditions on the mappings. -/
theorem scan_accepts {rows : List MapRow} :
    (∃ st, scanMappings ⟨[], []⟩ rows = .ok st) ↔
      (∀ r ∈ rows, r.first ≤ r.last) ∧ (rows.Pairwise fun r s => r.last < s.first) ∧
      (∀ r ∈ rows, r.mapping.length ≤ 20) ∧
      Spec.mapBytes rows ≤ 16384 ∧ Spec.entryCount rows < 10000 := by
  rw [scan_iff, stepsOk_iff (by simp [runsRev]) (by simp), List.append_nil, runsRev_reverse,
    streams_bytes, Nat.zero_add]
  constructor
  · rintro ⟨h1, h2, h3, h4⟩
    exact ⟨fun r hr => (h1 r hr).1, pairwise_of_adj (fun r : MapRow => (r.first, r.last)) rows
      (fun r hr => (h1 r hr).1) (by simpa using h2), fun r hr => (h1 r hr).2, h3, h4⟩
  · rintro ⟨h1, h2, h3, h4, h5⟩
    exact ⟨fun r hr => ⟨h1 r hr, h3 r hr⟩, by simpa using adj_of_pairwise h2, h4, h5⟩

/-- The part of `main` behind the scan of the mappings succeeds if the lines of NFC_QC do. -/
theorem finish_accepts {rows : List MapRow} {st : GenState}
    (hscan : scanMappings ⟨[], []⟩ rows = .ok st) (qc : List QcRow) (tbl : List IdnaRow) :
    (∃ T, gentr46finish st qc tbl = some T) ↔ (∀ r ∈ qc, r.first ≤ r.last) ∧ qc.length < 140 := by
  obtain ⟨inv, hgd, _⟩ := scan_inv hscan
  have hrev : ∀ e ∈ st.map.reverse, EntryOk rows st.gd e := by
    intro e he
    exact (inv.entries e (by simpa using he)).mono (by simp) (List.prefix_refl _)
  have hp1 := qsort_perm compare_map_by_maplen st.map.reverse
  obtain ⟨l1, data, hcomp, _, hk1, hl1⟩ := compact_ok hgd (qsort compare_map_by_maplen st.map.reverse) []
    (fun e he => hrev e (hp1.subset he)) (by
      have := (hp1.map (weight st.gd)).sum_nat
      rw [this, List.map_reverse, List.sum_reverse, inv.size]
      simp)
  have hp2 := qsort_perm compare_map l1
  obtain ⟨l2, comb, hcb, _⟩ := combine_ok (qsort compare_map l1) []
    (by
      intro e he
      obtain ⟨r, _, _, _, a3, _⟩ := (hl1 e (hp2.subset he)).row e.cp1 (Nat.le_refl _)
        (hl1 e (hp2.subset he)).iv
      rw [a3]; exact bit_mem _) (by simp) (by simp)
  unfold gentr46finish
  simp only [hcomp, hcb]
  split
  · rename_i hn
    simp only [reduceCtorEq, exists_false, false_iff]
    rintro ⟨h1, h2⟩
    rcases hn with hn | hn
    · rw [List.any_eq_true] at hn
      obtain ⟨r, hr, hr2⟩ := hn
      have := h1 r hr
      simp only [decide_eq_true_eq] at hr2
      omega
    · omega
  · rename_i hn
    simp only [Option.some.injEq, exists_eq', true_iff]
    refine ⟨fun r hr => Nat.le_of_not_lt fun hlt => hn (Or.inl ?_),
      Nat.lt_of_not_le fun hle => hn (Or.inr hle)⟩
    rw [List.any_eq_true]
    exact ⟨r, hr, by simpa using hlt⟩

theorem scan_mapAccepted {rows : List MapRow} :
    (∃ st, scanMappings ⟨[], []⟩ rows = .ok st) ↔ Spec.MapAccepted rows := by
  rw [scan_accepts]
  exact ⟨fun ⟨h1, h2, h3, h4, h5⟩ => ⟨h1, h2, h3, h4, h5⟩,
    fun h => ⟨h.range, h.order, h.length, h.bytes, h.count⟩⟩

/-- `gentr46map` prints tables exactly for the files that satisfy the conditions it checks. -/
theorem gentr46map_accepts {rows : List MapRow} {qc : List QcRow} {tbl : List IdnaRow} :
    (∃ T, gentr46map rows qc tbl = .ok T) ↔ Spec.Accepted rows qc := by
  have hno : (¬ ∃ st, scanMappings ⟨[], []⟩ rows = .ok st) → ¬ Spec.Accepted rows qc :=
    fun h ha => h (scan_mapAccepted.mpr ha.toMapAccepted)
  unfold gentr46map
  cases hscan : scanMappings ⟨[], []⟩ rows with
  | complaint => simpa using hno (by rw [hscan]; simp)
  | ub => simpa using hno (by rw [hscan]; simp)
  | ok st =>
    have h := scan_mapAccepted.mp ⟨st, hscan⟩
    have hf := finish_accepts hscan qc tbl
    simp only
    constructor
    · rintro ⟨T, hT⟩
      cases hg : gentr46finish st qc tbl with
      | none => rw [hg] at hT; cases hT
      | some T' =>
        obtain ⟨h1, h2⟩ := hf.mp ⟨T', hg⟩
        exact ⟨h, h1, h2⟩
    · intro ha
      obtain ⟨T, hT⟩ := hf.mpr ⟨ha.qcRange, ha.qcCount⟩
      exact ⟨T, by rw [hT]; rfl⟩

/-- `gentr46map` writes out of bounds exactly for `Overrun`. -/
theorem gentr46map_ub {rows : List MapRow} {qc : List QcRow} {tbl : List IdnaRow} :
    gentr46map rows qc tbl = .ub ↔ Spec.Overrun rows := by
  have h0 : gentr46map rows qc tbl = .ub ↔ scanMappings ⟨[], []⟩ rows = .ub := by
    unfold gentr46map
    cases scanMappings ⟨[], []⟩ rows with
    | complaint => simp
    | ub => simp
    | ok st =>
      simp only [reduceCtorEq, iff_false]
      generalize gentr46finish st qc tbl = x
      cases x <;> simp [GRes.ofOption]
  rw [h0, scan_ub]
  have key : ∀ a st r, scanMappings ⟨[], []⟩ a = .ok st → Spec.MapAccepted a →
      (read_IdnaMappings st r = .ub ↔ r.first ≤ r.last ∧ (∀ s ∈ a, s.last < r.first) ∧
        Spec.Overruns (Spec.mapBytes a) r.mapping) := by
    intro a st r hs ha
    obtain ⟨inv, hgd, hlen⟩ := scan_inv hs
    rw [read_ub, addMappings_ub (by simp)]
    rw [streams_bytes] at hlen
    have ho : outOfOrder r.first st.map = false ↔ ∀ s ∈ a, s.last < r.first := by
      cases hm : st.map with
      | nil =>
        have := inv.empty hm
        rw [List.reverse_eq_nil_iff] at this
        simp [outOfOrder, this]
      | cons e rest =>
        obtain ⟨l, d, hd, h1, _, _⟩ := inv.headRow hm
        have ha2 := List.pairwise_reverse.mpr ha.order
        rw [hd, List.pairwise_cons] at ha2
        have hmem : ∀ s, s ∈ a ↔ s = l ∨ s ∈ d := by
          intro s
          rw [← List.mem_reverse, hd, List.mem_cons]
        have hliv := ha.range l ((hmem l).mpr (Or.inl rfl))
        simp only [outOfOrder, decide_eq_false_iff_not, h1]
        constructor
        · intro h s hs
          rcases (hmem s).mp hs with rfl | hs
          · omega
          · have := ha2.1 s hs
            omega
        · intro h
          have := h l ((hmem l).mpr (Or.inl rfl))
          omega
    rw [ho]
    unfold Spec.Overruns
    simp only [Nat.zero_add, hlen, streamOf_bytes]
    have hc : ∀ c, (cpToStream c).length = Spec.cpBytes c := by
      intro c
      have := streamOf_bytes [c]
      simpa [streamOf_cons] using this
    simp only [hc]
  constructor
  · rintro ⟨a, r, b, st, e1, e2, e3⟩
    have ha := scan_mapAccepted.mp ⟨st, e2⟩
    obtain ⟨k1, k2, k3⟩ := (key a st r e2 ha).mp e3
    exact ⟨a, r, b, e1, ha, k1, k2, k3⟩
  · rintro ⟨a, r, b, e1, ha, k⟩
    obtain ⟨st, e2⟩ := scan_mapAccepted.mpr ha
    exact ⟨a, r, b, st, e1, e2, (key a st r e2 ha).mpr k⟩

/-- No entry spans two tables. -/
theorem scan_noCross {csv : List CsvRow} {rows : List MapRow} {qc : List QcRow} {st : GenState}
    (inv : ScanInv rows.reverse st) (h : Spec.Unchecked csv rows qc) :
    ∀ e ∈ st.map, NoCross e.cp1 e.cp2 := by
  have hone : ∀ B, (B = 0xFF ∨ B = 0xFFFF) → ∀ e ∈ st.map, ¬ (e.cp1 ≤ B ∧ B < e.cp2) := by
    rintro B hB e he ⟨h1, h2⟩
    by_cases hn : e.nmappings = 0
    · obtain ⟨r, hr, r1, r2, r3, r4, _⟩ := (inv.entries e he).row B h1 (by omega)
      obtain ⟨s, hs, s1, s2, s3, s4, _⟩ := (inv.entries e he).row (B + 1) (by omega) (by omega)
      have hr' : r ∈ rows := by simpa using hr
      have hs' : s ∈ rows := by simpa using hs
      have a1 := h.spans r hr'
      have a2 := h.spans s hs'
      unfold Spec.Spans at a1 a2
      have hc : Continues r s := ⟨by omega, List.length_eq_zero_iff.mp (by omega),
        List.length_eq_zero_iff.mp (by omega), Status.bit_inj (by omega)⟩
      have a3 := h.merged r hr' s hs' hc
      unfold Spec.Spans at a3
      omega
    · obtain ⟨r, hr, r1, r2⟩ := inv.single e he hn
      have a1 := h.spans r (by simpa using hr)
      unfold Spec.Spans at a1
      omega
  exact fun e he => ⟨hone 0xFF (Or.inl rfl) e he, hone 0xFFFF (Or.inr rfl) e he⟩

/-- `gentr46map` and `gendata` succeed, and the library's searches in their output agree
with the files. -/
theorem gen_right {csv : List CsvRow} {rows : List MapRow} {qc : List QcRow}
    (ha : Spec.Accepted rows qc) (h : Spec.Unchecked csv rows qc) :
    ∃ T, gentr46map rows qc (gendata csv) = .ok T ∧ Implements T (dataOf csv rows qc) ∧
      T.idna_table = gendata csv ∧
      (∀ c, 0x10FFFF < c → get_idna_map T c = .ok ⟨0, 0, 0, 0, 0⟩) ∧ T.idna_flags ≠ [] := by
  obtain ⟨st, hscan⟩ := scan_accepts.mpr ⟨ha.range, ha.order, ha.length, ha.bytes, ha.count⟩
  obtain ⟨inv, hgd, _⟩ := scan_inv hscan
  have hrev : ∀ e ∈ st.map.reverse, EntryOk rows st.gd e := by
    intro e he
    exact (inv.entries e (by simpa using he)).mono (by simp) (List.prefix_refl _)
  have hp1 := qsort_perm compare_map_by_maplen st.map.reverse
  obtain ⟨l1, data, hcomp, _, hk1, hl1⟩ := compact_ok hgd (qsort compare_map_by_maplen st.map.reverse) []
    (fun e he => hrev e (hp1.subset he)) (by
      have := (hp1.map (weight st.gd)).sum_nat
      rw [this, List.map_reverse, List.sum_reverse, inv.size]
      simp)
  -- facts on keys, first for the scanned list
  have hd0 : (qsort compare_map_by_maplen st.map.reverse).Pairwise fun a b =>
      (fun x y : Nat × Nat × Nat × Nat => x.2.1 < y.1 ∨ y.2.1 < x.1) a.key b.key := by
    refine (hp1.pairwise_iff (fun {x y} h => h.symm)).mpr ?_
    rw [List.pairwise_reverse]
    exact inv.sorted.imp (fun h => Or.inl h)
  have hd1 := map_key_pairwise (R := fun x y : Nat × Nat × Nat × Nat => x.2.1 < y.1 ∨ y.2.1 < x.1) hk1 hd0
  have hx1 := map_key_forall (P := fun k => NoCross k.1 k.2.1) hk1
    (fun e he => scan_noCross inv h e (by simpa using hp1.subset he))
  have hp2 := qsort_perm compare_map l1
  have hs2 : (qsort compare_map l1).Pairwise fun a b => a.cp2 < b.cp1 :=
    qsort_intervals (fun e : MapGen => (e.cp1, e.cp2)) compare_map (fun _ _ => rfl) l1
      (fun e he => (hl1 e he).iv) hd1
  obtain ⟨l2, comb, hcb, _, hk2, hl2⟩ := combine_ok (qsort compare_map l1) []
    (by
      intro e he
      obtain ⟨r, _, _, _, a3, _⟩ := (hl1 e (hp2.subset he)).row e.cp1 (Nat.le_refl _)
        (hl1 e (hp2.subset he)).iv
      rw [a3]; exact bit_mem _) (by simp) (by simp)
  have hs3 : l2.Pairwise fun a b => a.cp2 < b.cp1 :=
    map_key_pairwise (f := MapGen.key2) (R := fun x y => x.2.1 < y.1) hk2 hs2
  have hE2 : ∀ e ∈ l2, EntryOk rows data e := by
    have := map_key_forall (f := MapGen.key2) (P := fun k => EntryOk rows data
      ⟨k.1, k.2.1, k.2.2.1, k.2.2.2.1, 0, k.2.2.2.2⟩) hk2 (by
        intro e he
        have := hl1 e (hp2.subset he)
        exact ⟨this.iv, this.off, this.row⟩)
    intro e he
    have := this e he
    exact ⟨this.iv, this.off, this.row⟩
  have hx2 : ∀ e ∈ l2, NoCross e.cp1 e.cp2 :=
    map_key_forall (f := MapGen.key2) (P := fun k => NoCross k.1 k.2.1) hk2
      (fun e he => hx1 e (hp2.subset he))
  have hiv2 : ∀ e ∈ l2, e.cp1 ≤ e.cp2 := fun e he => (hE2 e he).iv
  have hcover : ∀ c, c ≤ 0x10FFFF → ∃ e ∈ l2, e.cp1 ≤ c ∧ c ≤ e.cp2 := by
    intro c hc
    obtain ⟨r, hr, r1, r2⟩ := (h.total c).mp hc
    obtain ⟨e, he, e1, e2⟩ := inv.cover r (by simpa using hr) c r1 r2
    have h0 : ∃ e ∈ qsort compare_map_by_maplen st.map.reverse,
        (fun k : Nat × Nat × Nat × Nat => k.1 ≤ c ∧ c ≤ k.2.1) e.key :=
      ⟨e, hp1.symm.subset (by simpa using he), e1, e2⟩
    obtain ⟨e, he, h1⟩ := map_key_exists (P := fun k : Nat × Nat × Nat × Nat => k.1 ≤ c ∧ c ≤ k.2.1) hk1 h0
    exact map_key_exists (f := MapGen.key2) (P := fun k => k.1 ≤ c ∧ c ≤ k.2.1) hk2
      ⟨e, hp2.symm.subset he, h1⟩
  have hok : ∀ e ∈ l2, e.nmappings < 32 ∧ e.offset < 16384 ∧ e.flag_index < 8 ∧ e.cp2 ≤ 0x10FFFF ∧
      NoCross e.cp1 e.cp2 := by
    intro e he
    obtain ⟨r, hr, _, a2, _, a4, _⟩ := (hE2 e he).row e.cp2 (hE2 e he).iv (Nat.le_refl _)
    have hlen := ha.length r hr
    have := (h.total r.last).mpr ⟨r, hr, ha.range r hr, Nat.le_refl _⟩
    exact ⟨by omega, (hE2 e he).off, (hl2 e he).1, by omega, hx2 e he⟩
  have hrowsD : rows.Pairwise fun x y => x.last < y.first ∨ y.last < x.first :=
    ha.order.imp fun h => Or.inl h
  refine ⟨⟨gendata csv, comb, print_tr46_map 0x0 0xFF l2, print_tr46_map 0x100 0xFFFF l2,
    print_tr46_map 0x10000 0xFFFFFF l2, data,
    (qsort compare_qc qc).map fun r => (r.first, r.last, r.check)⟩, ?_, ?_, rfl, ?_, ?_⟩
  · unfold gentr46map gentr46finish
    rw [hscan]
    simp only [hcomp, hcb]
    rw [if_neg]
    · rfl
    intro hn
    rcases hn with hn | hn
    · rw [List.any_eq_true] at hn
      obtain ⟨r, hr, hr2⟩ := hn
      have := ha.qcRange r hr
      simp only [decide_eq_true_eq] at hr2
      omega
    · have := ha.qcCount
      omega
  · refine ⟨fun c _ => property_gendata rfl h.csvRange h.csvOrder rows qc c, ?_,
      fun c _ => nfcqc_gen rfl ha.qcRange h.qcOnce csv rows c⟩
    intro c hc
    obtain ⟨e0, he0, c1, c2⟩ := hcover c hc
    have hsearch : ∃ e ∈ l2, e.cp1 ≤ c ∧ c ≤ e.cp2 ∧ ∃ a r,
        get_idna_map ⟨gendata csv, comb, print_tr46_map 0x0 0xFF l2, print_tr46_map 0x100 0xFFFF l2,
    print_tr46_map 0x10000 0xFFFFFF l2, data,
    (qsort compare_qc qc).map fun r => (r.first, r.last, r.check)⟩ c =
          .ok ⟨a, r, e.nmappings, e.offset, e.flag_index⟩ := by
      unfold get_idna_map
      by_cases h8 : c ≤ 0xFF
      · rw [if_pos h8]
        exact search_printed Tab.t8 (by omega) h8 hiv2 hs3 hok he0 c1 c2
      · rw [if_neg h8]
        by_cases h16 : c ≤ 0xFFFF
        · rw [if_pos h16]
          exact search_printed Tab.t16 (by omega) h16 hiv2 hs3 hok he0 c1 c2
        · rw [if_neg h16, if_pos (by omega)]
          exact search_printed Tab.t24 (by omega) (by omega) hiv2 hs3 hok he0 c1 c2
    obtain ⟨e, he, e1, e2, a, r, hget⟩ := hsearch
    obtain ⟨row, hrow, r1, r2, r3, r4, r5⟩ := (hE2 e he).row c e1 e2
    have hfind := find_unique (fun r : MapRow => (r.first, r.last)) hrowsD hrow ⟨r1, r2⟩
    simp only [] at hfind
    refine ⟨_, hget, ?_, ?_, ?_⟩
    · intro s
      unfold map_is
      simp only [(hl2 e he).2]
      simp only [dataOf, hfind]
      rw [r3, bit_and]
    · simp only [dataOf, hfind, r4]
    · simp only [dataOf, hfind, get_map_data, r4]
      by_cases hm : row.mapping = []
      · rw [hm]; rfl
      · obtain ⟨t, ht⟩ := r5 hm
        rw [← ht]
        exact readCps_stream _ (h.words row hrow) t
  · intro c hc
    have hn : ∀ e ∈ l2, ¬ (e.cp1 ≤ c ∧ c ≤ e.cp2) := by
      intro e he
      have := (hok e he).2.2.2.1
      omega
    unfold get_idna_map
    rw [if_neg (by omega), if_neg (by omega)]
    split
    · exact search_printed_none Tab.t24 (by omega) (by omega) hiv2 hs3 hok hn
    · rfl
  · obtain ⟨e, he, _⟩ := hcover 0 (by omega)
    have := (hl2 e he).2
    intro hnil
    simp only at hnil
    rw [hnil] at this
    simp at this

theorem FilesOk.order {csv : List CsvRow} {rows : List MapRow} {qc : List QcRow}
    (h : FilesOk csv rows qc) : rows.Pairwise fun x y => x.last < y.first := by
  refine pairwise_of_adj (fun r : MapRow => (r.first, r.last)) rows
    (fun r hr => (h.map.row r hr).1.iv) ?_
  intro a x y b he
  have := (h.map.adj a x y b he).1
  simp only
  omega

/-- In a list in order, lines without a gap between them are neighbours. -/
theorem neighbours {rows : List MapRow} (hiv : ∀ r ∈ rows, r.first ≤ r.last)
    (ho : rows.Pairwise fun x y => x.last < y.first) {r s : MapRow} (hr : r ∈ rows) (hs : s ∈ rows)
    (he : r.last + 1 = s.first) : ∃ a b, rows = a ++ r :: s :: b := by
  obtain ⟨a, t, rfl⟩ := List.append_of_mem hr
  rw [List.pairwise_append] at ho
  have hrl := hiv r hr
  have hsl := hiv s hs
  rw [List.mem_append] at hs
  rcases hs with hs | hs
  · have := ho.2.2 s hs r (by simp)
    omega
  · rw [List.mem_cons] at hs
    rcases hs with rfl | hs
    · omega
    · cases t with
      | nil => cases hs
      | cons u t =>
        rcases List.mem_cons.mp hs with rfl | hs
        · exact ⟨a, t, rfl⟩
        · have h1 := ho.2.1
          rw [List.pairwise_cons, List.pairwise_cons] at h1
          have h2 := h1.1 u (by simp)
          have h3 := h1.2.1 s hs
          have h4 := hiv u (by simp)
          omega

theorem FilesOk.accepted {csv : List CsvRow} {rows : List MapRow} {qc : List QcRow}
    (h : FilesOk csv rows qc) : Spec.Accepted rows qc :=
  ⟨⟨fun r hr => (h.map.row r hr).1.iv, h.order, fun r hr => (h.map.row r hr).1.len,
    by rw [← streams_bytes]; exact h.map.size, h.map.count⟩, h.qcIv, h.qcLen⟩

theorem FilesOk.unchecked {csv : List CsvRow} {rows : List MapRow} {qc : List QcRow}
    (h : FilesOk csv rows qc) : Spec.Unchecked csv rows qc := by
  refine ⟨h.csvIv, h.csvSorted, fun c => ⟨h.mapCover c, ?_⟩, ?_, ?_,
    fun r hr => (h.map.row r hr).1.cps, h.qcDisj⟩
  · rintro ⟨r, hr, _, h2⟩
    have := h.mapTop r hr
    omega
  · intro r hr
    have := (h.map.row r hr).2
    unfold NoCross at this
    unfold Spec.Spans
    omega
  · rintro r hr s hs ⟨c1, c2, c3, c4⟩
    obtain ⟨a, b, he⟩ := neighbours (fun r hr => (h.map.row r hr).1.iv) h.order hr hs c1
    have h1 := (h.map.adj a r s b he).2
    have h2 := (h.map.row r hr).2
    have h3 := (h.map.row s hs).2
    have h4 := (h.map.row r hr).1.iv
    have h5 := (h.map.row s hs).1.iv
    unfold NoCross at h2 h3
    unfold Spec.Spans
    by_cases hb : r.last = 0xFF ∨ r.last = 0xFFFF
    · exact absurd ⟨c2, c3, c4⟩ (h1 hb)
    · omega

theorem gen_implements {csv : List CsvRow} {rows : List MapRow} {qc : List QcRow}
    (h : FilesOk csv rows qc) :
    ∃ T, gentr46map rows qc (gendata csv) = .ok T ∧ Implements T (dataOf csv rows qc) ∧
      T.idna_table = gendata csv ∧
      (∀ c, 0x10FFFF < c → get_idna_map T c = .ok ⟨0, 0, 0, 0, 0⟩) ∧ T.idna_flags ≠ [] :=
  gen_right h.accepted h.unchecked

/-! ### Deciding the conditions -/

def csvCheck (csv : List CsvRow) : Bool :=
  csv.all (fun r => Nat.ble r.first r.last) && chainB (fun r s => Nat.blt r.last s.first) csv

def streamLenB : List Nat → Nat
  | [] => 0
  | c :: m => (cpToStream c).length + streamLenB m

theorem streamLenB_eq (m : List Nat) : streamLenB m = (streamOf m).length := by
  induction m with
  | nil => rfl
  | cons c m ih => rw [streamOf_cons, List.length_append, streamLenB, ih]

def noCrossB (a b : Nat) : Bool :=
  !(Nat.ble a 0xFF && Nat.blt 0xFF b) && !(Nat.ble a 0xFFFF && Nat.blt 0xFFFF b)

def rowCheck (r : MapRow) : Bool :=
  Nat.ble r.first r.last && Nat.ble r.last 0x10FFFF && Nat.ble r.mapping.length 20 &&
    r.mapping.all (fun c => Nat.blt c 4294967296) && noCrossB r.first r.last

def adjCheck (r s : MapRow) : Bool :=
  Nat.beq (r.last + 1) s.first &&
    !((Nat.beq r.last 0xFF || Nat.beq r.last 0xFFFF) &&
      (r.mapping.isEmpty && s.mapping.isEmpty && Nat.beq r.status.bit s.status.bit))

def mapCheck (rows : List MapRow) : Bool :=
  rows.all rowCheck && chainB adjCheck rows &&
    Nat.ble (rows.foldl (fun n r => n + streamLenB r.mapping) 0) 16384 &&
    Nat.blt rows.length 10000 &&
    (match rows.head? with | some r => Nat.beq r.first 0 | none => false) &&
    (match rows.getLast? with | some r => Nat.beq r.last 0x10FFFF | none => false)

def qcCheck (qc : List QcRow) : Bool :=
  qc.all (fun r => Nat.ble r.first r.last) && Nat.blt qc.length 140 &&
    chainB (fun r s => Nat.blt r.last s.first) (qsort compare_qc qc)

theorem csvCheck_ok {csv : List CsvRow} (h : csvCheck csv = true) :
    (∀ r ∈ csv, r.first ≤ r.last) ∧ csv.Pairwise fun x y => x.last < y.first := by
  simp only [csvCheck, Bool.and_eq_true, List.all_eq_true, Nat.ble_eq] at h
  refine ⟨h.1, pairwise_of_adj (fun r : CsvRow => (r.first, r.last)) csv h.1 ?_⟩
  intro a x y b he
  have := chainB_adj h.2 a x y b he
  simpa using this

theorem foldl_add_sum (l : List MapRow) (f : MapRow → Nat) (n : Nat) :
    l.foldl (fun n r => n + f r) n = n + (l.map f).sum := by
  induction l generalizing n with
  | nil => simp
  | cons x l ih => rw [List.foldl_cons, ih, List.map_cons, List.sum_cons]; omega

theorem mapCheck_ok {rows : List MapRow} (h : mapCheck rows = true) :
    MapOk rows ∧ (∀ r ∈ rows, r.last ≤ 0x10FFFF) ∧
      ∀ c, c ≤ 0x10FFFF → ∃ r ∈ rows, r.first ≤ c ∧ c ≤ r.last := by
  simp only [mapCheck, Bool.and_eq_true, List.all_eq_true, Nat.ble_eq, Nat.blt_eq] at h
  obtain ⟨⟨⟨⟨⟨h1, h2⟩, h3⟩, h4⟩, h5⟩, h6⟩ := h
  have hrow : ∀ r ∈ rows, (r.first ≤ r.last ∧ r.last ≤ 0x10FFFF ∧ r.mapping.length ≤ 20 ∧
      ∀ c ∈ r.mapping, c < 4294967296) ∧ NoCross r.first r.last := by
    intro r hr
    have := h1 r hr
    simp only [rowCheck, Bool.and_eq_true, List.all_eq_true, Nat.ble_eq, Nat.blt_eq, noCrossB,
      Bool.not_eq_true', Bool.and_eq_false_iff] at this
    obtain ⟨⟨⟨⟨a1, a2⟩, a3⟩, a4⟩, a5⟩ := this
    refine ⟨⟨a1, a2, a3, a4⟩, ?_⟩
    unfold NoCross
    simp only [← Bool.not_eq_true, Nat.ble_eq, Nat.blt_eq] at a5
    omega
  have hadj : ∀ a r s b, rows = a ++ r :: s :: b → AdjOk r s := by
    intro a r s b he
    have := chainB_adj h2 a r s b he
    simp only [adjCheck, Bool.and_eq_true, Nat.beq_eq, Bool.not_eq_true',
      ← Bool.not_eq_true, Bool.or_eq_true, List.isEmpty_iff] at this
    refine ⟨this.1, fun hb hm => this.2 ⟨hb, ⟨hm.1, hm.2.1⟩, by rw [hm.2.2]⟩⟩
  refine ⟨⟨fun r hr => ?_, hadj, ?_, Nat.lt_of_le_of_lt (entryCount_le rows) h4⟩, fun r hr => (hrow r hr).1.2.1, ?_⟩
  · have := hrow r hr
    exact ⟨⟨this.1.1, this.1.2.2.1, this.1.2.2.2⟩, this.2⟩
  · rw [foldl_add_sum, Nat.zero_add] at h3
    simpa only [streamLenB_eq] using h3
  · intro c hc
    refine cover_of_adj (fun r : MapRow => (r.first, r.last)) rows ?_ c ?_ ?_
    · intro a x y b he; exact (hadj a x y b he).1
    · cases hh : rows.head? with
      | none => rw [hh] at h5; cases h5
      | some r =>
        rw [hh] at h5
        simp only [Nat.beq_eq] at h5
        exact ⟨r, rfl, by simp only; omega⟩
    · cases hh : rows.getLast? with
      | none => rw [hh] at h6; cases h6
      | some r =>
        rw [hh] at h6
        simp only [Nat.beq_eq] at h6
        exact ⟨r, rfl, by simp only; omega⟩

theorem qcCheck_ok {qc : List QcRow} (h : qcCheck qc = true) :
    (∀ r ∈ qc, r.first ≤ r.last) ∧
      (qc.Pairwise fun x y => x.last < y.first ∨ y.last < x.first) ∧ qc.length < 140 := by
  simp only [qcCheck, Bool.and_eq_true, List.all_eq_true, Nat.ble_eq, Nat.blt_eq] at h
  obtain ⟨⟨h1, h2⟩, h3⟩ := h
  refine ⟨h1, ?_, h2⟩
  have hp := qsort_perm compare_qc qc
  have hs := pairwise_of_adj (fun r : QcRow => (r.first, r.last)) (qsort compare_qc qc)
    (fun r hr => h1 r (hp.subset hr)) (by
      intro a x y b he
      have := chainB_adj h3 a x y b he
      simpa using this)
  exact (hp.pairwise_iff (fun {x y} h => h.symm)).mp (hs.imp fun h => Or.inl h)

theorem filesOk_of_check {csv : List CsvRow} {rows : List MapRow} {qc : List QcRow}
    (h1 : csvCheck csv = true) (h2 : mapCheck rows = true) (h3 : qcCheck qc = true) :
    FilesOk csv rows qc := by
  obtain ⟨a1, a2⟩ := csvCheck_ok h1
  obtain ⟨b1, b2, b3⟩ := mapCheck_ok h2
  obtain ⟨c1, c2, c3⟩ := qcCheck_ok h3
  exact ⟨a1, a2, b1, b2, b3, c1, c2, c3⟩

end Idn2
