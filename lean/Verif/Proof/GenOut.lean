import Verif.Proof.GenScan

/-
Compaction, flag combination and printing of the TR46 map; search in the printed tables.
-/

namespace Idn2

/-! ### Compaction -/

/-- The fields of an entry that compaction leaves alone. -/
def MapGen.key (e : MapGen) : Nat × Nat × Nat × Nat := (e.cp1, e.cp2, e.nmappings, e.flags)

theorem streamOf_pos {m : List Nat} (h : m ≠ []) : 0 < (streamOf m).length := by
  cases m with
  | nil => exact absurd rfl h
  | cons c m =>
    have := cpToStream_length_pos c
    rw [streamOf_cons, List.length_append]
    omega

theorem compact_ok {rows : List MapRow} {gd : List Nat} (hgd : gd.length ≤ 16384)
    (l : List MapGen) (data : List Nat) (hl : ∀ e ∈ l, EntryOk rows gd e)
    (hsz : data.length + (l.map (weight gd)).sum ≤ gd.length) :
    ∃ l' d', compactLoop gd l data = some (l', d') ∧ data <+: d' ∧
      l'.map MapGen.key = l.map MapGen.key ∧ ∀ e ∈ l', EntryOk rows d' e := by
  induction l generalizing data with
  | nil => exact ⟨[], data, rfl, List.prefix_refl _, rfl, by simp⟩
  | cons e l ih =>
    have he := hl e (by simp)
    have hl' : ∀ e ∈ l, EntryOk rows gd e := fun x hx => hl x (by simp [hx])
    simp only [List.map_cons, List.sum_cons] at hsz
    unfold compactLoop
    by_cases h0 : e.nmappings = 0
    · rw [if_pos h0]
      obtain ⟨l', d', h1, h2, h3, h4⟩ := ih data hl' (by omega)
      refine ⟨e :: l', d', by rw [h1]; rfl, h2, by simp [h3], ?_⟩
      intro x hx
      rw [List.mem_cons] at hx
      rcases hx with rfl | hx
      · refine ⟨he.iv, he.off, fun c c1 c2 => ?_⟩
        obtain ⟨r, hr, a1, a2, a3, a4, _⟩ := he.row c c1 c2
        refine ⟨r, hr, a1, a2, a3, a4, fun hm => ?_⟩
        rw [h0] at a4
        exact absurd (List.length_eq_zero_iff.mp a4.symm) hm
      · exact h4 x hx
    · rw [if_neg h0]
      -- the needle is the stream of every row of the entry
      have hneedle : ∀ m, e.nmappings = m.length → StreamAt gd e.offset m →
          cpStreamLen e.nmappings (gd.drop e.offset) = some (streamOf m).length ∧
          (gd.drop e.offset).take (streamOf m).length = streamOf m := by
        intro m hm hs
        have hne : m ≠ [] := by rintro rfl; exact h0 hm
        obtain ⟨r, hr⟩ := hs hne
        rw [← hr, hm, cpStreamLen_stream]
        exact ⟨rfl, by simp⟩
      obtain ⟨r0, _, _, _, _, b4, b5⟩ := he.row e.cp1 (Nat.le_refl _) he.iv
      obtain ⟨n1, n2⟩ := hneedle r0.mapping b4 b5
      have hw := weight_of_stream b4 b5
      have hne0 : r0.mapping ≠ [] := by intro h; rw [h] at b4; exact h0 b4
      have hpos := streamOf_pos hne0
      have hall : ∀ m, e.nmappings = m.length → StreamAt gd e.offset m →
          streamOf m = streamOf r0.mapping := by
        intro m hm hs
        obtain ⟨k1, k2⟩ := hneedle m hm hs
        rw [n1] at k1
        injection k1 with k1
        rw [← k2, ← k1, n2]
      rw [n1]
      simp only [n2]
      cases hmm : u8_memmem (streamOf r0.mapping) data with
      | some p =>
        simp only []
        obtain ⟨p1, p2⟩ := u8_memmem_some hmm
        obtain ⟨l', d', h1, h2, h3, h4⟩ := ih data hl' (by omega)
        have hp : p % 16384 = p := by omega
        refine ⟨{ e with offset := p % 16384 } :: l', d', by rw [h1]; rfl, h2, by simp [h3, MapGen.key], ?_⟩
        intro x hx
        rw [List.mem_cons] at hx
        rcases hx with rfl | hx
        · refine ⟨he.iv, by simp only; omega, fun c c1 c2 => ?_⟩
          obtain ⟨r, hr, a1, a2, a3, a4, a5⟩ := he.row c c1 c2
          refine ⟨r, hr, a1, a2, a3, a4, ?_⟩
          rw [hp]
          refine StreamAt.mono ?_ h2
          intro _
          rw [hall r.mapping a4 a5]
          exact p1
        · exact h4 x hx
      | none =>
        simp only []
        rw [if_neg (by omega)]
        obtain ⟨l', d', h1, h2, h3, h4⟩ := ih (data ++ streamOf r0.mapping) hl'
          (by rw [List.length_append]; omega)
        have hp : data.length % 16384 = data.length := by omega
        refine ⟨{ e with offset := data.length % 16384 } :: l', d', by rw [h1]; rfl,
          (List.prefix_append _ _).trans h2, by simp [h3, MapGen.key], ?_⟩
        intro x hx
        rw [List.mem_cons] at hx
        rcases hx with rfl | hx
        · refine ⟨he.iv, by simp only; omega, fun c c1 c2 => ?_⟩
          obtain ⟨r, hr, a1, a2, a3, a4, a5⟩ := he.row c c1 c2
          refine ⟨r, hr, a1, a2, a3, a4, ?_⟩
          rw [hp]
          refine StreamAt.mono ?_ h2
          intro _
          rw [hall r.mapping a4 a5, List.drop_append_of_le_length (Nat.le_refl _), List.drop_length]
          exact List.prefix_refl _
        · exact h4 x hx

/-! ### Flags -/

theorem nodup_length_le {l s : List Nat} (hd : l.Nodup) (hs : ∀ x ∈ l, x ∈ s) :
    l.length ≤ s.length := by
  induction l generalizing s with
  | nil => simp
  | cons a l ih =>
    rw [List.nodup_cons] at hd
    have ha := hs a (by simp)
    have h1 := ih (s := s.erase a) hd.2 (by
      intro x hx
      have hne : x ≠ a := by rintro rfl; exact hd.1 hx
      exact (List.mem_erase_of_ne hne).mpr (hs x (by simp [hx])))
    rw [List.length_erase_of_mem ha] at h1
    have : 0 < s.length := List.length_pos_of_mem ha
    simp only [List.length_cons]
    omega

/-- The seven flag values. -/
def allBits : List Nat := [1, 2, 4, 8, 16, 32, 64]

theorem bit_mem (s : Status) : s.bit ∈ allBits := by cases s <;> decide

/-- Everything but the flag index. -/
def MapGen.key2 (e : MapGen) : Nat × Nat × Nat × Nat × Nat :=
  (e.cp1, e.cp2, e.nmappings, e.offset, e.flags)

theorem combine_ok (l : List MapGen) (comb : List Nat) (hl : ∀ e ∈ l, e.flags ∈ allBits)
    (hc : ∀ x ∈ comb, x ∈ allBits) (hd : comb.Nodup) :
    ∃ l' c', combineFlags l comb = some (l', c') ∧ comb <+: c' ∧
      l'.map MapGen.key2 = l.map MapGen.key2 ∧
      ∀ e ∈ l', e.flag_index < 8 ∧ c'[e.flag_index]? = some e.flags := by
  induction l generalizing comb with
  | nil => exact ⟨[], comb, rfl, List.prefix_refl _, rfl, by simp⟩
  | cons e l ih =>
    have he := hl e (by simp)
    have hl' : ∀ e ∈ l, e.flags ∈ allBits := fun x hx => hl x (by simp [hx])
    have hlen := nodup_length_le hd hc
    have h7 : allBits.length = 7 := rfl
    unfold combineFlags
    cases hi : comb.idxOf? e.flags with
    | some i =>
      simp only []
      obtain ⟨l', c', h1, h2, h3, h4⟩ := ih comb hl' hc hd
      have hi' : ∃ h : i < comb.length, comb[i] = e.flags := by
        have := List.of_findIdx?_eq_some (p := fun x => x == e.flags) (xs := comb) (i := i) (by
          rw [← hi]; rfl)
        split at this
        · rename_i a ha
          obtain ⟨h, ha⟩ := List.getElem?_eq_some_iff.mp ha
          exact ⟨h, by rw [ha]; simpa using this⟩
        · cases this
      obtain ⟨hlt, hget⟩ := hi'
      refine ⟨{ e with flag_index := i % 8 } :: l', c', by rw [h1]; rfl, h2, by simp [h3, MapGen.key2], ?_⟩
      intro x hx
      rw [List.mem_cons] at hx
      rcases hx with rfl | hx
      · have h8 : i % 8 = i := by omega
        simp only [h8]
        refine ⟨by omega, ?_⟩
        obtain ⟨t, rfl⟩ := h2
        rw [List.getElem?_append_left hlt, List.getElem?_eq_getElem hlt, hget]
      · exact h4 x hx
    | none =>
      simp only []
      rw [List.idxOf?_eq_none_iff] at hi
      rw [if_neg (by omega)]
      obtain ⟨l', c', h1, h2, h3, h4⟩ := ih (comb ++ [e.flags]) hl'
        (by intro x hx; rw [List.mem_append] at hx
            rcases hx with hx | hx
            · exact hc x hx
            · simp only [List.mem_singleton] at hx; rw [hx]; exact he)
        (by
          rw [List.nodup_append]
          refine ⟨hd, by simp, ?_⟩
          intro a ha b hb
          simp only [List.mem_singleton] at hb
          rintro rfl
          exact hi (hb ▸ ha))
      refine ⟨{ e with flag_index := comb.length % 8 } :: l', c', by rw [h1]; rfl,
        (List.prefix_append _ _).trans h2, by simp [h3, MapGen.key2], ?_⟩
      intro x hx
      rw [List.mem_cons] at hx
      rcases hx with rfl | hx
      · have h8 : comb.length % 8 = comb.length := by omega
        simp only [h8]
        refine ⟨by omega, ?_⟩
        obtain ⟨t, rfl⟩ := h2
        simp
      · exact h4 x hx

/-! ### Printing -/

theorem splitEntry_props (cp2 : Nat) (k cp1 : Nat) (h : cp1 ≤ cp2) (hk : k = (cp2 - cp1) / 0x10000) :
    (∀ p ∈ splitEntry cp2 k cp1, cp1 ≤ p.1 ∧ p.1 + p.2 ≤ cp2 ∧ p.2 ≤ 0xFFFF) ∧
    (splitEntry cp2 k cp1).Pairwise (fun p q => p.1 + p.2 < q.1) ∧
    (∀ c, cp1 ≤ c → c ≤ cp2 → ∃ p ∈ splitEntry cp2 k cp1, p.1 ≤ c ∧ c ≤ p.1 + p.2) := by
  induction k generalizing cp1 with
  | zero =>
    simp only [splitEntry, List.mem_singleton, List.pairwise_singleton, true_and]
    refine ⟨?_, ?_⟩
    · rintro p rfl; simp only; omega
    · intro c h1 h2; exact ⟨_, rfl, by simp only; omega, by simp only; omega⟩
  | succ k ih =>
    obtain ⟨i1, i2, i3⟩ := ih (cp1 + 0xFFFF + 1) (by omega) (by omega)
    simp only [splitEntry]
    refine ⟨?_, ?_, ?_⟩
    · intro p hp
      rw [List.mem_cons] at hp
      rcases hp with rfl | hp
      · simp only; omega
      · have := i1 p hp; omega
    · rw [List.pairwise_cons]
      refine ⟨?_, i2⟩
      intro p hp
      have := i1 p hp
      simp only
      omega
    · intro c h1 h2
      by_cases hc : c ≤ cp1 + 0xFFFF
      · exact ⟨_, List.mem_cons_self, h1, hc⟩
      · obtain ⟨p, hp, h3⟩ := i3 c (by omega) h2
        exact ⟨p, List.mem_cons_of_mem _ hp, h3⟩

/-- The records of the table for `[min, max]`. -/
def records (min max : Nat) (l : List MapGen) : List (MapGen × Nat × Nat) :=
  (l.filter fun e => decide (min ≤ e.cp1 ∧ e.cp1 ≤ max)).flatMap fun e =>
    (splitEntry e.cp2 ((e.cp2 - e.cp1) / 0x10000) e.cp1).map fun p => (e, p)

theorem print_records (min max : Nat) (l : List MapGen)
    (hiv : ∀ e ∈ l, e.cp1 ≤ e.cp2) (hs : l.Pairwise fun a b => a.cp2 < b.cp1) :
    print_tr46_map min max l = (records min max l).flatMap fun x => printRecord max x.1 x.2 := by
  induction l with
  | nil => rfl
  | cons e l ih =>
    rw [List.pairwise_cons] at hs
    have ih := ih (fun x hx => hiv x (by simp [hx])) hs.2
    unfold print_tr46_map
    split
    · rw [ih]
      unfold records
      rw [List.filter_cons, if_neg (by simp only [decide_eq_true_eq]; omega)]
    · split
      · have : (e :: l).filter (fun e => decide (min ≤ e.cp1 ∧ e.cp1 ≤ max)) = [] := by
          rw [List.filter_eq_nil_iff]
          intro x hx
          simp only [decide_eq_true_eq]
          rw [List.mem_cons] at hx
          rcases hx with rfl | hx
          · omega
          · have := hs.1 x hx
            have := hiv e (by simp)
            omega
        unfold records
        rw [this]
        rfl
      · rw [ih]
        unfold records
        rw [List.filter_cons, if_pos (by simp only [decide_eq_true_eq]; omega)]
        rw [List.flatMap_cons, List.flatMap_append, List.flatMap_map]

theorem records_mem {min max : Nat} {l : List MapGen} (hiv : ∀ e ∈ l, e.cp1 ≤ e.cp2)
    {x : MapGen × Nat × Nat} (hx : x ∈ records min max l) :
    x.1 ∈ l ∧ min ≤ x.1.cp1 ∧ x.1.cp1 ≤ max ∧ x.1.cp1 ≤ x.2.1 ∧ x.2.1 + x.2.2 ≤ x.1.cp2 ∧
      x.2.2 ≤ 0xFFFF := by
  unfold records at hx
  rw [List.mem_flatMap] at hx
  obtain ⟨e, he, hx⟩ := hx
  rw [List.mem_filter] at he
  rw [List.mem_map] at hx
  obtain ⟨p, hp, rfl⟩ := hx
  have h1 := (splitEntry_props e.cp2 _ e.cp1 (hiv e he.1) rfl).1 p hp
  have h2 := he.2
  simp only [decide_eq_true_eq] at h2
  exact ⟨he.1, h2.1, h2.2, h1⟩

theorem records_sorted {min max : Nat} {l : List MapGen} (hiv : ∀ e ∈ l, e.cp1 ≤ e.cp2)
    (hs : l.Pairwise fun a b => a.cp2 < b.cp1) :
    (records min max l).Pairwise fun x y => x.2.1 + x.2.2 < y.2.1 := by
  induction l with
  | nil => exact List.Pairwise.nil
  | cons e l ih =>
    rw [List.pairwise_cons] at hs
    have hiv' : ∀ e ∈ l, e.cp1 ≤ e.cp2 := fun x hx => hiv x (by simp [hx])
    have ih := ih hiv' hs.2
    have he := hiv e (by simp)
    obtain ⟨s1, s2, _⟩ := splitEntry_props e.cp2 _ e.cp1 he rfl
    by_cases hc : min ≤ e.cp1 ∧ e.cp1 ≤ max
    · have : records min max (e :: l) =
          (splitEntry e.cp2 ((e.cp2 - e.cp1) / 0x10000) e.cp1).map (fun p => (e, p)) ++
            records min max l := by
        unfold records
        rw [List.filter_cons, if_pos (by simpa using hc), List.flatMap_cons]
      rw [this, List.pairwise_append]
      refine ⟨?_, ih, ?_⟩
      · rw [List.pairwise_map]; exact s2
      · intro x hx y hy
        rw [List.mem_map] at hx
        obtain ⟨p, hp, rfl⟩ := hx
        have h1 := s1 p hp
        obtain ⟨y1, _, _, y4, _⟩ := records_mem hiv' hy
        have := hs.1 _ y1
        simp only
        omega
    · have : records min max (e :: l) = records min max l := by
        unfold records
        rw [List.filter_cons, if_neg (by simpa using hc)]
      rw [this]; exact ih

theorem records_cover {min max : Nat} {l : List MapGen} (hiv : ∀ e ∈ l, e.cp1 ≤ e.cp2)
    {e : MapGen} (he : e ∈ l) (h1 : min ≤ e.cp1) (h2 : e.cp1 ≤ max) {c : Nat} (c1 : e.cp1 ≤ c)
    (c2 : c ≤ e.cp2) : ∃ x ∈ records min max l, x.2.1 ≤ c ∧ c ≤ x.2.1 + x.2.2 := by
  obtain ⟨p, hp, h3⟩ := (splitEntry_props e.cp2 _ e.cp1 (hiv e he) rfl).2.2 c c1 c2
  refine ⟨(e, p), ?_, h3⟩
  unfold records
  rw [List.mem_flatMap]
  exact ⟨e, List.mem_filter.mpr ⟨he, by simpa using ⟨h1, h2⟩⟩, List.mem_map.mpr ⟨p, hp, rfl⟩⟩

/-! ### Records in the byte array -/

theorem flatMap_length_const {α : Type} (f : α → List Nat) (size : Nat) (xs : List α)
    (h : ∀ x ∈ xs, (f x).length = size) : (xs.flatMap f).length = size * xs.length := by
  induction xs with
  | nil => simp
  | cons x xs ih =>
    rw [List.flatMap_cons, List.length_append, h x (by simp), ih (fun y hy => h y (by simp [hy])),
      List.length_cons, Nat.mul_succ]
    omega

theorem drop_flatMap {α : Type} (f : α → List Nat) (size : Nat) (xs : List α)
    (h : ∀ x ∈ xs, (f x).length = size) (i : Nat) (x : α) (hi : xs[i]? = some x) :
    ∃ rest, (xs.flatMap f).drop (size * i) = f x ++ rest := by
  induction xs generalizing i with
  | nil => simp at hi
  | cons y xs ih =>
    cases i with
    | zero =>
      simp only [List.getElem?_cons_zero, Option.some.injEq] at hi
      subst hi
      exact ⟨xs.flatMap f, by simp⟩
    | succ i =>
      rw [List.getElem?_cons_succ] at hi
      obtain ⟨rest, hr⟩ := ih (fun z hz => h z (by simp [hz])) i hi
      refine ⟨rest, ?_⟩
      rw [← hr, List.flatMap_cons, List.drop_append, List.drop_of_length_le
        (by rw [h y (by simp), Nat.mul_succ]; omega), h y (by simp), List.nil_append]
      congr 1
      rw [Nat.mul_succ]; omega

/-- Size of a record. -/
def recSize (max : Nat) : Nat := if max = 0xFF then 5 else if max = 0xFFFF then 7 else 8

theorem printRecord_length (max : Nat) (e : MapGen) (p : Nat × Nat) :
    (printRecord max e p).length = recSize max := by
  unfold printRecord recSize
  (repeat' split) <;> rfl

/-- The three tables. -/
inductive Tab : Nat → Nat → Prop where
  | t8 : Tab 0 0xFF
  | t16 : Tab 0x100 0xFFFF
  | t24 : Tab 0x10000 0xFFFFFF

theorem fill_printRecord {min max c : Nat} (ht : Tab min max) (h1 : min ≤ c) (h2 : c ≤ max)
    (e : MapGen) (p : Nat × Nat) (rest : List Nat) (hp1 : p.1 ≤ max) (hp2 : p.2 ≤ 0xFFFF)
    (hp3 : max = 0xFF → p.2 ≤ 0xFF) (hn : e.nmappings < 32) (ho : e.offset < 16384)
    (hf : e.flag_index < 8) :
    fill_map c (printRecord max e p ++ rest) =
      .ok ⟨p.1, p.2, e.nmappings, e.offset, e.flag_index⟩ := by
  cases ht with
  | t8 =>
    have hp3 := hp3 rfl
    unfold fill_map printRecord
    rw [if_pos (by omega)]
    simp only [↓reduceIte, List.cons_append, List.nil_append]
    congr 2 <;> omega
  | t16 =>
    unfold fill_map printRecord
    rw [if_neg (by omega), if_pos (by omega)]
    simp only [↓reduceIte, List.cons_append, List.nil_append, Nat.reduceEqDiff]
    congr 2 <;> omega
  | t24 =>
    unfold fill_map printRecord
    rw [if_neg (by omega), if_neg (by omega)]
    simp only [↓reduceIte, List.cons_append, List.nil_append, Nat.reduceEqDiff]
    congr 2 <;> omega

/-- A search in a printed table that finds nothing. -/
theorem search_printed_none {min max c : Nat} (ht : Tab min max) (h1 : min ≤ c) (h2 : c ≤ max)
    {l : List MapGen} (hiv : ∀ e ∈ l, e.cp1 ≤ e.cp2) (hs : l.Pairwise fun a b => a.cp2 < b.cp1)
    (hok : ∀ e ∈ l, e.nmappings < 32 ∧ e.offset < 16384 ∧ e.flag_index < 8 ∧ e.cp2 ≤ 0x10FFFF ∧
      NoCross e.cp1 e.cp2)
    (hn : ∀ e ∈ l, ¬ (e.cp1 ≤ c ∧ c ≤ e.cp2)) :
    search_idna_map (print_tr46_map min max l) (recSize max) c = .ok ⟨0, 0, 0, 0, 0⟩ := by
  have hfill : ∀ x ∈ records min max l, ∀ rest,
      fill_map c (printRecord max x.1 x.2 ++ rest) =
        .ok ⟨x.2.1, x.2.2, x.1.nmappings, x.1.offset, x.1.flag_index⟩ := by
    intro x hx rest
    obtain ⟨m1, m2, m3, m4, m5, m6⟩ := records_mem hiv hx
    obtain ⟨o1, o2, o3, o4, o5⟩ := hok _ m1
    unfold NoCross at o5
    refine fill_printRecord ht h1 h2 x.1 x.2 rest ?_ m6 ?_ o1 o2 o3
    · cases ht <;> omega
    · intro h; subst h; omega
  have hsz : ∀ x ∈ records min max l, (printRecord max x.1 x.2).length = recSize max :=
    fun x _ => printRecord_length _ _ _
  have hpr := print_records min max l hiv hs
  have hlen : (print_tr46_map min max l).length / recSize max = (records min max l).length := by
    rw [hpr, flatMap_length_const _ _ _ hsz, Nat.mul_div_cancel_left]
    cases ht <;> decide
  have hcmp : ∀ (i : Nat) x, (records min max l)[i]? = some x →
      compare_idna_map c ((print_tr46_map min max l).drop (recSize max * i)) =
        .ok (cmpIv c x.2.1 (x.2.1 + x.2.2)) := by
    intro i x hx
    obtain ⟨rest, hr⟩ := drop_flatMap _ _ _ hsz i x hx
    rw [hpr, hr]
    unfold compare_idna_map
    rw [hfill x (List.mem_of_getElem? hx)]
    rfl
  have key := bsearch_intervals (fun x : MapGen × Nat × Nat => (x.2.1, x.2.1 + x.2.2))
    (records min max l) c (by intro x _; simp only; omega) (records_sorted hiv hs)
    (cmp := fun i => compare_idna_map c ((print_tr46_map min max l).drop (recSize max * i))) hcmp
  unfold search_idna_map
  rw [hlen]
  rcases key with ⟨k, x, hx, hb, k1, k2⟩ | ⟨hb, _⟩
  · obtain ⟨m1, m2, m3, m4, m5, m6⟩ := records_mem hiv (List.mem_of_getElem? hx)
    exact absurd ⟨by simp only at k1; omega, by simp only at k2; omega⟩ (hn _ m1)
  · rw [hb]

/-- Search in a printed table. -/
theorem search_printed {min max c : Nat} (ht : Tab min max) (h1 : min ≤ c) (h2 : c ≤ max)
    {l : List MapGen} (hiv : ∀ e ∈ l, e.cp1 ≤ e.cp2) (hs : l.Pairwise fun a b => a.cp2 < b.cp1)
    (hok : ∀ e ∈ l, e.nmappings < 32 ∧ e.offset < 16384 ∧ e.flag_index < 8 ∧ e.cp2 ≤ 0x10FFFF ∧
      NoCross e.cp1 e.cp2)
    {e : MapGen} (he : e ∈ l) (c1 : e.cp1 ≤ c) (c2 : c ≤ e.cp2) :
    ∃ e' ∈ l, e'.cp1 ≤ c ∧ c ≤ e'.cp2 ∧ ∃ a r,
      search_idna_map (print_tr46_map min max l) (recSize max) c =
        .ok ⟨a, r, e'.nmappings, e'.offset, e'.flag_index⟩ := by
  have hfill : ∀ x ∈ records min max l, ∀ rest,
      fill_map c (printRecord max x.1 x.2 ++ rest) =
        .ok ⟨x.2.1, x.2.2, x.1.nmappings, x.1.offset, x.1.flag_index⟩ := by
    intro x hx rest
    obtain ⟨m1, m2, m3, m4, m5, m6⟩ := records_mem hiv hx
    obtain ⟨o1, o2, o3, o4, o5⟩ := hok _ m1
    unfold NoCross at o5
    refine fill_printRecord ht h1 h2 x.1 x.2 rest ?_ m6 ?_ o1 o2 o3
    · cases ht <;> omega
    · intro h; subst h; omega
  have hsz : ∀ x ∈ records min max l, (printRecord max x.1 x.2).length = recSize max :=
    fun x _ => printRecord_length _ _ _
  have hpr := print_records min max l hiv hs
  have hmin : min ≤ e.cp1 ∧ e.cp1 ≤ max := by
    have := (hok e he).2.2.2.2
    unfold NoCross at this
    cases ht <;> omega
  have hlen : (print_tr46_map min max l).length / recSize max = (records min max l).length := by
    rw [hpr, flatMap_length_const _ _ _ hsz, Nat.mul_div_cancel_left]
    cases ht <;> decide
  have hcmp : ∀ (i : Nat) x, (records min max l)[i]? = some x →
      compare_idna_map c ((print_tr46_map min max l).drop (recSize max * i)) =
        .ok (cmpIv c x.2.1 (x.2.1 + x.2.2)) := by
    intro i x hx
    obtain ⟨rest, hr⟩ := drop_flatMap _ _ _ hsz i x hx
    rw [hpr, hr]
    unfold compare_idna_map
    rw [hfill x (List.mem_of_getElem? hx)]
    rfl
  have key := bsearch_intervals (fun x : MapGen × Nat × Nat => (x.2.1, x.2.1 + x.2.2))
    (records min max l) c (by intro x _; simp only; omega) (records_sorted hiv hs)
    (cmp := fun i => compare_idna_map c ((print_tr46_map min max l).drop (recSize max * i))) hcmp
  unfold search_idna_map
  rw [hlen]
  rcases key with ⟨k, x, hx, hb, k1, k2⟩ | ⟨hb, hn⟩
  · rw [hb]
    have hxm := List.mem_of_getElem? hx
    obtain ⟨m1, m2, m3, m4, m5, m6⟩ := records_mem hiv hxm
    obtain ⟨rest, hr⟩ := drop_flatMap _ _ _ hsz k x hx
    refine ⟨x.1, m1, by simp only at k1; omega, by simp only at k2; omega, x.2.1, x.2.2, ?_⟩
    simp only
    rw [hpr, hr, hfill x hxm]
  · obtain ⟨x, hxm, h3⟩ := records_cover hiv he hmin.1 hmin.2 c1 c2
    exact absurd h3 (hn x hxm)

end Idn2
