import Verif.Proof.GenStream
import Verif.Spec.GenAccept

/-
Reading IdnaMappingTable.txt: what `idna_map` and `genmapdata` hold after the scan.
-/

namespace Idn2
open Spec (Continues entryCount)

/-- `offset` points at the stream of `m`. -/
def StreamAt (gd : List Nat) (offset : Nat) (m : List Nat) : Prop :=
  m ≠ [] → streamOf m <+: gd.drop offset

theorem StreamAt.mono {gd gd' : List Nat} {off : Nat} {m : List Nat} (h : StreamAt gd off m)
    (hp : gd <+: gd') : StreamAt gd' off m := by
  intro hm
  obtain ⟨r, rfl⟩ := hp
  have h := h hm
  by_cases hl : off ≤ gd.length
  · rw [List.drop_append_of_le_length hl]
    exact h.trans (List.prefix_append _ _)
  · rw [List.drop_of_length_le (by omega)] at h
    have := List.prefix_nil.mp h
    cases m with
    | nil => exact absurd rfl hm
    | cons c m =>
      have hpos := cpToStream_length_pos c
      rw [streamOf_cons] at this
      have : (cpToStream c).length = 0 := by rw [(List.append_eq_nil_iff.mp this).1]; rfl
      omega

theorem addMappings_ok {m : List Nat} {map : MapGen} {gd : List Nat}
    (h1 : map.nmappings + m.length ≤ 20) (h2 : gd.length + (streamOf m).length ≤ 16384)
    (hoff : map.nmappings = 0 → map.offset = 0) :
    ∃ off, addMappings map gd m = .ok (⟨map.cp1, map.cp2, map.nmappings + m.length, off,
      map.flag_index, map.flags⟩, gd ++ streamOf m) ∧
      (m = [] → off = map.offset) ∧
      (map.nmappings ≠ 0 → off = map.offset) ∧
      (map.nmappings = 0 → m ≠ [] → off = gd.length) := by
  induction m generalizing map gd with
  | nil => exact ⟨map.offset, by simp [addMappings], fun _ => rfl, fun _ => rfl, fun _ h => absurd rfl h⟩
  | cons c m ih =>
    have hpos := cpToStream_length_pos c
    rw [streamOf_cons, List.length_append] at h2
    rw [List.length_cons] at h1
    unfold addMappings
    rw [if_neg (by omega)]
    by_cases h0 : map.nmappings = 0
    · simp only [h0, ↓reduceIte]
      rw [if_neg (by omega)]
      obtain ⟨off, he, _, h4, _⟩ := ih
        (map := { map with offset := gd.length % 16384, nmappings := (0 + 1) % 32 })
        (gd := gd ++ cpToStream c)
        (by simp only; omega) (by rw [List.length_append]; omega) (by simp)
      refine ⟨off, ?_, by simp, by simp, ?_⟩
      · simp only [streamOf_cons, List.length_cons]
        simp only [] at he
        rw [he]
        simp only [List.append_assoc]
        congr 3
        omega
      · intro _ _
        rw [h4 (by simp)]
        simp only
        omega
    · simp only [h0, ↓reduceIte]
      rw [if_neg (by omega)]
      have e1 : (map.nmappings + 1) % 32 = map.nmappings + 1 := by omega
      obtain ⟨off, he, _, h4, _⟩ := ih
        (map := { map with nmappings := (map.nmappings + 1) % 32 })
        (gd := gd ++ cpToStream c)
        (by simp only; omega) (by rw [List.length_append]; omega) (by simp only; omega)
      refine ⟨off, ?_, by simp, fun _ => h4 (by simp only; omega), fun h => by cases h⟩
      rw [he]
      simp only [streamOf_cons, List.length_cons, List.append_assoc]
      congr 3
      omega

/-- A row of the file is acceptable to the generator. -/
structure RowOk (r : MapRow) : Prop where
  iv : r.first ≤ r.last
  len : r.mapping.length ≤ 20
  cps : ∀ c ∈ r.mapping, c < 4294967296

/-- Bytes taken by the mapping of an entry. -/
def weight (gd : List Nat) (e : MapGen) : Nat :=
  if e.nmappings = 0 then 0 else (cpStreamLen e.nmappings (gd.drop e.offset)).getD 0

theorem weight_of_stream {gd : List Nat} {e : MapGen} {m : List Nat} (hn : e.nmappings = m.length)
    (hs : StreamAt gd e.offset m) : weight gd e = (streamOf m).length := by
  unfold weight
  by_cases h : m = []
  · subst h; simp [hn]
  · have hl : m.length ≠ 0 := by simpa using h
    rw [hn, if_neg hl]
    obtain ⟨r, hr⟩ := hs h
    rw [← hr, cpStreamLen_stream]
    rfl

/-- What is known about one entry. -/
structure EntryOk (done : List MapRow) (gd : List Nat) (e : MapGen) : Prop where
  iv : e.cp1 ≤ e.cp2
  off : e.offset < 16384
  row : ∀ c, e.cp1 ≤ c → c ≤ e.cp2 → ∃ r ∈ done, r.first ≤ c ∧ c ≤ r.last ∧
    e.flags = r.status.bit ∧ e.nmappings = r.mapping.length ∧ StreamAt gd e.offset r.mapping

theorem EntryOk.mono {done done' : List MapRow} {gd gd' : List Nat} {e : MapGen}
    (h : EntryOk done gd e) (hd : ∀ r ∈ done, r ∈ done') (hp : gd <+: gd') :
    EntryOk done' gd' e := by
  refine ⟨h.iv, h.off, fun c h1 h2 => ?_⟩
  obtain ⟨r, hr, a1, a2, a3, a4, a5⟩ := h.row c h1 h2
  exact ⟨r, hd r hr, a1, a2, a3, a4, a5.mono hp⟩

theorem EntryOk.weight_mono {done : List MapRow} {gd gd' : List Nat} {e : MapGen}
    (h : EntryOk done gd e) (hp : gd <+: gd') : weight gd' e = weight gd e := by
  obtain ⟨r, _, _, _, _, a4, a5⟩ := h.row e.cp1 (Nat.le_refl _) h.iv
  rw [weight_of_stream a4 a5, weight_of_stream a4 (a5.mono hp)]

/-- No entry may hold code points of two of the three tables. -/
def NoCross (a b : Nat) : Prop := ¬ (a ≤ 0xFF ∧ 0xFF < b) ∧ ¬ (a ≤ 0xFFFF ∧ 0xFFFF < b)

/-- `entryCount` of the lines read so far, last line first. -/
def runsRev : List MapRow → Nat
  | [] => 0
  | [_] => 1
  | s :: r :: t => (if Continues r s then 0 else 1) + runsRev (r :: t)

/-- State after reading the lines `done` (last line first), which end at `last`. -/
structure ScanInv (done : List MapRow) (st : GenState) : Prop where
  entries : ∀ e ∈ st.map, EntryOk done st.gd e
  sorted : st.map.Pairwise fun a b => b.cp2 < a.cp1
  cover : ∀ r ∈ done, ∀ c, r.first ≤ c → c ≤ r.last → ∃ e ∈ st.map, e.cp1 ≤ c ∧ c ≤ e.cp2
  single : ∀ e ∈ st.map, e.nmappings ≠ 0 → ∃ r ∈ done, e.cp1 = r.first ∧ e.cp2 = r.last
  size : (st.map.map (weight st.gd)).sum = st.gd.length
  count : st.map.length = runsRev done
  head : ∀ e rest r done', st.map = e :: rest → done = r :: done' →
    e.cp2 = r.last ∧ e.flags = r.status.bit ∧ e.nmappings = r.mapping.length
  empty : st.map = [] → done = []

/-- Two consecutive lines: contiguous, and not merged across a table boundary. -/
def AdjOk (r s : MapRow) : Prop :=
  r.last + 1 = s.first ∧
  ((r.last = 0xFF ∨ r.last = 0xFFFF) → ¬ (r.mapping = [] ∧ s.mapping = [] ∧ r.status = s.status))

theorem Status.bit_inj {s t : Status} (h : s.bit = t.bit) : s = t := by
  cases s <;> cases t <;> simp_all [Status.bit]

theorem ScanInv.headRow {done : List MapRow} {st : GenState} (inv : ScanInv done st) {e : MapGen}
    {rest : List MapGen} (he : st.map = e :: rest) : ∃ r done', done = r :: done' ∧
      e.cp2 = r.last ∧ e.flags = r.status.bit ∧ e.nmappings = r.mapping.length := by
  cases hd : done with
  | nil =>
    have h1 := inv.count
    rw [he, hd] at h1
    simp [runsRev] at h1
  | cons r done' =>
    exact ⟨r, done', rfl, inv.head e rest r done' he hd⟩

theorem merge_iff {e : MapGen} {r row : MapRow} (h1 : e.cp2 = r.last) (h2 : e.flags = r.status.bit)
    (h3 : e.nmappings = r.mapping.length) :
    (row.mapping.length = 0 ∧ e.cp2 + 1 = row.first ∧ e.nmappings = 0 ∧ e.flags = row.status.bit) ↔
      Continues r row := by
  unfold Continues
  rw [h1, h2, h3, List.length_eq_zero_iff, List.length_eq_zero_iff]
  constructor
  · rintro ⟨a, b, c, d⟩; exact ⟨b, c, a, Status.bit_inj d⟩
  · rintro ⟨a, b, c, d⟩; exact ⟨c, a, b, by rw [d]⟩

theorem runsRev_pos {row : MapRow} {done : List MapRow} : 0 < runsRev (row :: done) := by
  induction done generalizing row with
  | nil => simp [runsRev]
  | cons r done ih =>
    have := ih (row := r)
    rw [runsRev]
    omega

/-- The next line `row` is acceptable. -/
structure StepOk (done : List MapRow) (used : Nat) (row : MapRow) : Prop where
  iv : row.first ≤ row.last
  order : ∀ r done', done = r :: done' → r.last < row.first
  len : row.mapping.length ≤ 20
  size : used + (streamOf row.mapping).length ≤ 16384
  count : runsRev (row :: done) < 10000

theorem scan_step {done : List MapRow} {st : GenState} (inv : ScanInv done st) {row : MapRow}
    (hr : StepOk done st.gd.length row) :
    ∃ st', read_IdnaMappings st row = .ok st' ∧ ScanInv (row :: done) st' ∧
      st'.gd = st.gd ++ streamOf row.mapping := by
  have hsz := hr.size
  obtain ⟨off, hadd, hoff1, _, hoff2⟩ := addMappings_ok (m := row.mapping)
    (map := ⟨row.first, row.last, 0, 0, 0, row.status.bit⟩) (gd := st.gd)
    (by simpa using hr.len) hsz (by simp)
  simp only [Nat.zero_add] at hadd hoff1 hoff2
  have hpre : st.gd <+: st.gd ++ streamOf row.mapping := List.prefix_append _ _
  have hoffStream : StreamAt (st.gd ++ streamOf row.mapping) off row.mapping := by
    intro hm
    rw [hoff2 trivial hm, List.drop_append_of_le_length (Nat.le_refl _), List.drop_length]
    exact List.prefix_refl _
  have hofflt : off < 16384 := by
    by_cases hm : row.mapping = []
    · rw [hoff1 hm]; omega
    · rw [hoff2 trivial hm]
      cases hrm : row.mapping with
      | nil => exact absurd hrm hm
      | cons c m =>
        have := cpToStream_length_pos c
        rw [hrm, streamOf_cons, List.length_append] at hsz
        omega
  have hlt : ∀ e ∈ st.map, e.cp2 < row.first := by
    intro e he
    cases hm : st.map with
    | nil => rw [hm] at he; cases he
    | cons e' rest =>
      obtain ⟨r, done', hd, h1, _, _⟩ := inv.headRow hm
      have hA1 := hr.order r done' hd
      rw [hm] at he
      rw [List.mem_cons] at he
      rcases he with rfl | he
      · omega
      · have hs := inv.sorted
        rw [hm, List.pairwise_cons] at hs
        have h5 := hs.1 e he
        have h6 := (inv.entries e' (by rw [hm]; simp)).iv
        omega
  have hnew : EntryOk (row :: done) (st.gd ++ streamOf row.mapping)
      ⟨row.first, row.last, row.mapping.length, off, 0, row.status.bit⟩ := by
    refine ⟨hr.iv, hofflt, fun c h1 h2 => ⟨row, by simp, h1, h2, rfl, rfl, hoffStream⟩⟩
  have hold : ∀ e ∈ st.map, EntryOk (row :: done) (st.gd ++ streamOf row.mapping) e := by
    intro e he
    exact (inv.entries e he).mono (fun r hr => by simp [hr]) hpre
  have hwold : (st.map.map (weight (st.gd ++ streamOf row.mapping))) = st.map.map (weight st.gd) := by
    apply List.map_congr_left
    intro e he
    exact (inv.entries e he).weight_mono hpre
  unfold read_IdnaMappings
  have hiv := hr.iv
  rw [if_neg (by omega)]
  have hno : outOfOrder row.first st.map = false := by
    cases hm : st.map with
    | nil => rfl
    | cons e rest =>
      have := hlt e (by rw [hm]; simp)
      simp only [outOfOrder, decide_eq_false_iff_not]
      omega
  rw [hno]
  simp only [Bool.false_eq_true, ↓reduceIte, hadd]
  -- pushing a new entry
  have hpush : st.map.length + 1 = runsRev (row :: done) → ScanInv (row :: done)
      ⟨⟨row.first, row.last, row.mapping.length, off, 0, row.status.bit⟩ :: st.map,
        st.gd ++ streamOf row.mapping⟩ := by
    intro hcount
    refine ⟨?_, ?_, ?_, ?_, ?_, hcount, ?_, ?_⟩
    · intro e he
      simp only [List.mem_cons] at he
      rcases he with rfl | he
      · exact hnew
      · exact hold e he
    · simp only [List.pairwise_cons]
      exact ⟨fun e he => hlt e he, inv.sorted⟩
    · intro r hr' c h1 h2
      simp only [List.mem_cons] at hr'
      rcases hr' with rfl | hr'
      · exact ⟨_, List.mem_cons_self, h1, h2⟩
      · obtain ⟨e, he, h3⟩ := inv.cover r hr' c h1 h2
        exact ⟨e, by simp [he], h3⟩
    · intro e he hn
      simp only [List.mem_cons] at he
      rcases he with rfl | he
      · exact ⟨row, by simp, rfl, rfl⟩
      · obtain ⟨r, hr, h⟩ := inv.single e he hn
        exact ⟨r, by simp [hr], h⟩
    · simp only [List.map_cons, List.sum_cons, hwold, inv.size, List.length_append]
      rw [weight_of_stream (m := row.mapping) rfl hoffStream]
      omega
    · intro e rest r done' he hd
      injection he with he _
      injection hd with hd _
      subst hd
      subst he
      exact ⟨rfl, rfl, rfl⟩
    · intro h; cases h
  have hc := hr.count
  cases hm : st.map with
  | nil =>
    have hd := inv.empty hm
    have h1 : st.map.length + 1 = runsRev (row :: done) := by rw [hm, hd]; rfl
    have h2 := hpush h1
    rw [hm] at h1 h2
    simp only [mergePrev]
    rw [if_neg (by omega)]
    exact ⟨_, rfl, h2, rfl⟩
  | cons prev rest =>
    obtain ⟨r, done', hd, b1, b2, b3⟩ := inv.headRow hm
    have hmi := merge_iff (row := row) b1 b2 b3
    simp only [mergePrev]
    by_cases hmerge : row.mapping.length = 0 ∧ prev.cp2 + 1 = row.first ∧ prev.nmappings = 0 ∧
        prev.flags = row.status.bit
    · rw [if_pos hmerge]
      simp only
      refine ⟨_, rfl, ?_, rfl⟩
      have hcont := hmi.mp hmerge
      obtain ⟨hm0, hm1, hm2, hm3⟩ := hmerge
      have hrm : row.mapping = [] := by simpa using hm0
      have hpo := hold prev (by rw [hm]; simp)
      have hsort := inv.sorted
      rw [hm, List.pairwise_cons] at hsort
      refine ⟨?_, ?_, ?_, ?_, ?_, ?_, ?_, ?_⟩
      · intro e he
        simp only [List.mem_cons] at he
        rcases he with rfl | he
        · refine ⟨?_, hpo.off, ?_⟩
          · have := hpo.iv
            simp only
            omega
          · intro c h1 h2
            simp only at h1 h2 ⊢
            by_cases hcp : c ≤ prev.cp2
            · exact hpo.row c h1 hcp
            · refine ⟨row, by simp, by omega, h2, hm3, by omega, ?_⟩
              intro h; exact absurd hrm h
        · exact hold e (by rw [hm]; simp [he])
      · rw [List.pairwise_cons]
        exact hsort
      · intro r' hr' c h1 h2
        simp only [List.mem_cons] at hr'
        rcases hr' with rfl | hr'
        · refine ⟨_, List.mem_cons_self, ?_, h2⟩
          have := hpo.iv
          simp only
          omega
        · obtain ⟨e, he, h3, h4⟩ := inv.cover r' hr' c h1 h2
          rw [hm, List.mem_cons] at he
          rcases he with rfl | he
          · refine ⟨_, List.mem_cons_self, h3, ?_⟩
            simp only
            omega
          · exact ⟨e, by simp [he], h3, h4⟩
      · intro e he hn
        simp only [List.mem_cons] at he
        rcases he with rfl | he
        · exact absurd hm2 hn
        · obtain ⟨r, hr, h⟩ := inv.single e (by rw [hm]; simp [he]) hn
          exact ⟨r, by simp [hr], h⟩
      · have hsz' := inv.size
        rw [← hwold, hm] at hsz'
        simp only [List.map_cons, List.sum_cons] at hsz' ⊢
        rw [hrm] at hsz' ⊢
        simp only [streamOf_nil, List.append_nil] at hsz' ⊢
        rw [← hsz']
        rfl
      · have := inv.count
        rw [hm, hd] at this
        rw [hd, runsRev, if_pos hcont, ← this]
        simp
      · intro e' rest' r' done'' he hd'
        injection he with he _
        injection hd' with hd' _
        subst hd'
        subst he
        exact ⟨rfl, hm3, by simp only; omega⟩
      · intro h; cases h
    · rw [if_neg hmerge]
      have h1 : st.map.length + 1 = runsRev (row :: done) := by
        have := inv.count
        rw [hd] at this ⊢
        rw [runsRev, if_neg (fun h => hmerge (hmi.mpr h)), this]
        omega
      have h2 := hpush h1
      rw [hm] at h1 h2
      simp only
      rw [if_neg (by omega)]
      exact ⟨_, rfl, h2, rfl⟩

theorem addMappings_le {m : List Nat} {map map' : MapGen} {gd gd' : List Nat}
    (h : addMappings map gd m = .ok (map', gd')) (h1 : map.nmappings ≤ 20)
    (h2 : gd.length ≤ 16384) :
    map.nmappings + m.length ≤ 20 ∧ gd.length + (streamOf m).length ≤ 16384 := by
  induction m generalizing map gd with
  | nil => exact ⟨by simpa using h1, by simpa using h2⟩
  | cons c m ih =>
    unfold addMappings at h
    split at h
    · cases h
    · simp only at h
      generalize hmp : (if map.nmappings = 0 then { map with offset := gd.length % 16384 }
        else map) = mp at h
      have hle : mp.nmappings = map.nmappings := by
        rw [← hmp]
        split <;> rfl
      by_cases hn : mp.nmappings ≥ 20 ∨ gd.length + (cpToStream c).length > 16384
      · rw [if_pos hn] at h; cases h
      · rw [if_neg hn] at h
        have h3 := ih h (by simp only; omega) (by rw [List.length_append]; omega)
        simp only [List.length_append, streamOf_cons, List.length_cons] at h3 ⊢
        omega

/-- When the loop over the mapping field writes out of bounds. -/
theorem addMappings_ub {m : List Nat} {map : MapGen} {gd : List Nat} (h1 : map.nmappings ≤ 20) :
    addMappings map gd m = .ub ↔ ∃ p c s, m = p ++ c :: s ∧ map.nmappings + p.length ≤ 20 ∧
      gd.length + (streamOf p).length < 16384 ∧ (map.nmappings + p.length = 20 ∨
        16384 < gd.length + (streamOf p).length + (cpToStream c).length) := by
  induction m generalizing map gd with
  | nil => simp [addMappings]
  | cons c m ih =>
    unfold addMappings
    by_cases hg : gd.length ≥ 16384
    · rw [if_pos hg]
      simp only [reduceCtorEq, false_iff]
      rintro ⟨p, c', s, _, _, h, _⟩
      omega
    · rw [if_neg hg]
      simp only
      generalize hmp : (if map.nmappings = 0 then { map with offset := gd.length % 16384 }
        else map) = mp
      have hle : mp.nmappings = map.nmappings := by
        rw [← hmp]
        split <;> rfl
      by_cases hn : mp.nmappings ≥ 20 ∨ gd.length + (cpToStream c).length > 16384
      · rw [if_pos hn]
        simp only [true_iff]
        refine ⟨[], c, m, rfl, by simpa using h1, by simpa using hg, ?_⟩
        simp only [List.length_nil, streamOf_nil, Nat.add_zero]
        omega
      · rw [if_neg hn, ih (by simp only; omega)]
        simp only
        have hmod : (mp.nmappings + 1) % 32 = map.nmappings + 1 := by omega
        rw [hmod]
        simp only [List.length_append]
        constructor
        · rintro ⟨p, c', s, e1, e2, e3, e4⟩
          refine ⟨c :: p, c', s, by rw [e1]; rfl, ?_, ?_, ?_⟩ <;>
            simp only [List.length_cons, streamOf_cons, List.length_append] <;> omega
        · rintro ⟨p, c', s, e1, e2, e3, e4⟩
          cases p with
          | nil =>
            simp only [List.nil_append, List.cons.injEq] at e1
            obtain ⟨rfl, rfl⟩ := e1
            simp only [List.length_nil, streamOf_nil, Nat.add_zero] at e2 e3 e4
            omega
          | cons x p =>
            simp only [List.cons_append, List.cons.injEq] at e1
            obtain ⟨rfl, e1⟩ := e1
            simp only [List.length_cons, streamOf_cons, List.length_append] at e2 e3 e4
            exact ⟨p, c', s, e1, by omega, by omega, by omega⟩

theorem read_ub {st : GenState} {row : MapRow} : read_IdnaMappings st row = .ub ↔
    row.first ≤ row.last ∧ outOfOrder row.first st.map = false ∧
      addMappings ⟨row.first, row.last, 0, 0, 0, row.status.bit⟩ st.gd row.mapping = .ub := by
  unfold read_IdnaMappings
  by_cases h1 : row.first > row.last
  · rw [if_pos h1]
    simp only [reduceCtorEq, false_iff]
    omega
  · rw [if_neg h1]
    cases h2 : outOfOrder row.first st.map with
    | true => simp
    | false =>
      have h3 : row.first ≤ row.last := by omega
      simp only [Bool.false_eq_true, ↓reduceIte, h3, true_and]
      cases addMappings ⟨row.first, row.last, 0, 0, 0, row.status.bit⟩ st.gd row.mapping with
      | complaint => simp
      | ub => simp
      | ok x =>
        simp only [reduceCtorEq, iff_false]
        split
        · simp
        · split <;> simp

theorem scan_ub {rows : List MapRow} {st : GenState} : scanMappings st rows = .ub ↔
    ∃ a r b st', rows = a ++ r :: b ∧ scanMappings st a = .ok st' ∧
      read_IdnaMappings st' r = .ub := by
  induction rows generalizing st with
  | nil => simp [scanMappings]
  | cons row rows ih =>
    simp only [scanMappings]
    constructor
    · intro h
      cases hr : read_IdnaMappings st row with
      | complaint => rw [hr] at h; cases h
      | ub => exact ⟨[], row, rows, st, rfl, rfl, hr⟩
      | ok st1 =>
        rw [hr] at h
        obtain ⟨a, r, b, st', e1, e2, e3⟩ := ih.mp h
        exact ⟨row :: a, r, b, st', by rw [e1]; rfl, by simp only [scanMappings, hr, e2], e3⟩
    · rintro ⟨a, r, b, st', e1, e2, e3⟩
      cases a with
      | nil =>
        simp only [List.nil_append, List.cons.injEq] at e1
        obtain ⟨rfl, rfl⟩ := e1
        simp only [scanMappings, GRes.ok.injEq] at e2
        subst e2
        rw [e3]
      | cons x a =>
        simp only [List.cons_append, List.cons.injEq] at e1
        obtain ⟨rfl, e1⟩ := e1
        simp only [scanMappings] at e2
        cases hr : read_IdnaMappings st row with
        | complaint => rw [hr] at e2; cases e2
        | ub => rfl
        | ok st1 =>
          rw [hr] at e2
          exact ih.mpr ⟨a, r, b, st', e1, e2, e3⟩

theorem scan_step_conv {done : List MapRow} {st st' : GenState} (inv : ScanInv done st)
    {row : MapRow} (hg : st.gd.length ≤ 16384) (hc : runsRev done < 10000)
    (h : read_IdnaMappings st row = .ok st') : StepOk done st.gd.length row := by
  unfold read_IdnaMappings at h
  split at h
  · cases h
  rename_i h1
  split at h
  · cases h
  rename_i h2
  cases hadd : addMappings ⟨row.first, row.last, 0, 0, 0, row.status.bit⟩ st.gd row.mapping with
  | complaint => rw [hadd] at h; cases h
  | ub => rw [hadd] at h; cases h
  | ok x =>
    obtain ⟨map, gd⟩ := x
    obtain ⟨a1, a2⟩ := addMappings_le hadd (by simp) hg
    rw [hadd] at h
    simp only at a1 h
    rw [Nat.zero_add] at a1
    obtain ⟨off, hadd', _⟩ := addMappings_ok (m := row.mapping)
      (map := ⟨row.first, row.last, 0, 0, 0, row.status.bit⟩) (gd := st.gd)
      (by simpa using a1) a2 (by simp)
    rw [hadd] at hadd'
    simp only [GRes.ok.injEq, Prod.mk.injEq] at hadd'
    refine ⟨by omega, fun r done' hd => ?_, a1, a2, ?_⟩
    · cases hm : st.map with
      | nil => rw [inv.empty hm] at hd; cases hd
      | cons e rest =>
        have := (inv.head e rest r done' hm hd).1
        rw [hm] at h2
        simp only [outOfOrder, decide_eq_true_eq] at h2
        omega
    · have hcnt := inv.count
      cases hm : st.map with
      | nil => rw [inv.empty hm]; simp [runsRev]
      | cons prev rest =>
        obtain ⟨r, done', hd, b1, b2, b3⟩ := inv.headRow hm
        have hmi := merge_iff (row := row) b1 b2 b3
        rw [hm, hadd'.1] at h
        simp only [mergePrev, Nat.zero_add] at h
        rw [hd, runsRev]
        rw [hd] at hcnt hc
        by_cases hcont : Continues r row
        · rw [if_pos hcont]; omega
        · rw [if_neg hcont]
          rw [if_neg (fun hh => hcont (hmi.mp hh))] at h
          simp only at h
          split at h
          · cases h
          · rw [hm] at hcnt
            omega

/-- All the lines `todo` are acceptable behind the lines `done`. -/
def StepsOk : List MapRow → Nat → List MapRow → Prop
  | _, _, [] => True
  | done, used, row :: todo => StepOk done used row ∧
      StepsOk (row :: done) (used + (streamOf row.mapping).length) todo

theorem scan_steps {todo done : List MapRow} {st : GenState} (inv : ScanInv done st)
    (h : StepsOk done st.gd.length todo) (hg : st.gd.length ≤ 16384) :
    ∃ st', scanMappings st todo = .ok st' ∧ ScanInv (todo.reverse ++ done) st' ∧
      st'.gd.length ≤ 16384 ∧
      st'.gd.length = st.gd.length + (todo.map fun r => (streamOf r.mapping).length).sum := by
  induction todo generalizing done st with
  | nil => exact ⟨st, rfl, inv, hg, rfl⟩
  | cons row todo ih =>
    obtain ⟨h1, h2⟩ := h
    obtain ⟨st', a1, a2, a3⟩ := scan_step inv h1
    have hl : st'.gd.length = st.gd.length + (streamOf row.mapping).length := by
      rw [a3, List.length_append]
    have := h1.size
    obtain ⟨st'', b1, b2, b3, b4⟩ := ih a2 (by rw [hl]; exact h2) (by omega)
    refine ⟨st'', by simp only [scanMappings, a1, b1], ?_, b3, by
      rw [b4, hl, List.map_cons, List.sum_cons, Nat.add_assoc]⟩
    rw [List.reverse_cons, List.append_assoc]
    exact b2

theorem scan_steps_conv {todo done : List MapRow} {st st' : GenState} (inv : ScanInv done st)
    (hg : st.gd.length ≤ 16384) (hc : runsRev done < 10000)
    (h : scanMappings st todo = .ok st') : StepsOk done st.gd.length todo := by
  induction todo generalizing done st with
  | nil => trivial
  | cons row todo ih =>
    simp only [scanMappings] at h
    cases hr : read_IdnaMappings st row with
    | complaint => rw [hr] at h; cases h
    | ub => rw [hr] at h; cases h
    | ok st1 =>
      rw [hr] at h
      have h1 := scan_step_conv inv hg hc hr
      obtain ⟨st2, a1, a2, a3⟩ := scan_step inv h1
      rw [hr] at a1
      injection a1 with a1
      subst a1
      have hl : st1.gd.length = st.gd.length + (streamOf row.mapping).length := by
        rw [a3, List.length_append]
      have := h1.size
      refine ⟨h1, ?_⟩
      rw [← hl]
      exact ih a2 (by omega) h1.count h

theorem scanInv_init : ScanInv [] ⟨[], []⟩ :=
  ⟨by simp, by simp, by simp, by simp, by simp, by simp [runsRev], by simp, by simp⟩

/-- The lines are scanned successfully exactly if each is acceptable behind those before. -/
theorem scan_iff {rows : List MapRow} :
    (∃ st, scanMappings ⟨[], []⟩ rows = .ok st) ↔ StepsOk [] 0 rows := by
  constructor
  · rintro ⟨st, h⟩
    exact scan_steps_conv scanInv_init (by simp) (by simp [runsRev]) h
  · intro h
    obtain ⟨st, h, _⟩ := scan_steps scanInv_init h (by simp)
    exact ⟨st, h⟩

theorem scan_inv {rows : List MapRow} {st : GenState} (h : scanMappings ⟨[], []⟩ rows = .ok st) :
    ScanInv rows.reverse st ∧ st.gd.length ≤ 16384 ∧
      st.gd.length = (rows.map fun r => (streamOf r.mapping).length).sum := by
  obtain ⟨st', h1, h2, h3, h4⟩ := scan_steps scanInv_init (scan_iff.mp ⟨st, h⟩) (by simp)
  rw [h] at h1
  injection h1 with h1
  subst h1
  rw [List.append_nil] at h2
  exact ⟨h2, h3, by simpa using h4⟩

/-! ### The conditions for the whole file -/

theorem runsRev_snoc {rows : List MapRow} {r : MapRow} (h : rows ≠ []) (l : MapRow)
    (hl : rows.getLast h = l) :
    runsRev (rows ++ [r]) = runsRev rows + if Continues r l then 0 else 1 := by
  induction rows with
  | nil => exact absurd rfl h
  | cons a t ih =>
    cases t with
    | nil =>
      simp only [List.getLast_singleton] at hl
      subst hl
      simp only [List.singleton_append, runsRev]
      omega
    | cons b t =>
      have := ih (by simp) (by simpa using hl)
      simp only [List.cons_append, runsRev] at this ⊢
      omega

theorem runsRev_reverse (rows : List MapRow) : runsRev rows.reverse = entryCount rows := by
  induction rows with
  | nil => rfl
  | cons r t ih =>
    cases t with
    | nil => rfl
    | cons s t =>
      rw [List.reverse_cons, runsRev_snoc (by simp) s (by simp), ih, entryCount]
      omega

theorem entryCount_le (rows : List MapRow) : entryCount rows ≤ rows.length := by
  induction rows with
  | nil => simp [entryCount]
  | cons r t ih =>
    cases t with
    | nil => simp [entryCount]
    | cons s t =>
      rw [entryCount, List.length_cons]
      split <;> omega

theorem runsRev_mono {r : MapRow} {done : List MapRow} : runsRev done ≤ runsRev (r :: done) := by
  cases done with
  | nil => simp [runsRev]
  | cons s t => rw [runsRev]; omega

theorem runsRev_le_append (a done : List MapRow) : runsRev done ≤ runsRev (a ++ done) := by
  induction a with
  | nil => exact Nat.le_refl _
  | cons r a ih => exact Nat.le_trans ih (runsRev_mono (done := a ++ done))

theorem stepsOk_iff {todo done : List MapRow} {used : Nat} (hd : runsRev done < 10000)
    (hu : used ≤ 16384) :
    StepsOk done used todo ↔
      (∀ r ∈ todo, r.first ≤ r.last ∧ r.mapping.length ≤ 20) ∧
      (∀ a r s b, done.take 1 ++ todo = a ++ r :: s :: b → r.last < s.first) ∧
      used + (todo.map fun r => (streamOf r.mapping).length).sum ≤ 16384 ∧
      runsRev (todo.reverse ++ done) < 10000 := by
  induction todo generalizing done used with
  | nil =>
    simp only [StepsOk, List.append_nil, true_iff]
    refine ⟨by simp, fun a r s b h => ?_, by simpa using hu, by simpa using hd⟩
    have := congrArg List.length h
    simp only [List.length_take, List.length_append, List.length_cons] at this
    omega
  | cons row todo ih =>
    have hsplit : (∀ a r s b, done.take 1 ++ row :: todo = a ++ r :: s :: b → r.last < s.first) ↔
        (∀ r done', done = r :: done' → r.last < row.first) ∧
        ∀ a r s b, [row] ++ todo = a ++ r :: s :: b → r.last < s.first := by
      cases done with
      | nil => simp
      | cons d done =>
        constructor
        · intro h
          refine ⟨fun r done' he => ?_, fun a r s b he => h (d :: a) r s b (by simpa using he)⟩
          injection he with he _
          subst he
          exact h [] d row todo (by simp)
        · rintro ⟨h1, h2⟩ a r s b he
          cases a with
          | nil =>
            simp only [List.take_succ_cons, List.take_zero, List.cons_append, List.nil_append,
              List.cons.injEq] at he
            obtain ⟨rfl, rfl, _⟩ := he
            exact h1 d done rfl
          | cons x a =>
            simp only [List.take_succ_cons, List.take_zero, List.cons_append, List.nil_append,
              List.cons.injEq] at he
            exact h2 a r s b he.2
    rw [hsplit, StepsOk]
    constructor
    · rintro ⟨h1, h2⟩
      obtain ⟨i1, i2, i3, i4⟩ := (ih h1.count h1.size).mp h2
      refine ⟨?_, ⟨h1.order, i2⟩, ?_, ?_⟩
      · intro r hr
        rcases List.mem_cons.mp hr with rfl | hr
        · exact ⟨h1.iv, h1.len⟩
        · exact i1 r hr
      · rw [List.map_cons, List.sum_cons]; omega
      · rw [List.reverse_cons, List.append_assoc]; exact i4
    · rintro ⟨h1, ⟨h2, h3⟩, h4, h5⟩
      rw [List.map_cons, List.sum_cons] at h4
      rw [List.reverse_cons, List.append_assoc] at h5
      have hs : StepOk done used row := ⟨(h1 row (by simp)).1, h2, (h1 row (by simp)).2, by omega,
        Nat.lt_of_le_of_lt (runsRev_le_append todo.reverse (row :: done)) h5⟩
      exact ⟨hs, (ih hs.count hs.size).mpr
        ⟨fun r hr => h1 r (by simp [hr]), h3, by omega, h5⟩⟩

/-- Conditions on the whole file. -/
structure MapOk (rows : List MapRow) : Prop where
  row : ∀ r ∈ rows, RowOk r ∧ NoCross r.first r.last
  adj : ∀ a r s b, rows = a ++ r :: s :: b → AdjOk r s
  size : (rows.map fun r => (streamOf r.mapping).length).sum ≤ 16384
  count : entryCount rows < 10000

theorem scan_ok {rows : List MapRow} (h : MapOk rows) :
    ∃ st, scanMappings ⟨[], []⟩ rows = .ok st ∧ ScanInv rows.reverse st ∧
      st.gd.length ≤ 16384 := by
  have : StepsOk [] 0 rows := by
    rw [stepsOk_iff (by simp [runsRev]) (by simp)]
    refine ⟨fun r hr => ⟨(h.row r hr).1.iv, (h.row r hr).1.len⟩, fun a r s b he => ?_,
      by simpa using h.size, ?_⟩
    · have := (h.adj a r s b (by simpa using he)).1
      omega
    · rw [List.append_nil, runsRev_reverse]; exact h.count
  obtain ⟨st, hs⟩ := scan_iff.mpr this
  exact ⟨st, hs, (scan_inv hs).1, (scan_inv hs).2.1⟩

end Idn2
