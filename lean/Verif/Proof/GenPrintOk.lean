import Verif.Proof.GenPrint
import Verif.Proof.GenTextEval

/-
The numbers the generators print fit the types of the arrays; from the texts read to the tables
a C compiler makes of the texts printed.
-/

namespace Idn2
open Spec

/-! ### gentr46map.c -/

/-- Bounds on what the generator keeps. -/
structure Printable (st : GenState) : Prop where
  flags : ∀ e ∈ st.map, e.flags < 256
  top : ∀ e ∈ st.map, e.cp2 ≤ 0x10FFFF
  bytes : ∀ b ∈ st.gd, b < 256
  gdLen : st.gd.length ≤ 16384
  mapLen : st.map.length ≤ 10000

theorem cpToStream_lt (cp : Nat) : ∀ b ∈ cpToStream cp, b < 256 := by
  intro b hb
  unfold cpToStream at hb
  (repeat' split at hb) <;> simp only [List.mem_cons, List.not_mem_nil, or_false] at hb <;> omega

theorem addMappings_bounds {m : List Nat} {map map' : MapGen} {gd gd' : List Nat}
    (h : addMappings map gd m = .ok (map', gd')) (hb : ∀ b ∈ gd, b < 256)
    (hl : gd.length ≤ 16384) :
    map'.flags = map.flags ∧ map'.cp2 = map.cp2 ∧ (∀ b ∈ gd', b < 256) ∧ gd'.length ≤ 16384 := by
  induction m generalizing map gd with
  | nil =>
    simp only [addMappings, GRes.ok.injEq, Prod.mk.injEq] at h
    obtain ⟨rfl, rfl⟩ := h
    exact ⟨rfl, rfl, hb, hl⟩
  | cons cp r ih =>
    unfold addMappings at h
    split at h
    · cases h
    · generalize hm : (if map.nmappings = 0 then { map with offset := gd.length % 16384 }
        else map) = m0 at h
      have e1 : m0.flags = map.flags ∧ m0.cp2 = map.cp2 := by
        rw [← hm]; split <;> exact ⟨rfl, rfl⟩
      dsimp only at h
      split at h
      · cases h
      · rename_i h1 h2
        obtain ⟨a, b, c, d⟩ := ih h (fun b hb' => by
          rcases List.mem_append.mp hb' with hb' | hb'
          · exact hb b hb'
          · exact cpToStream_lt cp b hb') (by rw [List.length_append]; omega)
        exact ⟨a.trans e1.1, b.trans e1.2, c, d⟩

theorem bit_lt (s : Status) : s.bit < 256 := by cases s <;> decide

theorem read_printable {st st' : GenState} {row : MapRow}
    (h : read_IdnaMappings st row = .ok st') (hp : Printable st) (hr : row.last ≤ 0x10FFFF) :
    Printable st' := by
  unfold read_IdnaMappings at h
  split at h
  · cases h
  split at h
  · cases h
  cases ha : addMappings ⟨row.first, row.last, 0, 0, 0, row.status.bit⟩ st.gd row.mapping with
  | complaint => rw [ha] at h; cases h
  | ub => rw [ha] at h; cases h
  | ok x =>
    obtain ⟨map, gd⟩ := x
    rw [ha] at h
    simp only at h
    obtain ⟨b1, b2, b3, b4⟩ := addMappings_bounds ha hp.bytes hp.gdLen
    cases hm : mergePrev map st.map with
    | some l =>
      rw [hm] at h
      simp only [GRes.ok.injEq] at h
      subst h
      unfold mergePrev at hm
      cases hst : st.map with
      | nil => rw [hst] at hm; cases hm
      | cons prev rest =>
        rw [hst] at hm
        simp only at hm
        split at hm
        · injection hm with hm
          subst hm
          refine ⟨?_, ?_, b3, b4, ?_⟩
          · intro e he
            rcases List.mem_cons.mp he with rfl | he
            · exact hp.flags prev (by rw [hst]; simp)
            · exact hp.flags e (by rw [hst]; simp [he])
          · intro e he
            rcases List.mem_cons.mp he with rfl | he
            · show map.cp2 ≤ _
              rw [b2]; exact hr
            · exact hp.top e (by rw [hst]; simp [he])
          · have := hp.mapLen
            rw [hst] at this
            simpa using this
        · cases hm
    | none =>
      rw [hm] at h
      simp only at h
      split at h
      · cases h
      · injection h with h
        subst h
        refine ⟨?_, ?_, b3, b4, ?_⟩
        · intro e he
          rcases List.mem_cons.mp he with rfl | he
          · rw [b1]; exact bit_lt _
          · exact hp.flags e he
        · intro e he
          rcases List.mem_cons.mp he with rfl | he
          · rw [b2]; exact hr
          · exact hp.top e he
        · simp only [List.length_cons]; omega

theorem scan_printable {rows : List MapRow} {st st' : GenState}
    (h : scanMappings st rows = .ok st') (hp : Printable st)
    (hr : ∀ r ∈ rows, r.last ≤ 0x10FFFF) : Printable st' := by
  induction rows generalizing st with
  | nil => simp only [scanMappings, GRes.ok.injEq] at h; exact h ▸ hp
  | cons row r ih =>
    simp only [scanMappings] at h
    cases hx : read_IdnaMappings st row with
    | complaint => rw [hx] at h; cases h
    | ub => rw [hx] at h; cases h
    | ok st1 =>
      rw [hx] at h
      exact ih h (read_printable hx hp (hr row (by simp))) fun x hx => hr x (by simp [hx])

theorem compact_bounds {gd : List Nat} {l l' : List MapGen} {data data' : List Nat}
    (h : compactLoop gd l data = some (l', data')) (hg : ∀ b ∈ gd, b < 256)
    (hd : ∀ b ∈ data, b < 256) (hl : data.length ≤ gd.length) :
    (∀ b ∈ data', b < 256) ∧ data'.length ≤ gd.length ∧
      l'.map (fun e => (e.cp1, e.cp2, e.flags)) = l.map (fun e => (e.cp1, e.cp2, e.flags)) := by
  induction l generalizing data l' with
  | nil =>
    simp only [compactLoop, Option.some.injEq, Prod.mk.injEq] at h
    obtain ⟨rfl, rfl⟩ := h
    exact ⟨hd, hl, rfl⟩
  | cons map r ih =>
    have next : ∀ {d : List Nat} {m : MapGen} (_ : ∀ b ∈ d, b < 256) (_ : d.length ≤ gd.length)
        (_ : (m.cp1, m.cp2, m.flags) = (map.cp1, map.cp2, map.flags)),
        (compactLoop gd r d).map (fun x => (m :: x.1, x.2)) = some (l', data') →
        (∀ b ∈ data', b < 256) ∧ data'.length ≤ gd.length ∧
        l'.map (fun e => (e.cp1, e.cp2, e.flags)) =
          (map :: r).map (fun e => (e.cp1, e.cp2, e.flags)) := by
      intro d m h1 h2 h3 h
      cases hc : compactLoop gd r d with
      | none => rw [hc] at h; cases h
      | some x =>
        rw [hc] at h
        simp only [Option.map_some, Option.some.injEq, Prod.mk.injEq] at h
        obtain ⟨rfl, rfl⟩ := h
        obtain ⟨a, b, c⟩ := ih (l' := x.1) hc h1 h2
        exact ⟨a, b, by simp only [List.map_cons, c, h3]⟩
    unfold compactLoop at h
    split at h
    · exact next hd hl rfl h
    · cases hs : cpStreamLen map.nmappings (gd.drop map.offset) with
      | none => rw [hs] at h; cases h
      | some slen =>
        rw [hs] at h
        simp only at h
        cases hu : u8_memmem ((gd.drop map.offset).take slen) data with
        | some p =>
          rw [hu] at h
          exact next (m := { map with offset := p % 16384 }) hd hl rfl h
        | none =>
          rw [hu] at h
          simp only at h
          split at h
          · cases h
          · refine next (m := { map with offset := data.length % 16384 }) ?_ ?_ rfl h
            · intro b hb
              rcases List.mem_append.mp hb with hb | hb
              · exact hd b hb
              · exact hg b (List.mem_of_mem_drop (List.mem_of_mem_take hb))
            · rw [List.length_append, List.length_take]; omega

theorem combine_bounds {l l' : List MapGen} {comb comb' : List Nat}
    (h : combineFlags l comb = some (l', comb')) (hf : ∀ e ∈ l, e.flags < 256)
    (hc : ∀ b ∈ comb, b < 256) (hl : comb.length ≤ 8) :
    (∀ b ∈ comb', b < 256) ∧ comb'.length ≤ 8 ∧ l'.map (·.cp2) = l.map (·.cp2) := by
  induction l generalizing comb l' with
  | nil =>
    simp only [combineFlags, Option.some.injEq, Prod.mk.injEq] at h
    obtain ⟨rfl, rfl⟩ := h
    exact ⟨hc, hl, rfl⟩
  | cons map r ih =>
    have next : ∀ {d : List Nat} {m : MapGen} (_ : ∀ b ∈ d, b < 256) (_ : d.length ≤ 8)
        (_ : m.cp2 = map.cp2), (combineFlags r d).map (fun x => (m :: x.1, x.2)) = some (l', comb') →
        (∀ b ∈ comb', b < 256) ∧ comb'.length ≤ 8 ∧ l'.map (·.cp2) = (map :: r).map (·.cp2) := by
      intro d m h1 h2 h3 h
      cases hx : combineFlags r d with
      | none => rw [hx] at h; cases h
      | some x =>
        rw [hx] at h
        simp only [Option.map_some, Option.some.injEq, Prod.mk.injEq] at h
        obtain ⟨rfl, rfl⟩ := h
        obtain ⟨a, b, c⟩ := ih (l' := x.1) hx (fun e he => hf e (by simp [he])) h1 h2
        exact ⟨a, b, by simp only [List.map_cons, c, h3]⟩
    unfold combineFlags at h
    split at h
    · rename_i i _
      exact next (m := { map with flag_index := i % 8 }) hc hl rfl h
    · split at h
      · cases h
      · refine next (m := { map with flag_index := comb.length % 8 }) ?_ ?_ rfl h
        · intro b hb
          rcases List.mem_append.mp hb with hb | hb
          · exact hc b hb
          · rw [List.mem_singleton.mp hb]; exact hf map (by simp)
        · rw [List.length_append, List.length_singleton]; omega

theorem tr46_entries_le (min max : Nat) (l : List MapGen) (h : ∀ e ∈ l, e.cp2 ≤ 0x10FFFF) :
    tr46_entries min max l 0 ≤ 17 * l.length := by
  induction l with
  | nil => simp [tr46_entries]
  | cons e r ih =>
    have ih := ih fun x hx => h x (by simp [hx])
    have he := h e (by simp)
    simp only [tr46_entries, List.length_cons]
    split
    · omega
    · split
      · omega
      · rw [tr46_entries_add]
        have : (e.cp2 - e.cp1) / 0x10000 ≤ 16 := by
          have : e.cp2 - e.cp1 < 17 * 0x10000 := by omega
          omega
        omega

theorem map_mem_of {α β : Type} {f : α → β} {P : β → Prop} {l l' : List α}
    (h : l'.map f = l.map f) (hp : ∀ a ∈ l, P (f a)) : ∀ a ∈ l', P (f a) := by
  intro a ha
  have : f a ∈ l.map f := h ▸ List.mem_map_of_mem ha
  obtain ⟨b, hb, e⟩ := List.mem_map.mp this
  exact e ▸ hp b hb

/-- The generator prints a text whenever it has tables, and a C compiler reads these tables in
it. -/
theorem print_finish {st : GenState} {qc : List QcRow} {tbl : List IdnaRow} {T : Tables}
    (hp : Printable st) (hq : ∀ r ∈ qc, r.first < 2 ^ 32 ∧ r.last < 2 ^ 32 ∧ r.check < 128)
    (h : gentr46finish st qc tbl = some T) :
    ∃ text, gentr46print st qc = some text ∧
      ∀ dt, C.dataC dt = some tbl → C.compiled dt text = some T := by
  unfold gentr46finish at h
  unfold gentr46print
  have p1 := qsort_perm compare_map_by_maplen st.map.reverse
  cases hc : compactLoop st.gd (qsort compare_map_by_maplen st.map.reverse) [] with
  | none => rw [hc] at h; cases h
  | some x =>
    obtain ⟨l1, data⟩ := x
    rw [hc] at h
    simp only at h ⊢
    obtain ⟨hd1, hd2, hk⟩ := compact_bounds hc hp.bytes (by simp) (by simp)
    have in1 : ∀ e ∈ qsort compare_map_by_maplen st.map.reverse, e ∈ st.map := fun e he => by
      have := p1.subset he
      simpa using this
    have k1 : ∀ e ∈ l1, e.flags < 256 ∧ e.cp2 ≤ 0x10FFFF :=
      map_mem_of (f := fun e : MapGen => (e.cp1, e.cp2, e.flags))
        (P := fun x => x.2.2 < 256 ∧ x.2.1 ≤ 0x10FFFF) hk
        (fun e he => ⟨hp.flags e (in1 e he), hp.top e (in1 e he)⟩)
    have len1 : l1.length = st.map.length := by
      have := congrArg List.length hk
      simpa [p1.length_eq] using this
    have p2 := qsort_perm compare_map l1
    cases hb : combineFlags (qsort compare_map l1) [] with
    | none => rw [hb] at h; cases h
    | some y =>
      obtain ⟨l2, comb⟩ := y
      rw [hb] at h
      simp only at h ⊢
      obtain ⟨hc1, hc2, hk2⟩ := combine_bounds hb (fun e he => (k1 e (p2.subset he)).1) (by simp)
        (by simp)
      have k2 : ∀ e ∈ l2, e.cp2 ≤ 0x10FFFF :=
        map_mem_of (f := fun e : MapGen => e.cp2) (P := (· ≤ 0x10FFFF)) hk2
          (fun e he => (k1 e (p2.subset he)).2)
      have len2 : l2.length ≤ 10000 := by
        have := congrArg List.length hk2
        simp [p2.length_eq, len1] at this
        have := hp.mapLen
        omega
      split at h
      · cases h
      · rename_i hcond
        rw [if_neg hcond]
        injection h with h
        subst h
        refine ⟨_, rfl, fun dt hdt => ?_⟩
        have p3 := qsort_perm compare_qc qc
        have hlen : qc.length < 140 := by
          rcases Nat.lt_or_ge qc.length 140 with h | h
          · exact h
          · exact absurd (Or.inr h) hcond
        have := hp.gdLen
        refine compiled_tr46 hdt hc1 (by omega) hd1 (by omega) (fun min max => ?_)
          (fun r hr => hq r (p3.subset hr)) (by rw [p3.length_eq]; omega)
        have := tr46_entries_le min max l2 k2
        unfold tr46_size
        (repeat' split) <;> omega

theorem print_none {st : GenState} {qc : List QcRow} {tbl : List IdnaRow} :
    gentr46print st qc = none ↔ gentr46finish st qc tbl = none := by
  unfold gentr46finish gentr46print
  cases compactLoop st.gd (qsort compare_map_by_maplen st.map.reverse) [] with
  | none => simp
  | some x =>
    simp only
    cases combineFlags (qsort compare_map x.1) [] with
    | none => simp
    | some y =>
      simp only
      split <;> simp

theorem gentr46map_file_eq {rows : List MapRow} {qc : List QcRow} {tm tq : List Nat}
    (hm : scanFile read_IdnaMappings_line ⟨[], []⟩ tm = scanMappings ⟨[], []⟩ rows)
    (hq : scanFile read_NFCQC [] tq =
      if (∀ r ∈ qc, r.first ≤ r.last) ∧ qc.length < 140 then .ok qc.reverse else .complaint) :
    gentr46map_file tm tq =
      (scanMappings ⟨[], []⟩ rows >>= fun st => GRes.ofOption (gentr46print st qc)) := by
  unfold gentr46map_file
  rw [hm]
  cases scanMappings ⟨[], []⟩ rows with
  | complaint => rfl
  | ub => rfl
  | ok st =>
    simp only [GRes.bind_ok]
    rw [hq]
    by_cases c : (∀ r ∈ qc, r.first ≤ r.last) ∧ qc.length < 140
    · rw [if_pos c, GRes.bind_ok, List.reverse_reverse]
    · rw [if_neg c]
      have : gentr46print st qc = none := by
        rw [print_none (tbl := [])]
        unfold gentr46finish
        split
        · rfl
        · split
          · rfl
          · rw [if_pos]
            rcases Nat.lt_or_ge qc.length 140 with h | h
            · left
              rw [List.any_eq_true]
              by_cases hx : ∃ r ∈ qc, r.last < r.first
              · obtain ⟨r, hr, hlt⟩ := hx
                exact ⟨r, hr, by simpa using hlt⟩
              · exact absurd ⟨fun r hr => Nat.le_of_not_lt fun hlt => hx ⟨r, hr, hlt⟩, h⟩ c
            · right; exact h
      rw [this]
      rfl

/-- From lines of the two files to the tables compiled. -/
theorem gentr46map_file_ok {rows : List MapRow} {qc : List QcRow} {tm tq : List Nat}
    (hm : scanFile read_IdnaMappings_line ⟨[], []⟩ tm = scanMappings ⟨[], []⟩ rows)
    (hq : scanFile read_NFCQC [] tq =
      if (∀ r ∈ qc, r.first ≤ r.last) ∧ qc.length < 140 then .ok qc.reverse else .complaint)
    (hr : ∀ r ∈ rows, r.last ≤ 0x10FFFF)
    (hb : ∀ r ∈ qc, r.first < 2 ^ 32 ∧ r.last < 2 ^ 32 ∧ r.check < 128)
    {tbl : List IdnaRow} {T : Tables} (h : gentr46map rows qc tbl = .ok T) :
    ∃ text, gentr46map_file tm tq = .ok text ∧
      ∀ dt, C.dataC dt = some tbl → C.compiled dt text = some T := by
  rw [gentr46map_file_eq hm hq]
  unfold gentr46map at h
  cases hs : scanMappings ⟨[], []⟩ rows with
  | complaint => rw [hs] at h; cases h
  | ub => rw [hs] at h; cases h
  | ok st =>
    rw [hs] at h
    have hp : Printable st := scan_printable hs
      ⟨by simp, by simp, by simp, by simp, by simp⟩ hr
    simp only at h
    cases hg : gentr46finish st qc tbl with
    | none => rw [hg] at h; cases h
    | some T' =>
      rw [hg] at h
      simp only [GRes.ofOption, GRes.ok.injEq] at h
      subst h
      obtain ⟨text, h1, h2⟩ := print_finish hp hb hg
      exact ⟨text, by simp only [GRes.bind_ok, h1]; rfl, h2⟩

/-! ### gendata.c -/

theorem hexVal_digit (b : Nat) : C.digit b = hexVal b := rfl

theorem scanDigits_digits (s : List Nat) (v a : Nat) (h : scanDigits s v = (a, [])) :
    C.digits 16 v s = some a ∧ ∀ c ∈ s, C.wordChar c = true := by
  induction s generalizing v with
  | nil =>
    simp only [scanDigits, Prod.mk.injEq, and_true] at h
    exact ⟨by rw [← h]; rfl, by simp⟩
  | cons c r ih =>
    simp only [scanDigits] at h
    cases hx : hexVal c with
    | none => rw [hx] at h; simp at h
    | some d =>
      rw [hx] at h
      obtain ⟨h1, h2⟩ := ih _ h
      have hd : d < 16 ∧ C.wordChar c = true := by
        unfold hexVal at hx
        unfold C.wordChar
        split at hx
        · injection hx; refine ⟨by omega, ?_⟩; simp; omega
        · split at hx
          · injection hx; refine ⟨by omega, ?_⟩; simp; omega
          · split at hx
            · injection hx; refine ⟨by omega, ?_⟩; simp; omega
            · cases hx
      refine ⟨?_, ?_⟩
      · simp only [C.digits, hexVal_digit, hx, if_pos hd.1]
        exact h1
      · intro x hx
        rcases List.mem_cons.mp hx with rfl | hx
        · exact hd.2
        · exact h2 x hx

/-- The words of a printed row. -/
def rowWords (x : List Nat × List Nat × List Nat) : List (List Nat) :=
  [str "0x" ++ x.1, str "0x" ++ x.2.1, x.2.2]

theorem readInit_row {x : List Nat × List Nat × List Nat} {row : IdnaRow}
    (h : readInit x = some row) :
    C.idnaRow (rowWords x) = some row ∧ ∀ w ∈ rowWords x, w ≠ [] ∧ ∀ c ∈ w, C.wordChar c = true := by
  unfold readInit at h
  split at h
  · rename_i a b c1 r1 c2 r2 h1 h2 e1 e2
    obtain ⟨d1, w1⟩ := scanDigits_digits _ _ _ h1
    obtain ⟨d2, w2⟩ := scanDigits_digits _ _ _ h2
    have hex : ∀ {w : List Nat} {v : Nat}, w ≠ [] → C.digits 16 0 w = some v →
        C.number (str "0x" ++ w) = some v := by
      intro w v hne hd
      have e : str "0x" ++ w = 48 :: 0x78 :: w := rfl
      rw [e]
      simp only [C.number, if_true, and_self, ne_eq, hne, not_false_eq_true]
      exact hd
    have n1 := hex (by rw [e1]; simp) d1
    have n2 := hex (by rw [e2]; simp) d2
    have hw : ∀ {w : List Nat}, (∀ c ∈ w, C.wordChar c = true) →
        str "0x" ++ w ≠ [] ∧ ∀ c ∈ str "0x" ++ w, C.wordChar c = true := by
      intro w h
      refine ⟨by simp [str], fun c hc => ?_⟩
      rcases List.mem_append.mp hc with hc | hc
      · have : ∀ c ∈ str "0x", C.wordChar c = true := by decide
        exact this c hc
      · exact h c hc
    have fin : ∀ {p : IdnaProp} {s : List Nat}, x.2.2 = s → C.enumerator s = some p →
        s ≠ [] → (∀ c ∈ s, C.wordChar c = true) → some (⟨u32 a, u32 b, p⟩ : IdnaRow) = some row →
        C.idnaRow (rowWords x) = some row ∧
          ∀ w ∈ rowWords x, w ≠ [] ∧ ∀ c ∈ w, C.wordChar c = true := by
      intro p s hs he hne hwc hr
      refine ⟨?_, ?_⟩
      · rw [← hr]
        simp only [rowWords, C.idnaRow, n1, n2, hs, he]
        rfl
      · intro w hwm
        simp only [rowWords, List.mem_cons, List.not_mem_nil, or_false] at hwm
        rcases hwm with rfl | rfl | rfl
        · exact hw w1
        · exact hw w2
        · rw [hs]; exact ⟨hne, hwc⟩
    split at h
    · rename_i hs; exact fin hs (by decide) (by decide) (by decide) h
    · split at h
      · rename_i hs; exact fin hs (by decide) (by decide) (by decide) h
      · split at h
        · rename_i hs; exact fin hs (by decide) (by decide) (by decide) h
        · split at h
          · rename_i hs; exact fin hs (by decide) (by decide) (by decide) h
          · cases h
  · cases h

/-- The tokens of a printed row. -/
def rowToks (x : List Nat × List Nat × List Nat) : List C.Tok :=
  [.punct 0x7B, .word (str "0x" ++ x.1), .punct 0x2C, .word (str "0x" ++ x.2.1), .punct 0x2C,
    .word x.2.2, .punct 0x7D, .punct 0x2C]

theorem lex_row {x : List Nat × List Nat × List Nat}
    (h : ∀ w ∈ rowWords x, w ≠ [] ∧ ∀ c ∈ w, C.wordChar c = true) :
    C.lexRun .top (printRow x) = some (.top, rowToks x) := by
  obtain ⟨n1, w1⟩ := h (str "0x" ++ x.1) (by simp [rowWords])
  obtain ⟨n2, w2⟩ := h (str "0x" ++ x.2.1) (by simp [rowWords])
  obtain ⟨n3, w3⟩ := h x.2.2 (by simp [rowWords])
  have h0 : C.lexRun .top (str "  {") = some (.top, [.punct 0x7B]) := by decide
  have e1 : ∀ w, C.lexRun (.word w) (str ", ") = some (.top, [.word w, .punct 0x2C]) := fun w =>
    lex_word_end (c := 0x2C) (r := str " ") (by decide) (by decide)
  have e2 : ∀ w, C.lexRun (.word w) (str "},\n") =
      some (.top, [.word w, .punct 0x7D, .punct 0x2C]) := fun w =>
    lex_word_end (c := 0x7D) (r := str ",\n") (by decide) (by decide)
  have := lex_app h0 (lex_app (lex_app (lex_word_top w1 n1) (e1 _)) (lex_app
    (lex_app (lex_word_top w2 n2) (e1 _)) (lex_app (lex_word_top w3 n3) (e2 _))))
  have e : printRow x = str "  {" ++ (str "0x" ++ x.1 ++ str ", " ++
      (str "0x" ++ x.2.1 ++ str ", " ++ (x.2.2 ++ str "},\n"))) := by
    have a : str "  {0x" = str "  {" ++ str "0x" := by decide
    have b : str ", 0x" = str ", " ++ str "0x" := by decide
    simp only [printRow, a, b, List.append_assoc]
  rw [e, this]
  rfl

theorem lex_rows {l : List (List Nat × List Nat × List Nat)}
    (h : ∀ x ∈ l, ∀ w ∈ rowWords x, w ≠ [] ∧ ∀ c ∈ w, C.wordChar c = true) :
    C.lexRun .top (l.flatMap printRow) = some (.top, l.flatMap rowToks) := by
  induction l with
  | nil => rfl
  | cons x l ih => exact lex_app (lex_row (h x (by simp))) (ih fun y hy => h y (by simp [hy]))

theorem par_rows (l : List (List Nat × List Nat × List Nat)) (d : List (List Nat))
    (n : Option (List Nat)) (es : List (List (List Nat))) :
    C.parRun (.elems d n es) (l.flatMap rowToks) =
      some (.elems d n (es ++ l.map rowWords), []) := by
  induction l generalizing es with
  | nil => simp [C.parRun]
  | cons x l ih =>
    have h : C.parRun (.elems d n es) (rowToks x) =
        some (.elems d n (es ++ [rowWords x]), []) := by
      simp [rowToks, rowWords, C.parRun, C.parStep]
    have := par_app h (ih _)
    simpa using this

/-- What a C compiler makes of the text gendata prints. -/
theorem compiled_data {out : List (List Nat × List Nat × List Nat)} {tbl : List IdnaRow}
    (h : out.map readInit = tbl.map some) (hl : tbl.length < 2 ^ 32) :
    C.dataC (gendataOutput out) = some tbl := by
  have hlen : out.length = tbl.length := by simpa using congrArg List.length h
  have hrow : ∀ x ∈ out, ∃ row, readInit x = some row := by
    intro x hx
    have : readInit x ∈ tbl.map some := h ▸ List.mem_map_of_mem hx
    obtain ⟨row, _, e⟩ := List.mem_map.mp this
    exact ⟨row, e.symm⟩
  have hcol : ∀ (out : List (List Nat × List Nat × List Nat)) (tbl : List IdnaRow),
      out.map readInit = tbl.map some → C.collect C.idnaRow (out.map rowWords) = some tbl := by
    intro out
    induction out with
    | nil => intro tbl h; cases tbl with
      | nil => rfl
      | cons => simp at h
    | cons x out ih =>
      intro tbl h
      cases tbl with
      | nil => simp at h
      | cons row tbl =>
        simp only [List.map_cons, List.cons.injEq] at h
        simp only [List.map_cons, C.collect, (readInit_row h.1).1, ih tbl h.2]
  have hw : ∀ x ∈ out, ∀ w ∈ rowWords x, w ≠ [] ∧ ∀ c ∈ w, C.wordChar c = true := by
    intro x hx
    obtain ⟨row, hr⟩ := hrow x hx
    exact (readInit_row hr).2
  have ht : C.tokens (gendataOutput out) = some (
      [.word (str "const"), .word (str "struct"), .word (str "idna_table"), .word (str "idna_table"),
        .punct 0x5B, .punct 0x5D, .punct 0x3D, .punct 0x7B] ++ out.flatMap rowToks ++
      [.punct 0x7D, .punct 0x3B, .word (str "const"), .word (str "size_t"),
        .word (str "idna_table_size"), .punct 0x3D, .word (printU out.length), .punct 0x3B]) := by
    have h0 : C.lexRun .top (puts "/* This file is automatically generated.  DO NOT EDIT! */" ++
        puts "" ++ puts "#include <config.h>" ++ puts "#include \"data.h\"" ++ puts "" ++
        puts "const struct idna_table idna_table[] = {") = some (.top, [.word (str "const"),
          .word (str "struct"), .word (str "idna_table"), .word (str "idna_table"),
          .punct 0x5B, .punct 0x5D, .punct 0x3D, .punct 0x7B]) := by
      decide +kernel
    have h2 : C.lexRun .top (puts "};" ++ str "const size_t idna_table_size = ") =
        some (.top, [.punct 0x7D, .punct 0x3B, .word (str "const"), .word (str "size_t"),
        .word (str "idna_table_size"), .punct 0x3D]) := by decide
    have h3 := lex_word_top (printU_word out.length) (printU_ne out.length)
    have h4 : C.lexRun (.word (printU out.length)) (str ";\n") =
        some (.top, [.word (printU out.length), .punct 0x3B]) :=
      lex_word_end (c := 0x3B) (r := [10]) (by decide) (by decide)
    have := lex_app (lex_app (lex_app (lex_app h0 (lex_rows hw)) h2) h3) h4
    unfold C.tokens gendataOutput
    simp only [← List.append_assoc] at this ⊢
    rw [this]
    simp
  have ho : C.objects (gendataOutput out) = some [
      ⟨C.words ["const", "struct", "idna_table", "idna_table"], some none, out.map rowWords⟩,
      ⟨C.words ["const", "size_t", "idna_table_size"], none, [[printU out.length]]⟩] := by
    have h1 : C.parRun (.decl []) [.word (str "const"), .word (str "struct"),
        .word (str "idna_table"), .word (str "idna_table"), .punct 0x5B, .punct 0x5D, .punct 0x3D,
        .punct 0x7B] = some (.elems (C.words ["const", "struct", "idna_table", "idna_table"]) none [],
          []) := by decide
    have h2 := par_rows out (C.words ["const", "struct", "idna_table", "idna_table"]) none []
    have h3 : C.parRun (.elems (C.words ["const", "struct", "idna_table", "idna_table"]) none
        (out.map rowWords)) [.punct 0x7D, .punct 0x3B, .word (str "const"), .word (str "size_t"),
        .word (str "idna_table_size"), .punct 0x3D, .word (printU out.length), .punct 0x3B] =
        some (.decl [], [⟨C.words ["const", "struct", "idna_table", "idna_table"], some none,
          out.map rowWords⟩, ⟨C.words ["const", "size_t", "idna_table_size"], none,
            [[printU out.length]]⟩]) := by
      simp [C.parRun, C.parStep, C.words]
    rw [List.nil_append] at h2
    unfold C.objects
    rw [ht]
    simp only
    rw [par_app (par_app h1 h2) h3]
    rfl
  unfold C.dataC
  rw [ho]
  have n1 : ¬ C.words ["const", "struct", "idna_table", "idna_table"] =
      C.words ["const", "size_t", "idna_table_size"] := by decide
  have n2 : ¬ C.words ["const", "size_t", "idna_table_size"] =
      C.words ["const", "struct", "idna_table", "idna_table"] := by decide
  have ha : C.array ⟨0, 0, .pvalid⟩ C.idnaRow
      ⟨C.words ["const", "struct", "idna_table", "idna_table"], some none, out.map rowWords⟩ =
        some tbl := by
    simp [C.array, hcol out tbl h, C.bound, hlen]
  simp [C.object, n1, n2, ha, number_printU, u32_of_lt (show tbl.length < 4294967296 by omega), hlen]

theorem gendata_file_ok {csv : List CsvRow} {tc : List Nat}
    {out : List (List Nat × List Nat × List Nat)} (h : gendata_text tc = .ok out)
    (h' : out.map readInit = (gendata csv).map some) (hl : csv.length < 2 ^ 31) :
    ∃ text, gendata_file tc = .ok text ∧ C.dataC text = some (gendata csv) := by
  have h1 : (gendata csv).length ≤ csv.length := by
    unfold gendata
    rw [List.length_map]
    exact List.length_filter_le _ _
  have h2 : out.length = (gendata csv).length := by simpa using congrArg List.length h'
  refine ⟨gendataOutput out, ?_, compiled_data h' (by omega)⟩
  unfold gendata_file
  rw [h, GRes.bind_ok, if_neg (by omega)]
  rfl

end Idn2
