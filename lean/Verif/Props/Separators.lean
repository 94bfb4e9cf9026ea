import Verif.Spec.Separators
import Verif.Props.Compose
import Verif.Props.Uts46
import Verif.Props.Codes

/-
Property C105: where lookup cuts a name into labels.
-/

namespace Idn2
open Spec

variable {D : Data}

/-! ### The data -/

/-- Only the three other full stops are mapped to a text with a full stop. -/
def DotData (D : Data) : Prop := ∀ c, 0x2E ∈ D.mapping c → c = 0x3002 ∨ c = 0xFF0E ∨ c = 0xFF61

/-- The lines with `d` in the mapping are about one character out of `cs` each. -/
def sourceCheck (d : Nat) (cs : List Nat) (rows : List MapRow) : Bool :=
  rows.all fun r => !(r.mapping.contains d) || (Nat.beq r.first r.last && cs.contains r.first)

theorem source_of_check {d : Nat} {cs : List Nat} {csv : List CsvRow} {rows : List MapRow}
    {qc : List QcRow} (h : sourceCheck d cs rows = true) {c : Nat}
    (hc : d ∈ (dataOf csv rows qc).mapping c) : c ∈ cs := by
  unfold sourceCheck at h
  rw [List.all_eq_true] at h
  simp only [dataOf] at hc
  split at hc
  · rename_i r hr
    have h1 := h r (List.mem_of_find?_eq_some hr)
    have h2 := List.find?_some hr
    simp only [decide_eq_true_eq] at h2
    simp only [Bool.or_eq_true, Bool.not_eq_true', List.contains_eq_mem, decide_eq_false_iff_not,
      Bool.and_eq_true, Nat.beq_eq, decide_eq_true_eq] at h1
    rcases h1 with h1 | ⟨h1, h3⟩
    · exact absurd hc h1
    · rw [show c = r.first by omega]
      exact h3
  · cases hc

theorem dotData_of_check {csv : List CsvRow} {rows : List MapRow} {qc : List QcRow}
    (h : sourceCheck 0x2E [0x3002, 0xFF0E, 0xFF61] rows = true) : DotData (dataOf csv rows qc) := by
  intro c hc
  simpa using source_of_check h hc

theorem Shipped.dotData : DotData Shipped.D := dotData_of_check (by decide +kernel)

theorem Sample.dotData : DotData Sample.D := dotData_of_check (by decide +kernel)

/-! ### The parts -/

/-- The name with full stops for the separators. -/
def dotted (tr46 : Bool) (u : List Nat) : List Nat :=
  u.map fun c => if Separator tr46 c then 0x2E else c

theorem partsOf_eq (tr46 : Bool) (u : List Nat) : partsOf tr46 u = splitDot (dotted tr46 u) := by
  induction u with
  | nil => rfl
  | cons c r ih =>
    rw [partsOf, ih]
    by_cases h : Separator tr46 c
    · rw [if_pos h]
      simp [dotted, splitDot, h]
    · rw [if_neg h]
      have : c ≠ 0x2E := fun he => h (.inl he)
      simp only [dotted, List.map_cons, splitDot, if_neg h, if_neg this]
      split <;> rename_i heq <;> rw [heq]

theorem dotted_false (u : List Nat) : dotted false u = u := by
  unfold dotted
  conv => rhs; rw [← List.map_id u]
  refine List.map_congr_left fun c _ => ?_
  split
  · rename_i h
    rcases h with h | h
    · exact h.symm
    · cases h.1
  · rfl

theorem dotted_scalar {tr46 : Bool} {u : List Nat} (h : ∀ c ∈ u, isScalar c) :
    ∀ c ∈ dotted tr46 u, isScalar c := by
  intro c hc
  obtain ⟨x, hx, rfl⟩ := List.mem_map.mp hc
  split
  · left; omega
  · exact h x hx

theorem dotted_zero {tr46 : Bool} {u : List Nat} (h : 0 ∉ u) : 0 ∉ dotted tr46 u := by
  intro hc
  obtain ⟨x, hx, he⟩ := List.mem_map.mp hc
  split at he
  · cases he
  · exact h (he ▸ hx)

/-- Other separators may be replaced by full stops. -/
theorem lookup_dotted {E : Env} (W : World E D) {f : Nat} {u : List Nat} (hs : ∀ c ∈ u, isScalar c)
    (h0 : 0 ∉ u) (n : List Nat) :
    LookupOk E f (utf8s u) n ↔ LookupOk E f (utf8s (dotted (!f.testBit 6) u)) n := by
  cases h6 : f.testBit 6 with
  | true => rw [show (!true) = false from rfl, dotted_false]
  | false =>
    refine (C33_case_dots W hs (dotted_scalar hs) h0 (dotted_zero h0) h6 ?_).1 n
    unfold dotted
    rw [List.map_map]
    refine List.map_congr_left fun c _ => ?_
    simp only [Function.comp]
    split
    · rename_i h
      rcases h with rfl | ⟨_, h⟩
      · rfl
      · unfold foldName
        rw [if_neg (by omega), if_pos h]
        rfl
    · rfl

/-! ### Labels without separators -/

theorem processed_nodot {U : Uni} (hU : U.Laws) (hd : DotData D) {f : Nat} {u x : List Nat}
    (hu : ∀ c ∈ u, ¬ Separator (!f.testBit 6) c) (h : Processed D U f u x) : 0x2E ∉ x := by
  unfold Processed at h
  split at h
  · subst h
    exact fun hc => hu _ hc (.inl rfl)
  · rename_i h6
    rw [Bool.not_eq_true] at h6
    rw [h6] at hu
    refine hU.nfc_nosep _ x 0x2E (.inr rfl) ?_ h.2.2.1
    intro hc
    obtain ⟨c, hc, he⟩ := List.mem_flatMap.mp hc
    have h1 := hu c hc
    have hno : 0x2E ∉ D.mapping c := fun h => h1 (.inr ⟨rfl, hd c h⟩)
    have hne : ¬ 0x2E = c := fun h => h1 (.inl h.symm)
    unfold emit at he
    split at he
    all_goals first
      | exact hno he
      | (split at he <;> first | exact hno he | (simp at he; done) | exact hne (by simpa using he))
      | (simp at he; done)
      | exact hne (by simpa using he)

theorem lookup_nodot {E : Env} (W : World E D) (hd : DotData D) {f : Nat} {u n : List Nat}
    (hs : ∀ c ∈ u, isScalar c) (h0 : 0 ∉ u) (hu : ∀ c ∈ u, ¬ Separator (!f.testBit 6) c)
    (h : LookupOk E f (utf8s u) n) : 0x2E ∉ n := by
  cases h6 : f.testBit 6 with
  | true =>
    refine lookupOk_nodot W h6 (zero_mem_utf8s h0) ?_ h
    have hdot : 0x2E ∉ u := fun hc => hu _ hc (.inl rfl)
    have h1 := splitDot_utf8s hs
    rw [splitDot_nodot hdot] at h1
    intro hc
    have h2 : splitDot (utf8s u) = [utf8s u] := h1
    have : utf8s u ∈ splitDot (utf8s u) := by rw [h2]; simp
    exact mem_splitDot_nodot this hc
  | false =>
    obtain ⟨_, v, hv, he, x, ds, h1, h2, rfl, _⟩ :=
      (C48_lookup_spec W (zero_mem_utf8s h0) (by rw [h6]; simp)).mp h
    rw [← utf8s_inj hs hv he] at h1
    have hx := processed_nodot W.uni hd hu h1
    rw [splitDot_nodot hx] at h2
    cases h2 with
    | cons a b =>
      cases b
      exact labelTo_nodot hx a

/-! ### C105 -/

theorem lookup_joined {E : Env} (W : World E D) {f : Nat} : ∀ {ls : List (List Nat)} {n : List Nat},
    ls ≠ [] → (∀ l ∈ ls, ∀ c ∈ l, isScalar c) → (∀ l ∈ ls, 0 ∉ l) →
    (LookupOk E f (utf8s (joinDot ls)) n ↔
      ∃ ns, Each (fun l m => LookupOk E f (utf8s l) m) ls ns ∧ n = joinDot ns ∧
        n.length ≤ fullLimit n ∧
        (f.testBit 6 = false →
          ((joinDot ls).flatMap (emit D (f.testBit 2) (f.testBit 5))).length < 255)) := by
  intro ls
  induction ls with
  | nil => intro n h; exact absurd rfl h
  | cons l ls ih =>
    intro n _ hs h0
    have hl := hs l List.mem_cons_self
    have hl0 := h0 l List.mem_cons_self
    by_cases hls : ls = []
    · subst hls
      constructor
      · intro h
        refine ⟨[n], .cons h .nil, rfl, ?_, ?_⟩
        · obtain ⟨_, h1, h2⟩ := C07_lookup_limits W (zero_mem_utf8s hl0) h
          unfold fullLimit
          split
          · exact h1
          · exact h2 ‹_›
        · intro h6
          obtain ⟨_, v, hv, he, x, ds, h1, _⟩ :=
            (C48_lookup_spec W (zero_mem_utf8s hl0) (by rw [h6]; simp)).mp h
          rw [← utf8s_inj hl hv he] at h1
          unfold Processed at h1
          rw [if_neg (by rw [h6]; simp)] at h1
          exact h1.2.1
      · rintro ⟨ns, h1, rfl, _⟩
        cases h1 with
        | cons a b => cases b; exact a
    · have hs' := fun x hx => hs x (List.mem_cons_of_mem _ hx)
      have h0' := fun x hx => h0 x (List.mem_cons_of_mem _ hx)
      have hjs : ∀ c ∈ joinDot ls, isScalar c := by
        intro c hc
        rcases mem_joinDot hc with rfl | ⟨x, hx, hc⟩
        · left; omega
        · exact hs' x hx c hc
      have hj0 : 0 ∉ joinDot ls := by
        intro hc
        rcases mem_joinDot hc with h | ⟨x, hx, hc⟩
        · cases h
        · exact h0' x hx hc
      rw [joinDot_cons hls, C83_compose W hl hjs hl0 hj0]
      constructor
      · rintro ⟨m, k, h1, h2, rfl, h3, h4⟩
        obtain ⟨ns, h5, rfl, _⟩ := (ih hls hs' h0').mp h2
        have hns : ns ≠ [] := by
          rintro rfl
          cases h5
          exact hls rfl
        exact ⟨m :: ns, .cons h1 h5, (joinDot_cons hns).symm, h3, h4⟩
      · rintro ⟨ns, h1, rfl, h3, h4⟩
        cases h1 with
        | cons a b =>
          rename_i m ns
          have hns : ns ≠ [] := by
            rintro rfl
            cases b
            exact hls rfl
          rw [joinDot_cons hns] at h3 ⊢
          refine ⟨m, joinDot ns, a, (ih hls hs' h0').mpr ⟨ns, b, rfl, ?_, ?_⟩, rfl, h3, h4⟩
          · simp only [List.length_append, List.length_cons] at h3
            unfold fullLimit at h3 ⊢
            split at h3 <;> split <;> omega
          · intro h
            have := h4 h
            simp only [List.flatMap_append, List.flatMap_cons, List.length_append] at this
            omega

/-- C105.  A name is cut at the four separators (at full stops, without UTS #46 processing), and
nowhere else.  Each part is looked up by itself and gives one label of the result. -/
theorem C105_labels {E : Env} (W : World E D) (hd : DotData D) {f : Nat} {u n : List Nat}
    (hs : ∀ c ∈ u, isScalar c) (h0 : 0 ∉ u) :
    LookupOk E f (utf8s u) n ↔
      ∃ ns, Each (fun p m => LookupOk E f (utf8s p) m ∧ 0x2E ∉ m) (partsOf (!f.testBit 6) u) ns ∧
        n = joinDot ns ∧ n.length ≤ fullLimit n ∧
        (f.testBit 6 = false →
          (u.flatMap (emit D (f.testBit 2) (f.testBit 5))).length < 255) := by
  have hds := dotted_scalar (tr46 := !f.testBit 6) hs
  have hd0 := dotted_zero (tr46 := !f.testBit 6) h0
  have hlen : f.testBit 6 = false → (dotted (!f.testBit 6) u).flatMap
      (emit D (f.testBit 2) (f.testBit 5)) = u.flatMap (emit D (f.testBit 2) (f.testBit 5)) := by
    intro h6
    unfold dotted
    rw [List.flatMap_map]
    refine congrArg (List.flatMap · u) (funext fun c => ?_)
    split
    · rename_i h
      rcases h with rfl | ⟨_, h⟩
      · rfl
      · obtain ⟨h1, h2⟩ := W.data.dots c h
        unfold emit
        rw [h1, h2, W.data.dot.1]
    · rfl
  rw [lookup_dotted W hs h0, partsOf_eq]
  have hj := lookup_joined W (f := f) (ls := splitDot (dotted (!f.testBit 6) u)) (n := n)
    (splitDot_ne_nil _) (fun l hl c hc => hds c (mem_of_mem_splitDot hl hc))
    (fun l hl hc => hd0 (mem_of_mem_splitDot hl hc))
  rw [joinDot_splitDot] at hj
  rw [hj]
  constructor
  · rintro ⟨ns, h1, h2, h3, h4⟩
    refine ⟨ns, each_imp_mem h1 fun l hl m hm => ⟨hm, ?_⟩, h2, h3, fun h => ?_⟩
    · refine lookup_nodot W hd (fun c hc => hds c (mem_of_mem_splitDot hl hc))
        (fun hc => hd0 (mem_of_mem_splitDot hl hc)) ?_ hm
      intro c hc hsep
      have hne : c ≠ 0x2E := fun h => mem_splitDot_nodot hl (h ▸ hc)
      obtain ⟨x, _, hx⟩ := List.mem_map.mp (mem_of_mem_splitDot hl hc)
      split at hx
      · exact hne hx.symm
      · rename_i h
        exact h (hx ▸ hsep)
    · rw [← hlen h]
      exact h4 h
  · rintro ⟨ns, h1, h2, h3, h4⟩
    exact ⟨ns, h1.imp fun h => h.1, h2, h3, fun h => by rw [hlen h]; exact h4 h⟩

theorem each_len {α β : Type} {R : α → β → Prop} {as : List α} {bs : List β} (h : Each R as bs) :
    as.length = bs.length := by
  induction h with
  | nil => rfl
  | cons _ _ ih => simp [ih]

/-- C105, the number of labels. -/
theorem C105_count {E : Env} (W : World E D) (hd : DotData D) {f : Nat} {u n : List Nat}
    (hs : ∀ c ∈ u, isScalar c) (h0 : 0 ∉ u) (h : LookupOk E f (utf8s u) n) :
    (splitDot n).length = (partsOf (!f.testBit 6) u).length := by
  obtain ⟨ns, h1, rfl, _⟩ := (C105_labels W hd hs h0).mp h
  have hne : ns ≠ [] := by
    rintro rfl
    rw [partsOf_eq] at h1
    generalize hg : splitDot (dotted (!f.testBit 6) u) = ls at h1
    cases h1
    exact splitDot_ne_nil _ hg
  rw [splitDot_joinDot hne]
  · exact (each_len h1).symm
  · intro d hd'
    obtain ⟨_, _, h⟩ := each_mem_right h1 hd'
    exact h.2

/-- C105 for the tables in the repository. -/
theorem C105_shipped {U : Uni} (h : U.Laws) {f : Nat} {u n : List Nat} (hs : ∀ c ∈ u, isScalar c)
    (h0 : 0 ∉ u) :
    LookupOk ⟨Shipped.T, U⟩ f (utf8s u) n ↔
      ∃ ns, Each (fun p m => LookupOk ⟨Shipped.T, U⟩ f (utf8s p) m ∧ 0x2E ∉ m)
          (partsOf (!f.testBit 6) u) ns ∧
        n = joinDot ns ∧ n.length ≤ fullLimit n ∧
        (f.testBit 6 = false →
          (u.flatMap (emit Shipped.D (f.testBit 2) (f.testBit 5))).length < 255) :=
  C105_labels (World.shipped h) Shipped.dotData hs h0

/-- "ä。b．" has three parts, the last of them empty; without UTS #46 processing it has one. -/
example : partsOf true [0xE4, 0x3002, 0x62, 0xFF0E] = [[0xE4], [0x62], []] ∧
    partsOf false [0xE4, 0x3002, 0x62, 0xFF0E] = [[0xE4, 0x3002, 0x62, 0xFF0E]] ∧
    LookupOk Sample.E 0 (utf8s [0xE4, 0x3002, 0x62, 0xFF0E])
      [0x78, 0x6E, 0x2D, 0x2D, 0x34, 0x63, 0x61, 0x2E, 0x62, 0x2E] := by decide +kernel

end Idn2
