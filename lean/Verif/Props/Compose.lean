import Verif.Props.Collision

/-
Property C83: the labels of a name do not influence each other.
-/

namespace Idn2
open Spec

variable {D : Data}

theorem splitDot_append (a b : List Nat) :
    splitDot (a ++ 0x2E :: b) = splitDot a ++ splitDot b := by
  induction a with
  | nil => rw [List.nil_append, splitDot_cons_dot]; rfl
  | cons c r ih =>
    by_cases hc : c = 0x2E
    · subst hc
      rw [List.cons_append, splitDot_cons_dot, splitDot_cons_dot, ih, List.cons_append]
    · obtain ⟨l, ls, hl⟩ := List.exists_cons_of_ne_nil (splitDot_ne_nil r)
      rw [List.cons_append, splitDot_cons hc (l := l) (ls := ls ++ splitDot b) (by rw [ih, hl]; rfl),
        splitDot_cons hc hl, List.cons_append]

theorem joinDot_append {as bs : List (List Nat)} (ha : as ≠ []) (hb : bs ≠ []) :
    joinDot (as ++ bs) = joinDot as ++ 0x2E :: joinDot bs := by
  induction as with
  | nil => exact absurd rfl ha
  | cons l ls ih =>
    cases ls with
    | nil => rw [List.singleton_append, joinDot_cons hb]; rfl
    | cons x xs =>
      rw [List.cons_append, joinDot_cons (by simp), ih (by simp),
        joinDot_cons (l := l) (ls := x :: xs) (by simp), List.append_assoc, List.cons_append]

theorem each_append {α β : Type} {R : α → β → Prop} {as as' : List α} {bs bs' : List β}
    (h : Each R as bs) (h' : Each R as' bs') : Each R (as ++ as') (bs ++ bs') := by
  induction h with
  | nil => exact h'
  | cons h1 _ ih => exact .cons h1 ih

theorem each_of_append {α β : Type} {R : α → β → Prop} {as as' : List α} {ds : List β}
    (h : Each R (as ++ as') ds) : ∃ bs bs', ds = bs ++ bs' ∧ Each R as bs ∧ Each R as' bs' := by
  induction as generalizing ds with
  | nil => exact ⟨[], ds, rfl, .nil, h⟩
  | cons a r ih =>
    cases h with
    | cons h1 h2 =>
      obtain ⟨bs, bs', rfl, h3, h4⟩ := ih h2
      exact ⟨_ :: bs, bs', rfl, .cons h1 h3, h4⟩

/-- The limit for a name: one more than 253 if it ends with a full stop. -/
def Spec.fullLimit (n : List Nat) : Nat := if n.getLast? = some 0x2E then 254 else 253

theorem limit_iff {ds : List (List Nat)} (hd : ∀ d ∈ ds, 0x2E ∉ d) :
    ((joinDot ds).length ≤ if ds.getLast? = some [] then 254 else 253) ↔
      (joinDot ds).length ≤ fullLimit (joinDot ds) := by
  unfold fullLimit
  by_cases hn : joinDot ds = []
  · rw [hn]; simp
  · have h1 := getLast_joinDot_dot hd hn
    have h2 : (joinDot ds).getLast? = some 0x2E → ds.getLast? = some [] := by
      clear h1
      induction ds with
      | nil => intro h; simp [joinDot] at h
      | cons l ls ih =>
        cases ls with
        | nil =>
          intro h
          exact absurd (List.mem_of_getLast? h) (hd l List.mem_cons_self)
        | cons x xs =>
          intro h
          rw [List.getLast?_cons_of_ne_nil (by simp)]
          rw [joinDot_cons (by simp), List.getLast?_append] at h
          by_cases hj : joinDot (x :: xs) = []
          · cases xs with
            | nil =>
              have : x = [] := hj
              subst this
              rfl
            | cons y ys => rw [joinDot_cons (by simp)] at hj; simp at hj
          · rw [List.getLast?_cons_of_ne_nil hj] at h
            refine ih (fun d hd' => hd d (List.mem_cons_of_mem _ hd')) hj ?_
            cases hg : (joinDot (x :: xs)).getLast? with
            | none => exact absurd (List.getLast?_eq_none_iff.mp hg) hj
            | some c => rw [hg] at h; exact h
    by_cases h : ds.getLast? = some []
    · rw [if_pos h, if_pos (h1 h)]
    · rw [if_neg h, if_neg fun h' => h (h2 h')]

/-- A conversion label by label, with the limit on the whole, is the conversion of the parts. -/
theorem compose_labels {R : List Nat → List Nat → Prop} {as bs : List (List Nat)} (ha : as ≠ [])
    (hb : bs ≠ []) (hR : ∀ l ∈ as ++ bs, ∀ d, R l d → 0x2E ∉ d) {n : List Nat} :
    (∃ ds, Each R (as ++ bs) ds ∧ n = joinDot ds ∧
      n.length ≤ if ds.getLast? = some [] then 254 else 253) ↔
    ∃ m k, (∃ ds, Each R as ds ∧ m = joinDot ds ∧
        m.length ≤ if ds.getLast? = some [] then 254 else 253) ∧
      (∃ ds, Each R bs ds ∧ k = joinDot ds ∧
        k.length ≤ if ds.getLast? = some [] then 254 else 253) ∧
      n = m ++ 0x2E :: k ∧ n.length ≤ fullLimit n := by
  have hne : ∀ {ls ds}, ls ≠ [] → Each R ls ds → ds ≠ [] := by
    intro ls ds h1 h2
    cases h2 with
    | nil => exact absurd rfl h1
    | cons => simp
  have hnd : ∀ {ls ds}, (∀ l ∈ ls, l ∈ as ++ bs) → Each R ls ds → ∀ d ∈ ds, 0x2E ∉ d := by
    intro ls ds h1 h2 d hd
    obtain ⟨l, hl, hr⟩ := each_mem_right h2 hd
    exact hR l (h1 l hl) d hr
  constructor
  · rintro ⟨ds, h1, rfl, h2⟩
    rw [limit_iff (hnd (fun _ h => h) h1)] at h2
    obtain ⟨ds1, ds2, rfl, h3, h4⟩ := each_of_append h1
    have hj := joinDot_append (hne ha h3) (hne hb h4)
    have hd1 := hnd (fun _ h => List.mem_append_left _ h) h3
    have hd2 := hnd (fun _ h => List.mem_append_right _ h) h4
    refine ⟨joinDot ds1, joinDot ds2, ⟨ds1, h3, rfl, (limit_iff hd1).mpr ?_⟩,
      ⟨ds2, h4, rfl, (limit_iff hd2).mpr ?_⟩, hj, h2⟩ <;>
    · have h5 : fullLimit (joinDot (ds1 ++ ds2)) ≤ 254 := by unfold fullLimit; split <;> omega
      have h6 := congrArg List.length hj
      simp only [List.length_append, List.length_cons] at h6
      unfold fullLimit
      split <;> omega
  · rintro ⟨_, _, ⟨ds1, h3, rfl, _⟩, ⟨ds2, h4, rfl, _⟩, rfl, h2⟩
    have hj := joinDot_append (hne ha h3) (hne hb h4)
    have h1 := each_append h3 h4
    refine ⟨ds1 ++ ds2, h1, hj.symm, ?_⟩
    rw [← hj] at h2 ⊢
    exact (limit_iff (hnd (fun _ h => h) h1)).mpr h2

theorem utf8s_dot (u v : List Nat) : utf8s (u ++ 0x2E :: v) = utf8s u ++ 0x2E :: utf8s v := by
  unfold utf8s
  rw [List.flatMap_append, List.flatMap_cons]
  rfl

theorem labelTo_nodot {U : Uni} {f : Nat} {l d : List Nat} (hl : 0x2E ∉ l)
    (h : LabelTo D U f l d) : 0x2E ∉ d := by
  have hx : 0x2E ∉ xn := by decide
  cases h with
  | ascii => exact hl
  | alabel t u h1 h2 h3 h4 h5 h6 h7 =>
    intro hc
    rcases List.mem_append.mp hc with hc | hc
    · exact hx hc
    · have hm : asciiLower 0x2E ∈ (Punycode.encode u).map asciiLower := List.mem_map_of_mem hc
      rw [← h6] at hm
      obtain ⟨c, hc, he⟩ := List.mem_map.mp hm
      have := h3.chars c hc
      unfold isLDHU at this
      have h8 : asciiLower 0x2E = 0x2E := by decide
      rw [h8] at he
      unfold asciiLower at he
      split at he <;> omega
  | ulabel =>
    intro hc
    rcases List.mem_append.mp hc with hc | hc
    · exact hx hc
    · rcases encode_mem hc with h | h
      · exact hl h.1
      · unfold isLowerLDH at h; omega

/-- Lookup of one label gives one label. -/
theorem lookupOk_nodot {E : Env} (W : World E D) {f : Nat} (h6 : f.testBit 6 = true) {l d : List Nat}
    (h0 : 0 ∉ l) (hl : 0x2E ∉ l) (h : LookupOk E f l d) : 0x2E ∉ d := by
  obtain ⟨f', hf, hp⟩ := lookupF_ok_iff.mp ((LookupOk_iff W h0).mp h)
  obtain ⟨rfl, hn⟩ := set_noTr46 h6 hf
  obtain ⟨src, ds, _, hsrc, heach, hd, _, _, hds⟩ := lookupP_ok W h0 hp
  rw [if_pos hn] at hsrc
  subst hsrc
  rw [splitDot_nodot hl] at heach
  cases heach with
  | cons h1 h2 =>
    cases h2
    rw [hd]
    exact (hds _ List.mem_cons_self).2.2.2

theorem processed_dot {U : Uni} (hU : U.Laws) (hD : D.Laws) {f : Nat} (h6 : f.testBit 6 = false)
    {u v x : List Nat} :
    Processed D U f (u ++ 0x2E :: v) x ↔ ∃ y z, Processed D U f u y ∧ Processed D U f v z ∧
      x = y ++ 0x2E :: z ∧
      ((u ++ 0x2E :: v).flatMap (emit D (f.testBit 2) (f.testBit 5))).length < 255 := by
  have hdot : emit D (f.testBit 2) (f.testBit 5) 0x2E = [0x2E] := by unfold emit; rw [hD.dot.1]
  have hm : (u ++ 0x2E :: v).flatMap (emit D (f.testBit 2) (f.testBit 5)) =
      u.flatMap (emit D (f.testBit 2) (f.testBit 5)) ++
        0x2E :: v.flatMap (emit D (f.testBit 2) (f.testBit 5)) := by
    rw [List.flatMap_append, List.flatMap_cons, hdot]
    rfl
  unfold Processed
  simp only [h6, Bool.false_eq_true, ↓reduceIte]
  rw [hm]
  generalize u.flatMap (emit D (f.testBit 2) (f.testBit 5)) = a
  generalize v.flatMap (emit D (f.testBit 2) (f.testBit 5)) = b
  rw [hU.nfc_sep a 0x2E b (.inr rfl)]
  constructor
  · rintro ⟨h1, h2, h3, h4⟩
    cases ha : U.nfc a with
    | none => rw [ha] at h3; cases h3
    | some y =>
      cases hb : U.nfc b with
      | none => rw [ha, hb] at h3; cases h3
      | some z =>
        rw [ha, hb] at h3
        injection h3 with h3
        subst h3
        rw [splitDot_append] at h4
        rw [List.length_append, List.length_cons] at h2
        exact ⟨y, z,
          ⟨fun c hc => h1 c (List.mem_append_left _ hc), by omega, rfl,
            fun l hl => h4 l (List.mem_append_left _ hl)⟩,
          ⟨fun c hc => h1 c (List.mem_append_right _ (List.mem_cons_of_mem _ hc)), by omega, rfl,
            fun l hl => h4 l (List.mem_append_right _ hl)⟩, rfl,
          by rw [List.length_append, List.length_cons]; exact h2⟩
  · rintro ⟨y, z, ⟨h1, _, h2, h3⟩, ⟨h4, _, h5, h6⟩, rfl, h7⟩
    refine ⟨?_, h7, ?_, ?_⟩
    · intro c hc
      rcases List.mem_append.mp hc with hc | hc
      · exact h1 c hc
      · rcases List.mem_cons.mp hc with rfl | hc
        · rw [hD.dot.1]; simp
        · exact h4 c hc
    · rw [h2, h5]; rfl
    · intro l hl
      rw [splitDot_append] at hl
      rcases List.mem_append.mp hl with hl | hl
      · exact h3 l hl
      · exact h6 l hl

/-- C83.  Lookup of two names put together with a full stop: both are looked up by themselves and
the results put together, if that is not too long.  No label has an influence on another. -/
theorem C83_compose {E : Env} (W : World E D) {f : Nat} {u v n : List Nat}
    (hu : ∀ c ∈ u, isScalar c) (hv : ∀ c ∈ v, isScalar c) (hu0 : 0 ∉ u) (hv0 : 0 ∉ v) :
    LookupOk E f (utf8s (u ++ 0x2E :: v)) n ↔
      ∃ m k, LookupOk E f (utf8s u) m ∧ LookupOk E f (utf8s v) k ∧ n = m ++ 0x2E :: k ∧
        n.length ≤ fullLimit n ∧
        (f.testBit 6 = false →
          ((u ++ 0x2E :: v).flatMap (emit D (f.testBit 2) (f.testBit 5))).length < 255) := by
  have hs : ∀ c ∈ u ++ 0x2E :: v, isScalar c := by
    intro c hc
    rcases List.mem_append.mp hc with hc | hc
    · exact hu c hc
    · rcases List.mem_cons.mp hc with rfl | hc
      · left; omega
      · exact hv c hc
  have hs0 : 0 ∉ u ++ 0x2E :: v := by
    intro hc
    rcases List.mem_append.mp hc with hc | hc
    · exact hu0 hc
    · rcases List.mem_cons.mp hc with hc | hc
      · cases hc
      · exact hv0 hc
  have z1 : 0 ∉ utf8s u := fun h => hu0 ((utf8s_zero_iff hu).mp h)
  have z2 : 0 ∉ utf8s v := fun h => hv0 ((utf8s_zero_iff hv).mp h)
  have z3 : 0 ∉ utf8s (u ++ 0x2E :: v) := fun h => hs0 ((utf8s_zero_iff hs).mp h)
  cases h6 : f.testBit 6 with
  | true =>
    rw [C10_labelwise W z3 h6, utf8s_dot, splitDot_append,
      compose_labels (splitDot_ne_nil _) (splitDot_ne_nil _)]
    · constructor
      · rintro ⟨m, k, h1, h2, h3, h4⟩
        exact ⟨m, k, (C10_labelwise W z1 h6).mpr h1, (C10_labelwise W z2 h6).mpr h2, h3, h4,
          fun h => by cases h⟩
      · rintro ⟨m, k, h1, h2, h3, h4, _⟩
        exact ⟨m, k, (C10_labelwise W z1 h6).mp h1, (C10_labelwise W z2 h6).mp h2, h3, h4⟩
    · intro l hl d hd
      rw [← splitDot_append] at hl
      rw [utf8s_dot] at z3
      exact lookupOk_nodot W h6 (fun hc => z3 (mem_of_mem_splitDot hl hc)) (mem_splitDot_nodot hl) hd
  | false =>
    have hb : ¬ (f.testBit 0 = true ∧ f.testBit 6 = true) := by rw [h6]; simp
    have key : ∀ {w : List Nat}, (∀ c ∈ w, isScalar c) → 0 ∉ w → ∀ n,
        (LookupOk E f (utf8s w) n ↔ ¬ Conflict f ∧ ToAscii D E.U f w n) := by
      intro w hw hw0 n
      rw [C48_lookup_spec W (fun h => hw0 ((utf8s_zero_iff hw).mp h)) hb]
      constructor
      · rintro ⟨h1, w', h2, h3, h4⟩
        rw [utf8s_inj hw h2 h3]
        exact ⟨h1, h4⟩
      · rintro ⟨h1, h2⟩
        exact ⟨h1, w, hw, rfl, h2⟩
    rw [key hs hs0]
    simp only [key hu hu0, key hv hv0]
    constructor
    · rintro ⟨hc, x, ds, h1, h2, h3, h4⟩
      obtain ⟨y, z, h5, h7, rfl, h8⟩ := (processed_dot W.uni W.data h6).mp h1
      rw [splitDot_append] at h2
      obtain ⟨m, k, ⟨d1, a1, a2, a3⟩, ⟨d2, b1, b2, b3⟩, h9, h10⟩ := (compose_labels
        (splitDot_ne_nil y) (splitDot_ne_nil z) (fun l hl d hd => labelTo_nodot (by
          rw [← splitDot_append] at hl; exact mem_splitDot_nodot hl) hd)).mp ⟨ds, h2, h3, h4⟩
      exact ⟨m, k, ⟨hc, y, d1, h5, a1, a2, a3⟩, ⟨hc, z, d2, h7, b1, b2, b3⟩, h9, h10, fun _ => h8⟩
    · rintro ⟨m, k, ⟨hc, y, d1, h5, a1, a2, a3⟩, ⟨_, z, d2, h7, b1, b2, b3⟩, h9, h10, h8⟩
      obtain ⟨ds, c1, c2, c3⟩ := (compose_labels (n := n)
        (splitDot_ne_nil y) (splitDot_ne_nil z) (fun l hl d hd => labelTo_nodot (by
          rw [← splitDot_append] at hl; exact mem_splitDot_nodot hl) hd)).mpr
          ⟨m, k, ⟨d1, a1, a2, a3⟩, ⟨d2, b1, b2, b3⟩, h9, h10⟩
      refine ⟨hc, y ++ 0x2E :: z, ds,
        (processed_dot W.uni W.data h6).mpr ⟨y, z, h5, h7, rfl, h8 trivial⟩, ?_, c2, c3⟩
      rw [splitDot_append]
      exact c1

/-- C83: the parts of a name that is looked up are looked up, whatever the flags. -/
theorem C83_parts {E : Env} (W : World E D) {f : Nat} {u v n : List Nat}
    (hu : ∀ c ∈ u, isScalar c) (hv : ∀ c ∈ v, isScalar c) (hu0 : 0 ∉ u) (hv0 : 0 ∉ v)
    (h : LookupOk E f (utf8s (u ++ 0x2E :: v)) n) :
    (∃ m, LookupOk E f (utf8s u) m ∧ m ++ [0x2E] <+: n) ∧
    ∃ k, LookupOk E f (utf8s v) k ∧ 0x2E :: k <:+ n := by
  obtain ⟨m, k, h1, h2, rfl, _⟩ := (C83_compose W hu hv hu0 hv0).mp h
  exact ⟨⟨m, h1, k, by simp⟩, k, h2, m, rfl⟩

/-- C83, beside it: "Bü.b。" is made of "Bü" and "b。". -/
example : LookupOk Sample.E 0 (utf8s [0x42, 0xFC, 0x2E, 0x62, 0x3002])
      [0x78, 0x6E, 0x2D, 0x2D, 0x62, 0x2D, 0x65, 0x68, 0x61, 0x2E, 0x62, 0x2E] ∧
    (∃ m, LookupOk Sample.E 0 (utf8s [0x42, 0xFC]) m) ∧
    ∃ k, LookupOk Sample.E 0 (utf8s [0x62, 0x3002]) k := by
  have h : LookupOk Sample.E 0 (utf8s ([0x42, 0xFC] ++ 0x2E :: [0x62, 0x3002]))
      [0x78, 0x6E, 0x2D, 0x2D, 0x62, 0x2D, 0x65, 0x68, 0x61, 0x2E, 0x62, 0x2E] := by decide +kernel
  obtain ⟨⟨m, h1, _⟩, k, h2, _⟩ :=
    C83_parts World.sample (by decide) (by decide) (by decide) (by decide) h
  exact ⟨h, ⟨m, h1⟩, k, h2⟩

end Idn2
