import Verif.Props.Rfc5891

/-
Property C79 without the check of A-labels: two names have the same result exactly if their labels are
equal, or one is the Punycode form of the other.
-/

namespace Idn2

open Spec

/-- All ASCII characters replaced by "a". -/
def blot (c : Nat) : Nat := if c < 0x80 then 0x61 else c

theorem insertionsAt_blot {m : Nat} (hm : 0x80 ≤ m) (u : List Nat) (s : Nat) :
    Punycode.insertionsAt m s (u.map blot) = Punycode.insertionsAt m s u := by
  induction u generalizing s with
  | nil => rfl
  | cons x r ih =>
    rw [List.map_cons]
    unfold Punycode.insertionsAt
    by_cases hx : x < 0x80
    · have hb : blot x = 0x61 := if_pos hx
      rw [hb, if_neg (by omega), if_pos (by omega), if_neg (by omega), if_pos (by omega), ih]
    · have hb : blot x = x := if_neg hx
      rw [hb, ih, ih]

theorem insertions_blot (u : List Nat) :
    Punycode.insertions (u.map blot) = Punycode.insertions u := by
  unfold Punycode.insertions Punycode.insertionsFrom
  rw [List.flatMap_def, List.flatMap_def]
  congr 1
  refine List.map_congr_left fun m hm => ?_
  have := (List.mem_range'_1.mp hm).1
  exact insertionsAt_blot this u 0

theorem basics_blot (u : List Nat) :
    Punycode.basics (u.map blot) = (Punycode.basics u).map blot := by
  unfold Punycode.basics
  rw [List.filter_map]
  congr 1
  refine List.filter_congr fun x _ => ?_
  simp only [Function.comp, blot]
  split <;> simp <;> omega

/-- A text is known from its ASCII characters and the places of the others. -/
theorem blot_inj {u v : List Nat} (h : u.map blot = v.map blot)
    (hb : Punycode.basics u = Punycode.basics v) : u = v := by
  induction u generalizing v with
  | nil => cases v with
    | nil => rfl
    | cons _ _ => cases h
  | cons x u ih =>
    cases v with
    | nil => cases h
    | cons y v =>
      rw [List.map_cons, List.map_cons] at h
      injection h with h1 h2
      unfold Punycode.basics at hb ih
      unfold blot at h1
      by_cases hx : x < 0x80
      · have hy : y < 0x80 := by
          refine Classical.byContradiction fun hy => ?_
          rw [if_pos hx, if_neg hy] at h1
          omega
        rw [List.filter_cons_of_pos (by simpa using hx), List.filter_cons_of_pos (by simpa using hy)] at hb
        injection hb with h3 h4
        rw [h3, ih h2 h4]
      · have hy : ¬ y < 0x80 := by
          intro hy
          rw [if_neg hx, if_pos hy] at h1
          omega
        rw [List.filter_cons_of_neg (by simpa using hx), List.filter_cons_of_neg (by simpa using hy)] at hb
        rw [if_neg hx, if_neg hy] at h1
        rw [h1, ih h2 hb]

/-- The last hyphen separates. -/
theorem lastHyphen {a b c d : List Nat} (hb : 0x2D ∉ b) (hd : 0x2D ∉ d)
    (h : headOf a ++ b = headOf c ++ d) : a = c ∧ b = d := by
  have key : ∀ {a c b d : List Nat}, 0x2D ∉ b → 0x2D ∉ d → a ++ 0x2D :: b = c ++ 0x2D :: d →
      a = c ∧ b = d := by
    intro a
    induction a with
    | nil =>
      intro c b d hb hd h
      cases c with
      | nil => injection h with _ h; exact ⟨rfl, h⟩
      | cons x c =>
        rw [List.nil_append, List.cons_append] at h
        injection h with _ h
        exact absurd (by rw [h]; simp) hb
    | cons y a ih =>
      intro c b d hb hd h
      cases c with
      | nil =>
        rw [List.nil_append, List.cons_append] at h
        injection h with _ h
        exact absurd (by rw [← h]; simp) hd
      | cons x c =>
        rw [List.cons_append, List.cons_append] at h
        injection h with h1 h2
        obtain ⟨h3, h4⟩ := ih hb hd h2
        exact ⟨by rw [h1, h3], h4⟩
  unfold headOf at h
  by_cases ha : a = [] <;> by_cases hc : c = []
  · subst ha; subst hc; exact ⟨rfl, by simpa using h⟩
  · subst ha
    exact absurd (by rw [show b = _ by simpa using h]; simp [hc]) hb
  · subst hc
    exact absurd (by rw [show d = _ by simpa using h.symm]; simp [ha]) hd
  · rw [if_neg ha, if_neg hc, List.append_assoc, List.append_assoc] at h
    exact key hb hd h

theorem codes_nohyphen (u : List Nat) : 0x2D ∉ (Punycode.codes (Punycode.basics u).length
    (Punycode.init (Punycode.basics u).length) (Punycode.insertions u)).map Punycode.digitChar := by
  intro h
  obtain ⟨d, hd, he⟩ := List.mem_map.mp h
  exact (digitChar_basic (codes_lt _ _ d hd)).2 he

/-- No two strings with characters outside ASCII have the same Punycode, whatever the ASCII characters
are. -/
theorem encode_inj {u v : List Nat} (hu : ∀ c ∈ u, isScalar c) (hv : ∀ c ∈ v, isScalar c)
    (nu : ∃ c ∈ u, 0x80 ≤ c) (nv : ∃ c ∈ v, 0x80 ≤ c) (lu : u.length ≤ 3855) (lv : v.length ≤ 3855)
    (h : Punycode.encode u = Punycode.encode v) : u = v := by
  rw [encode_eq_head, encode_eq_head] at h
  obtain ⟨h1, h2⟩ := lastHyphen (codes_nohyphen u) (codes_nohyphen v) h
  refine blot_inj ?_ h1
  have key : ∀ w : List Nat, (∀ c ∈ w, isScalar c) → (∃ c ∈ w, 0x80 ≤ c) → w.length ≤ 3855 →
      punycode_decode 3855 3855 (Punycode.encode (w.map blot)) = .ok (w.map blot) := by
    intro w hw hn hl
    refine decode_encode (by omega) (by omega) ?_ (encodable_scalar ?_) ?_ (by simpa using hl)
    · intro c hc hlt
      obtain ⟨x, -, rfl⟩ := List.mem_map.mp hc
      unfold blot at hlt ⊢
      split
      · unfold isLDHU; decide
      · rw [if_neg ‹_›] at hlt; omega
    · intro c hc
      obtain ⟨x, hx, rfl⟩ := List.mem_map.mp hc
      unfold blot
      split
      · left; decide
      · exact hw x hx
    · obtain ⟨c, hc, hc'⟩ := hn
      exact ⟨c, List.mem_map.mpr ⟨c, hc, if_neg (by omega)⟩, hc'⟩
  have he : Punycode.encode (u.map blot) = Punycode.encode (v.map blot) := by
    rw [encode_eq_head, encode_eq_head, basics_blot, basics_blot, insertions_blot, insertions_blot,
      List.length_map, List.length_map, h2, h1]
  have := (key u hu nu lu).symm.trans ((congrArg _ he).trans (key v hv nv lv))
  injection this

theorem encode_lt (w : List Nat) : ∀ c ∈ Punycode.encode w, c < 0x80 := by
  intro c hc
  rw [encode_eq_head, List.mem_append] at hc
  rcases hc with hc | hc
  · unfold headOf at hc
    rw [List.mem_append] at hc
    rcases hc with hc | hc
    · simpa [Punycode.basics] using (List.mem_filter.mp hc).2
    · split at hc
      · cases hc
      · rw [List.mem_singleton.mp hc]; decide
  · obtain ⟨d, hd, rfl⟩ := List.mem_map.mp hc
    have := isLDHU_digitChar (codes_lt _ _ d hd)
    unfold isLDHU at this
    omega

/-- Two labels that are one label in the DNS: equal, or one is the A-label form of the other. -/
def SameAce (p q : List Nat) : Prop :=
  p = q ∨ ((∃ c ∈ p, 0x80 ≤ c) ∧ q = xn ++ Punycode.encode p) ∨
    ((∃ c ∈ q, 0x80 ≤ c) ∧ p = xn ++ Punycode.encode q)

/-- The ASCII label `d` is that of `v` if A-labels are not looked into. -/
def RawTo (v d : List Nat) : Prop :=
  ((∀ c ∈ v, c < 0x80) ∧ d = v) ∨
    ((∃ c ∈ v, 0x80 ≤ c) ∧ (Punycode.encode v).length ≤ 59 ∧ d = xn ++ Punycode.encode v)

theorem labelTo_raw {D : Data} {U : Uni} {f : Nat} (f7 : f.testBit 7 = true) {l d : List Nat}
    (h : LabelTo D U f l d) : RawTo l d := by
  cases h with
  | ascii h1 => exact .inl ⟨h1, rfl⟩
  | alabel _ _ h1 => rw [f7] at h1; cases h1
  | ulabel h1 _ _ h4 => exact .inr ⟨h1, h4, rfl⟩

theorem raw_ascii {l : List Nat} (h : ∃ c ∈ l, 0x80 ≤ c) (p : List Nat) (hp : ∀ c ∈ p, c < 0x80) :
    p ≠ l := by
  rintro rfl
  obtain ⟨c, hc, h⟩ := h
  have := hp c hc
  omega

theorem sameAce_iff {l k d e : List Nat} (hl : ∀ c ∈ l, isScalar c) (hk : ∀ c ∈ k, isScalar c)
    (h : RawTo l d) (h' : RawTo k e) : d = e ↔ SameAce l k := by
  unfold SameAce
  have ace : ∀ w : List Nat, (∀ c ∈ xn ++ Punycode.encode w, c < 0x80) := by
    intro w c hc
    rcases List.mem_append.mp hc with h | h
    · exact (by decide : ∀ c ∈ xn, c < 0x80) c h
    · exact encode_lt w c h
  rcases h with ⟨h1, rfl⟩ | ⟨h1, h2, rfl⟩ <;> rcases h' with ⟨h3, rfl⟩ | ⟨h3, h4, rfl⟩
  · constructor
    · exact .inl
    · rintro (h | ⟨h, -⟩ | ⟨h, -⟩)
      · exact h
      · exact absurd rfl (raw_ascii h _ h1)
      · exact absurd rfl (raw_ascii h _ h3)
  · constructor
    · exact fun h => .inr (.inr ⟨h3, h⟩)
    · rintro (h | ⟨h, -⟩ | ⟨-, h⟩)
      · exact absurd h (raw_ascii h3 _ h1)
      · exact absurd rfl (raw_ascii h _ h1)
      · exact h
  · constructor
    · exact fun h => .inr (.inl ⟨h1, h.symm⟩)
    · rintro (h | ⟨-, h⟩ | ⟨h, -⟩)
      · exact absurd h.symm (raw_ascii h1 _ h3)
      · exact h.symm
      · exact absurd rfl (raw_ascii h _ h3)
  · constructor
    · intro h
      have g1 := length_le_encode (scalar_lt hl)
      have g2 := length_le_encode (scalar_lt hk)
      exact .inl (encode_inj hl hk h1 h3 (by omega) (by omega) (List.append_cancel_left h))
    · rintro (h | ⟨-, h⟩ | ⟨-, h⟩)
      · rw [h]
      · exact absurd h.symm (raw_ascii h3 _ (ace l))
      · exact absurd h.symm (raw_ascii h1 _ (ace k))

theorem processed_unique {D : Data} {U : Uni} {f : Nat} {u x y : List Nat} (h : Processed D U f u x)
    (h' : Processed D U f u y) : x = y := by
  unfold Processed at h h'
  split at h
  · rw [if_pos ‹_›] at h'; rw [h, h']
  · rw [if_neg ‹_›] at h'
    have := h.2.2.1.symm.trans h'.2.2.1
    injection this

theorem RawTo.nodot {v d : List Nat} (h : RawTo v d) (hv : 0x2E ∉ v) : 0x2E ∉ d := by
  rcases h with ⟨-, rfl⟩ | ⟨-, -, rfl⟩
  · exact hv
  · intro hm
    rcases List.mem_append.mp hm with hm | hm
    · revert hm; decide
    · rw [encode_eq_head, List.mem_append] at hm
      rcases hm with hm | hm
      · unfold headOf at hm
        rw [List.mem_append] at hm
        rcases hm with hm | hm
        · exact hv (List.mem_filter.mp hm).1
        · split at hm
          · cases hm
          · have := List.mem_singleton.mp hm; omega
      · obtain ⟨d, hd, he⟩ := List.mem_map.mp hm
        have := isLDHU_digitChar (codes_lt _ _ d hd)
        rw [he] at this
        revert this
        unfold isLDHU
        decide

/-- The name `n` consists of the ASCII labels for those of `x`. -/
def RawName (x n : List Nat) : Prop :=
  (∀ c ∈ x, isScalar c) ∧ Each RawTo (splitDot x) (splitDot n)

theorem rawName_of {x : List Nat} {ds : List (List Nat)} (hs : ∀ c ∈ x, isScalar c)
    (h : Each RawTo (splitDot x) ds) : RawName x (joinDot ds) := by
  refine ⟨hs, ?_⟩
  rw [splitDot_joinDot]
  · exact h
  · rintro rfl
    cases hx : splitDot x with
    | nil => exact splitDot_ne_nil x hx
    | cons _ _ => rw [hx] at h; cases h
  · intro d hd
    obtain ⟨l, hl, h⟩ := each_mem_right h hd
    exact h.nodot (mem_splitDot_nodot hl)

theorem rawName_iff {x y m n : List Nat} (h1 : RawName x m) (h2 : RawName y n) :
    m = n ↔ Each SameAce (splitDot x) (splitDot y) := by
  have sc : ∀ {x : List Nat}, (∀ c ∈ x, isScalar c) → ∀ l ∈ splitDot x, ∀ c ∈ l, isScalar c :=
    fun h l hl c hc => h c (mem_of_mem_splitDot hl hc)
  have aux : ∀ {ls ks ds es : List (List Nat)}, Each RawTo ls ds → Each RawTo ks es →
      (∀ l ∈ ls, ∀ c ∈ l, isScalar c) → (∀ l ∈ ks, ∀ c ∈ l, isScalar c) →
      (ds = es ↔ Each SameAce ls ks) := by
    intro ls ks ds es h1 h2 hl hk
    induction h1 generalizing ks es with
    | nil =>
      cases h2 with
      | nil => exact ⟨fun _ => .nil, fun _ => rfl⟩
      | cons _ _ => exact ⟨fun h => (by cases h), fun h => (by cases h)⟩
    | cons g1 _ ih =>
      cases h2 with
      | nil => exact ⟨fun h => (by cases h), fun h => (by cases h)⟩
      | cons g2 g3 =>
        have i1 := sameAce_iff (hl _ List.mem_cons_self) (hk _ List.mem_cons_self) g1 g2
        have i2 := ih g3 (fun l h => hl l (List.mem_cons_of_mem _ h))
          (fun l h => hk l (List.mem_cons_of_mem _ h))
        constructor
        · intro h
          injection h with a b
          exact .cons (i1.mp a) (i2.mp b)
        · intro h
          cases h with
          | cons a b => rw [i1.mpr a, i2.mpr b]
  rw [← aux h1.2 h2.2 (sc h1.1) (sc h2.1)]
  constructor
  · rintro rfl; rfl
  · intro he
    rw [← joinDot_splitDot m, he, joinDot_splitDot]

theorem raw_labels {E : Env} {D : Data} (W : World E D) {f : Nat}
    (hb : ¬ (f.testBit 0 = true ∧ f.testBit 6 = true)) (f7 : f.testBit 7 = true) {u n x : List Nat}
    (hs : ∀ c ∈ u, isScalar c) (h0 : 0 ∉ u) (h : LookupOk E f (utf8s u) n)
    (hx : Processed D E.U f u x) : RawName x n := by
  obtain ⟨_, v, hv, he, x', ds, h1, h2, rfl, _⟩ := (C48_lookup_spec W (zero_mem_utf8s h0) hb).mp h
  rw [← utf8s_inj hs hv he] at h1
  have hxx := processed_unique hx h1
  subst hxx
  refine rawName_of ?_ (h2.imp fun h => labelTo_raw f7 h)
  unfold Processed at h1
  split at h1
  · rw [h1]; exact hs
  · have hm := mapText_scalar W.data f hs
    unfold mapText at hm
    rw [(flag_bits f).2.2.1, (flag_bits f).2.2.2.2.1] at hm
    exact W.uni.nfc_scalar _ x hm h1.2.2.1

theorem labelToNfc_raw {D : Data} {U : Uni} (hD : D.Laws) (hU : U.Laws) {f : Nat}
    (f2 : f.testBit 2 = false) (f6 : f.testBit 6 = true) (f7 : f.testBit 7 = true)
    (hk : ∀ a b, U.nfc a = some b → (∀ c ∈ b, isLowerLDH c) → a = b) {l d : List Nat}
    (h : LabelToNfc D U f l d) : ∃ v, U.nfc l = some v ∧ RawTo v d := by
  cases h with
  | ascii h1 => exact ⟨l, hU.nfc_ascii l h1, .inl ⟨h1, rfl⟩⟩
  | alabel _ _ _ h1 => rw [f7] at h1; cases h1
  | ulabel v h1 hnm h2 _ h4 =>
    have hm := ((must_iff f6 f2).mp h2).1
    have hn := norm_nfc hnm hm.nfc
    refine ⟨v, hn, .inr ⟨Classical.byContradiction fun h => ?_, h4, rfl⟩⟩
    have ha : ∀ c ∈ v, c < 0x80 := fun c hc => by
      have : ¬ 0x80 ≤ c := fun h' => h ⟨c, hc, h'⟩
      omega
    have := hk l v hn fun c hc => allowed_lower hD (hm.disallowed c hc) (ha c hc)
    rw [this] at h1
    exact h h1

theorem raw_labels_nfc {E : Env} {D : Data} (W : World E D) {f : Nat} (f0 : f.testBit 0 = true)
    (f6 : f.testBit 6 = true) (f7 : f.testBit 7 = true)
    (hk : ∀ a b, E.U.nfc a = some b → (∀ c ∈ b, isLowerLDH c) → a = b) {u n : List Nat}
    (hs : ∀ c ∈ u, isScalar c) (h0 : 0 ∉ u) (h : LookupOk E f (utf8s u) n) :
    ∃ x, E.U.nfc u = some x ∧ RawName x n := by
  obtain ⟨hc, v, hv, he, ds, h1, rfl, _⟩ := (C48_lookup_nfc W (zero_mem_utf8s h0) f0 f6).mp h
  rw [← utf8s_inj hs hv he] at h1
  have f2 : f.testBit 2 = false := by
    cases b2 : f.testBit 2 with
    | false => rfl
    | true => exact absurd (.inr (.inl ⟨f6, .inl b2⟩)) hc
  obtain ⟨ts, h2, h3⟩ := each_choose h1 fun l _ d h => labelToNfc_raw W.data W.uni f2 f6 f7 hk h
  have hn := nfc_join W.uni h2
  rw [joinDot_splitDot] at hn
  refine ⟨_, hn, rawName_of (W.uni.nfc_scalar _ _ hs hn) ?_⟩
  rw [splitDot_joinDot]
  · exact h3
  · rintro rfl
    cases hsp : splitDot u with
    | nil => exact absurd hsp (splitDot_ne_nil u)
    | cons a as => rw [hsp] at h2; cases h2
  · intro t ht
    obtain ⟨l, hl, h⟩ := each_mem_right h2 ht
    exact W.uni.nfc_nosep l t 0x2E (.inr rfl) (mem_splitDot_nodot hl) h

/-- C79 with NO_ALABEL_ROUNDTRIP: two names have the same result exactly if, in the names as they are
processed, each label is that of the other name or its A-label form; this holds whatever the A-labels
encode, if anything. -/
theorem C79_unchecked {E : Env} {D : Data} (W : World E D) {f : Nat}
    (hb : ¬ (f.testBit 0 = true ∧ f.testBit 6 = true)) (f7 : f.testBit 7 = true)
    {a b m n x y : List Nat} (ha : ∀ c ∈ a, isScalar c) (ha0 : 0 ∉ a) (hb' : ∀ c ∈ b, isScalar c)
    (hb0 : 0 ∉ b) (h : LookupOk E f (utf8s a) m) (h' : LookupOk E f (utf8s b) n)
    (hx : Processed D E.U f a x) (hy : Processed D E.U f b y) :
    m = n ↔ Each SameAce (splitDot x) (splitDot y) := by
  exact rawName_iff (raw_labels W hb f7 ha ha0 h hx) (raw_labels W hb f7 hb' hb0 h' hy)

/-- C79 with NO_ALABEL_ROUNDTRIP, NO_TR46 and NFC_INPUT: the same for the names in NFC, provided that
normalisation makes lower-case letters, digits and hyphens only of themselves. -/
theorem C79_unchecked_nfc {E : Env} {D : Data} (W : World E D) {f : Nat} (f0 : f.testBit 0 = true)
    (f6 : f.testBit 6 = true) (f7 : f.testBit 7 = true)
    (hk : ∀ a b, E.U.nfc a = some b → (∀ c ∈ b, isLowerLDH c) → a = b)
    {a b m n : List Nat} (ha : ∀ c ∈ a, isScalar c) (ha0 : 0 ∉ a) (hb : ∀ c ∈ b, isScalar c)
    (hb0 : 0 ∉ b) (h : LookupOk E f (utf8s a) m) (h' : LookupOk E f (utf8s b) n) :
    ∃ x y, E.U.nfc a = some x ∧ E.U.nfc b = some y ∧
      (m = n ↔ Each SameAce (splitDot x) (splitDot y)) := by
  obtain ⟨x, h1, h2⟩ := raw_labels_nfc W f0 f6 f7 hk ha ha0 h
  obtain ⟨y, h3, h4⟩ := raw_labels_nfc W f0 f6 f7 hk hb hb0 h'
  exact ⟨x, y, h1, h3, rawName_iff h2 h4⟩

/-- The sample normaliser makes lower-case letters, digits and hyphens only of themselves. -/
theorem sample_kept : ∀ a b, Sample.U.nfc a = some b → (∀ c ∈ b, isLowerLDH c) → a = b := by
  have key : ∀ l : List Nat, (∀ c ∈ Sample.compose l, isLowerLDH c) → Sample.compose l = l := by
    intro l
    fun_induction Sample.compose l with
    | case1 => exact fun _ => rfl
    | case2 => exact fun _ => rfl
    | case3 r x h ih =>
      intro h
      have := h 0xE0 List.mem_cons_self
      unfold isLowerLDH at this
      omega
    | case4 x r y h ih =>
      intro h
      rw [ih fun c hc => h c (List.mem_cons_of_mem _ hc)]
  intro a b h hb
  injection h with h
  subst h
  have h1 := key _ hb
  rw [h1] at hb ⊢
  have h2 : a.map Sample.decompose = a.map id := List.map_congr_left fun c hc => by
    have := hb _ (List.mem_map_of_mem hc)
    unfold Sample.decompose isLowerLDH at *
    split
    · rw [if_pos ‹_›] at this; omega
    · rfl
  rw [h2, List.map_id]

/-- So, for the sample data, "a" with a combining accent and "xn--0ca" have the same result because
"xn--0ca" is the A-label form of "à". -/
example : ∃ x y, Sample.E.U.nfc [0x61, 0x300] = some x ∧
    Sample.E.U.nfc [0x78, 0x6E, 0x2D, 0x2D, 0x30, 0x63, 0x61] = some y ∧
    Each SameAce (splitDot x) (splitDot y) := by
  obtain ⟨x, y, h1, h2, h3⟩ := C79_unchecked_nfc World.sample (f := 193) (by decide) (by decide)
    (by decide) sample_kept (a := [0x61, 0x300]) (b := [0x78, 0x6E, 0x2D, 0x2D, 0x30, 0x63, 0x61])
    (m := [0x78, 0x6E, 0x2D, 0x2D, 0x30, 0x63, 0x61]) (n := [0x78, 0x6E, 0x2D, 0x2D, 0x30, 0x63, 0x61])
    (by decide) (by decide) (by decide) (by decide) (by decide +kernel) (by decide +kernel)
  exact ⟨x, y, h1, h2, h3.mp rfl⟩

/-- "à" and "xn--0ca" have the same result with NO_TR46 and NO_ALABEL_ROUNDTRIP; "xn--a-", which encodes
nothing, has another, and so has "xn--0CA". -/
example : LookupOk Sample.E 192 (utf8s [0xE0]) [0x78, 0x6E, 0x2D, 0x2D, 0x30, 0x63, 0x61] ∧
    LookupOk Sample.E 192 [0x78, 0x6E, 0x2D, 0x2D, 0x30, 0x63, 0x61] [0x78, 0x6E, 0x2D, 0x2D, 0x30, 0x63, 0x61] ∧
    LookupOk Sample.E 192 [0x78, 0x6E, 0x2D, 0x2D, 0x61, 0x2D] [0x78, 0x6E, 0x2D, 0x2D, 0x61, 0x2D] ∧
    LookupOk Sample.E 192 [0x78, 0x6E, 0x2D, 0x2D, 0x30, 0x43, 0x41]
      [0x78, 0x6E, 0x2D, 0x2D, 0x30, 0x43, 0x41] := by decide +kernel

/-- So the theorem says of "à" that "xn--0ca" is its A-label form, and "xn--0CA" is not. -/
example : SameAce [0xE0] [0x78, 0x6E, 0x2D, 0x2D, 0x30, 0x63, 0x61] ∧
    ¬ SameAce [0xE0] [0x78, 0x6E, 0x2D, 0x2D, 0x30, 0x43, 0x41] := by
  have h1 : LookupOk Sample.E 192 (utf8s [0xE0]) [0x78, 0x6E, 0x2D, 0x2D, 0x30, 0x63, 0x61] := by
    decide +kernel
  have h2 : LookupOk Sample.E 192 (utf8s [0x78, 0x6E, 0x2D, 0x2D, 0x30, 0x63, 0x61])
      [0x78, 0x6E, 0x2D, 0x2D, 0x30, 0x63, 0x61] := by decide +kernel
  have h3 : LookupOk Sample.E 192 (utf8s [0x78, 0x6E, 0x2D, 0x2D, 0x30, 0x43, 0x41])
      [0x78, 0x6E, 0x2D, 0x2D, 0x30, 0x43, 0x41] := by decide +kernel
  have key : ∀ x, Processed Sample.D Sample.E.U 192 x x := fun x => by
    unfold Processed
    rw [if_pos (by decide)]
  have e2 := (C79_unchecked World.sample (by decide) (by decide) (by decide) (by decide) (by decide)
    (by decide) h1 h2 (key _) (key _)).mp rfl
  have e3 := (C79_unchecked World.sample (by decide) (by decide) (by decide) (by decide) (by decide)
    (by decide) h1 h3 (key _) (key _))
  rw [splitDot_nodot (by decide), splitDot_nodot (by decide)] at e2 e3
  constructor
  · cases e2
    assumption
  · intro h
    have := e3.mpr (.cons h .nil)
    revert this
    decide

end Idn2
