import Verif.Proof.LookupErr

/-
Property C52: the error codes of lookup.
-/

namespace Idn2
open Spec

/-- C52.  With IDN2_NO_TR46 the name fails exactly with the error of the first label that fails
on its own, or with IDN2_TOO_BIG_DOMAIN if before that the name has become too long. -/
theorem C52_first_label {E : Env} {D : Data} (W : World E D) {flags : Nat} {s : List Nat} {e : Rc}
    (h0 : 0 ∉ s) (h6 : flags.testBit 6 = true) (hc : ¬ Conflict flags) :
    LookupErr E flags s e ↔ FirstErr (LookupOk E flags) (LookupErr E flags) (splitDot s) e := by
  obtain ⟨f, hf⟩ := set_default_flags_ok hc
  obtain ⟨rfl, hn⟩ := set_noTr46 h6 hf
  have hF : ∀ s, lookupF E D f s = lookupP E D f s := by
    intro s; unfold lookupF; rw [hf]
  have hok : ∀ l ∈ splitDot s, ∀ d, LookupOk E f l d ↔ labelP E l f = .ok d := by
    intro l hl d
    have hl0 : 0 ∉ l := fun hc => h0 (mem_of_mem_splitDot hl hc)
    rw [LookupOk_iff W hl0, hF]
    exact lookup_label W hl0 (mem_splitDot_nodot hl) hn
  have herr : ∀ l ∈ splitDot s, ∀ e, LookupErr E f l e ↔ labelP E l f = .err e := by
    intro l hl e
    have hl0 : 0 ∉ l := fun hc => h0 (mem_of_mem_splitDot hl hc)
    rw [LookupErr_iff W hl0, hF, lookupP_noTr46 hn, splitDot_nodot (mem_splitDot_nodot hl)]
    cases hp : labelP E l f with
    | err e' => simp [loopL, hp]
    | ub => simp [loopL, hp]
    | ok d =>
      have : d.length ≤ 63 := (labelP_dst W hl0 hp).2.1
      simp only [loopL, hp, Res.bind_ok, List.length_nil, Nat.zero_add]
      rw [if_neg (by split <;> omega)]
      simp
  rw [LookupErr_iff W h0, hF, lookupP_noTr46 hn, loopL_err_iff]
  have conv : ∀ {ok ok' : List Nat → List Nat → Prop} {er er' : List Nat → Rc → Prop},
      (∀ l ∈ splitDot s, ∀ d, ok l d → ok' l d) → (∀ l ∈ splitDot s, ∀ e, er l e → er' l e) →
      FirstErr ok er (splitDot s) e → FirstErr ok' er' (splitDot s) e := by
    rintro ok ok' er er' g1 g2 ⟨pre, l, post, ds, k1, k2, k3, k4⟩
    have hl : l ∈ splitDot s := by rw [k1]; simp
    refine ⟨pre, l, post, ds, k1, each_imp_mem k2 fun a ha b => g1 a (by rw [k1]; simp [ha]) b, k3, ?_⟩
    rcases k4 with k4 | ⟨d, k4, k5⟩
    · exact Or.inl (g2 l hl e k4)
    · exact Or.inr ⟨d, g1 l hl d k4, k5⟩
  exact ⟨conv (fun l hl d => (hok l hl d).mpr) (fun l hl e => (herr l hl e).mpr),
    conv (fun l hl d => (hok l hl d).mp) (fun l hl e => (herr l hl e).mp)⟩

/-- "ä..-" style names: the first failing label decides. -/
example : LookupErr Sample.E 64 [0xC3, 0xA4, 0x2E, 0xFF, 0x2E, 0xCC, 0x80] .encodingError ∧
    LookupErr Sample.E 64 [0xC3, 0xA4, 0x2E, 0xCC, 0x80, 0x2E, 0xFF] .leadingCombining := by
  decide +kernel

/-- C52.  An error of lookup of a well-formed name has the reason the declarative account gives.
The combination of NO_TR46 with NFC_INPUT is `C52_lookup_error_nfc`. -/
theorem C52_lookup_error {E : Env} {D : Data} (W : World E D) {flags : Nat} {u : List Nat} {e : Rc}
    (hu : ∀ c ∈ u, isScalar c) (hu0 : 0 ∉ u)
    (hb : ¬ (flags.testBit 0 = true ∧ flags.testBit 6 = true)) (hc : ¬ Conflict flags)
    (h : LookupErr E flags (utf8s u) e) : ToAsciiErr D E.U flags u e := by
  have h0 : 0 ∉ utf8s u := zero_mem_utf8s hu0
  obtain ⟨f, hf⟩ := set_default_flags_ok hc
  rw [LookupErr_iff W h0] at h
  unfold lookupF at h
  rw [hf] at h
  simp only at h
  have h6 : has f IDN2_NO_TR46 = flags.testBit 6 := by
    rw [set_default_flags_bits hf _ (by decide), (flag_bits flags).2.2.2.2.2.1]
  have h2 : has f IDN2_TRANSITIONAL = flags.testBit 2 := by
    rw [set_default_flags_bits hf _ (by decide), (flag_bits flags).2.2.1]
  have h5 : has f IDN2_USE_STD3_ASCII_RULES = flags.testBit 5 := by
    rw [set_default_flags_bits hf _ (by decide), (flag_bits flags).2.2.2.2.1]
  have hmap : mapText D f u = u.flatMap (emit D (flags.testBit 2) (flags.testBit 5)) := by
    unfold mapText; rw [h2, h5]
  have hms : ∀ c ∈ mapText D f u, isScalar c := mapText_scalar W.data f hu
  have hm0 : 0 ∉ mapText D f u := zero_mem_mapText W.data f hu0
  -- the label loop
  have hloop : ∀ x, (∀ c ∈ x, isScalar c) → 0 ∉ x →
      (∀ l ∈ splitDot x, flags.testBit 0 = false ∨ (E.U.nfc l = some l ∧
        ∀ t u, l = xn ++ t → Decodes t u → E.U.nfc u = some u)) →
      loopL E f (splitDot (utf8s x)) [] = .err e →
      FirstErr (LabelTo D E.U flags) (Spec.LabelErr D E.U flags) (splitDot x) e := by
    intro x hx hx0 hn hl
    rw [loopL_err_iff, splitDot_utf8s hx] at hl
    obtain ⟨pre, l, post, ds, k1, k2, k3, k4⟩ := hl
    obtain ⟨pre', r, e1, rfl, e2⟩ := List.map_eq_append_iff.mp k1
    obtain ⟨l', post', rfl, rfl, rfl⟩ := List.map_eq_cons_iff.mp e2
    have hmem : ∀ a ∈ splitDot x, (∀ c ∈ a, isScalar c) ∧ 0 ∉ a := fun a ha =>
      ⟨fun c hc => hx c (mem_of_mem_splitDot ha hc), fun hc => hx0 (mem_of_mem_splitDot ha hc)⟩
    have hto : ∀ a ∈ splitDot x, ∀ d, labelP E (utf8s a) f = .ok d → LabelTo D E.U flags a d :=
      fun a ha d => (labelP_iff W hf (hmem a ha).1 (hmem a ha).2 (hn a ha)).mp
    have hl' : l' ∈ splitDot x := by rw [e1]; simp
    refine ⟨pre', l', post', ds, e1, ?_, k3, ?_⟩
    · rw [each_map_iff] at k2
      exact each_imp_mem k2 fun a ha d => hto a (by rw [e1]; simp [ha]) d
    · rcases k4 with k4 | ⟨d, g1, g2, g3⟩
      · exact Or.inl (labelP_err W hf (hmem l' hl').1 (hmem l' hl').2 (hn l' hl') k4)
      · refine Or.inr ⟨d, hto l' hl' d g1, g2, ?_⟩
        simpa using g3
  unfold lookupP at h
  rw [h6] at h
  unfold ToAsciiErr
  cases hb6 : flags.testBit 6 with
  | true =>
    right
    rw [hb6] at h
    simp only [↓reduceIte, Res.bind_ok] at h
    have hb0 : flags.testBit 0 = false := by
      cases h : flags.testBit 0 with
      | false => rfl
      | true => exact absurd ⟨h, hb6⟩ hb
    refine ⟨u, ?_, hloop u hu hu0 (fun _ _ => Or.inl hb0) h⟩
    unfold Processed
    rw [if_pos hb6]
  | false =>
    rw [hb6] at h
    simp only [Bool.false_eq_true, ↓reduceIte] at h
    unfold tr46P at h
    rw [u8Decode_some_iff.mpr ⟨hu, rfl⟩] at h
    simp only at h
    by_cases hdis : ∃ c ∈ u, D.status c = .disallowed
    · rw [if_pos hdis, Res.bind_err] at h
      injection h with h
      subst h
      obtain ⟨c, hc, hd⟩ := hdis
      exact Or.inl ⟨rfl, .disallowed c hc hd⟩
    rw [if_neg hdis] at h
    have hdis : ∀ c ∈ u, D.status c ≠ .disallowed := fun c hc hd => hdis ⟨c, hc, hd⟩
    by_cases hlen : (mapText D f u).length ≥ 255
    · rw [if_pos hlen, Res.bind_err] at h
      injection h with h
      subst h
      rw [hmap] at hlen
      exact Or.inl ⟨rfl, .long hdis hlen⟩
    rw [if_neg hlen] at h
    have hlen' : (u.flatMap (emit D (flags.testBit 2) (flags.testBit 5))).length < 255 := by
      rw [← hmap]; omega
    cases hx : E.U.nfc (mapText D f u) with
    | none =>
      rw [hx] at h
      injection h with h
      subst h
      rw [hmap] at hx
      exact Or.inl ⟨rfl, .nfc hdis hlen' hx⟩
    | some x =>
      rw [hx] at h
      simp only at h
      have hxs := W.uni.nfc_scalar _ x hms hx
      have hx0 := W.uni.nfc_nosep _ x 0 (Or.inl rfl) hm0 hx
      have hls : ∀ l ∈ splitDot x, ∀ c ∈ l, isScalar c :=
        fun l hl c hc => hxs c (mem_of_mem_splitDot hl hc)
      obtain ⟨t1, t2⟩ := tr46LabelsP_cases W hf hls none
      cases hp : tr46LabelsP E f (splitDot x) none with
      | ub => rw [hp] at h; cases h
      | err e' =>
        rw [hp] at h
        injection h with h
        subst h
        obtain ⟨pre, l, post, g1, g2, g3⟩ := t1 _ hp
        rw [hmap] at hx
        exact Or.inl ⟨rfl, .labels x _ hdis hlen' hx (.stop pre post l g1 g2 g3)⟩
      | ok o =>
        rw [hp, Res.bind_ok] at h
        cases o with
        | some e' =>
          simp only [Res.bind_err] at h
          injection h with h
          subst h
          obtain ⟨g1, g2⟩ := t2 _ hp
          rcases g2 with ⟨g2, _⟩ | ⟨pre, l, post, g2, g3, g4⟩
          · cases g2
          · rw [hmap] at hx
            exact Or.inl ⟨rfl, .labels x _ hdis hlen' hx (.last pre post l g2 g1 g3 g4)⟩
        | none =>
          right
          rw [u8Encode_utf8s hxs] at h
          simp only [Res.bind_ok] at h
          have hv : ∀ l ∈ splitDot x, Tr46Label D E.U flags l := fun l hl =>
            (tr46LabelP_iff W hf (hls l hl)).mp ((tr46LabelsP_none.mp hp).2 l hl)
          refine ⟨x, ?_, hloop x hxs hx0 ?_ h⟩
          · unfold Processed
            rw [hb6]
            simp only [Bool.false_eq_true, ↓reduceIte]
            exact ⟨hdis, hlen', hmap ▸ hx, hv⟩
          · intro l hl
            exact Or.inr ⟨nfc_labels W.uni (W.uni.nfc_idem _ _ hx) l hl,
              fun t v h1 h2 => fault_free_nfc (tr46TestsA_nfc flags)
                (tr46Label_decoded (hv l hl) h1 h2)⟩

-- UTS #46: the last invalid label decides ("-ä.ab--ä" and the other way round) unless an A-label
-- cannot be decoded ("xn--a-")
example :
    LookupErr Sample.E 0 (utf8s ([0x2D, 0xE4] ++ 0x2E :: [0x61, 0x62, 0x2D, 0x2D, 0xE4])) .twoHyphen ∧
    LookupErr Sample.E 0 (utf8s ([0x61, 0x62, 0x2D, 0x2D, 0xE4] ++ 0x2E :: [0x2D, 0xE4]))
      .hyphenStartEnd ∧
    LookupErr Sample.E 0 (utf8s ([0x2D, 0xE4] ++ 0x2E :: [0x78, 0x6E, 0x2D, 0x2D, 0x61, 0x2D] ++
      0x2E :: [0x61, 0x62, 0x2D, 0x2D, 0xE4])) .punycodeBadInput := by decide +kernel

/-! ### Success and failure exclude each other -/

theorem Spec.Decodes.unique {t u v : List Nat} (h1 : Decodes t u) (h2 : Decodes t v) : u = v := by
  have := decodes_iff.mpr h1
  rw [decodes_iff.mpr h2] at this
  injection this with this
  exact this.symm

theorem xn_cancel {a b : List Nat} (h : xn ++ a = xn ++ b) : a = b := List.append_cancel_left h

theorem decodes_ascii {t u : List Nat} (h : Decodes t u) : ∀ c ∈ xn ++ t, c < 0x80 := by
  intro c hc
  rcases List.mem_append.mp hc with hc | hc
  · unfold xn at hc; simp at hc; omega
  · exact LDHU_lt (h.chars c hc)

theorem not_both {l : List Nat} (h1 : ∀ c ∈ l, c < 0x80) (h2 : ∃ c ∈ l, 0x80 ≤ c) : False := by
  obtain ⟨c, hc, hge⟩ := h2
  have := h1 c hc
  omega

theorem labelErr_not_to {D : Data} {U : Uni} {flags : Nat} {l d : List Nat} {e : Rc}
    (h : LabelErr D U flags l e) (h' : LabelTo D U flags l d) : False := by
  cases h with
  | long h1 h2 h3 =>
    cases h' with
    | ascii _ _ g => omega
    | alabel t u g1 g2 => exact h2 ⟨g1, t, g2.symm⟩
    | ulabel g => exact not_both h1 g
  | undecodable _ h1 h2 h3 =>
    cases h' with
    | ascii _ g => obtain ⟨t, rfl, _⟩ := h3; exact g ⟨h1, t, rfl⟩
    | alabel t' u g1 g2 g3 => exact undecodable_not h3 g2 g3
    | ulabel g => exact not_both h2 g
  | surrogate t u h1 h2 h3 h4 =>
    subst h2
    cases h' with
    | ascii _ g => exact g ⟨h1, t, rfl⟩
    | alabel t' u' g1 g2 g3 g4 => exact h4 (h3.unique (xn_cancel g2 ▸ g3) ▸ g4)
    | ulabel g => exact not_both (decodes_ascii h3) g
  | alabelFault t u _ h1 h2 h3 h4 h5 =>
    subst h2
    cases h' with
    | ascii _ g => exact g ⟨h1, t, rfl⟩
    | alabel t' u' g1 g2 g3 g4 g5 => exact g5 e (h3.unique (xn_cancel g2 ▸ g3) ▸ h5.fault)
    | ulabel g => exact not_both (decodes_ascii h3) g
  | alabelLong t u h1 h2 h3 h4 h5 h6 =>
    subst h2
    cases h' with
    | ascii _ g => exact g ⟨h1, t, rfl⟩
    | alabel t' u' g1 g2 g3 g4 g5 g6 g7 =>
      have := xn_cancel g2
      subst this
      omega
    | ulabel g => exact not_both (decodes_ascii h3) g
  | alabelOther t u h1 h2 h3 h4 h5 h6 h7 =>
    subst h2
    cases h' with
    | ascii _ g => exact g ⟨h1, t, rfl⟩
    | alabel t' u' g1 g2 g3 g4 g5 g6 g7 =>
      have := xn_cancel g2
      subst this
      exact h7 (h3.unique g3 ▸ g6)
    | ulabel g => exact not_both (decodes_ascii h3) g
  | ulabelFault _ h1 h2 =>
    cases h' with
    | ascii g => exact not_both g h1
    | alabel t u g1 g2 g3 => subst g2; exact not_both (decodes_ascii g3) h1
    | ulabel g1 g2 => exact g2 e h2.fault
  | ulabelLong _ h1 h2 h3 =>
    cases h' with
    | ascii g => exact not_both g h1
    | alabel t u g1 g2 g3 => subst g2; exact not_both (decodes_ascii g3) h1
    | ulabel g1 g2 g3 g4 => have := h3.1; omega
  | ulabelOther h1 h2 h3 h4 h5 =>
    cases h' with
    | ascii g => exact not_both g h1
    | alabel t u g1 g2 g3 => subst g2; exact not_both (decodes_ascii g3) h1
    | ulabel g1 g2 g3 g4 => exact h5 (g3 h4)

theorem labelTo_unique {D : Data} {U : Uni} {flags : Nat} {l d d' : List Nat}
    (h : LabelTo D U flags l d) (h' : LabelTo D U flags l d') : d = d' := by
  cases h with
  | ascii h1 h2 h3 =>
    cases h' with
    | ascii => rfl
    | alabel t u g1 g2 => exact absurd ⟨g1, t, g2.symm⟩ h2
    | ulabel g => exact (not_both h1 g).elim
  | alabel t u h1 h2 h3 =>
    subst h2
    cases h' with
    | ascii _ g => exact absurd ⟨h1, t, rfl⟩ g
    | alabel t' u' g1 g2 g3 => rw [h3.unique (xn_cancel g2 ▸ g3)]
    | ulabel g => exact (not_both (decodes_ascii h3) g).elim
  | ulabel h1 =>
    cases h' with
    | ascii g => exact (not_both g h1).elim
    | alabel t u g1 g2 g3 => subst g2; exact (not_both (decodes_ascii g3) h1).elim
    | ulabel => rfl

theorem tr46Fault_not_valid {D : Data} {U : Uni} {flags : Nat} {l : List Nat} {e : Rc}
    (h : Tr46Fault D U flags l e) (h' : Tr46Label D U flags l) : False := by
  cases h with
  | alabel t u h1 h2 h3 => exact tr46Label_decoded h' h1 h2 e h3.fault
  | ulabel h1 h2 =>
    cases h' with
    | alabel t u g1 => exact h1 ⟨t, g1.symm⟩
    | ulabel _ g => exact g e h2.fault

theorem processErr_not {D : Data} {U : Uni} {flags : Nat} {u x : List Nat} {e : Rc}
    (h6 : flags.testBit 6 = false) (h : ProcessErr D U flags u e)
    (h' : Processed D U flags u x) : False := by
  unfold Processed at h'
  rw [h6] at h'
  simp only [Bool.false_eq_true, ↓reduceIte] at h'
  obtain ⟨g1, g2, g3, g4⟩ := h'
  cases h with
  | disallowed c hc hd => exact g1 c hc hd
  | long _ hl => omega
  | nfc _ _ hn => rw [hn] at g3; cases g3
  | labels x' _ _ _ hn hl =>
    rw [hn] at g3
    injection g3 with g3
    subst g3
    cases hl with
    | stop pre post l k1 k2 k3 =>
      cases g4 l (by rw [k1]; simp) with
      | alabel t' u' m1 m2 => exact undecodable_not k3 m1 m2
      | ulabel m => obtain ⟨t, rfl, _⟩ := k3; exact m ⟨t, rfl⟩
    | last pre post l k1 _ k3 => exact tr46Fault_not_valid k3 (g4 l (by rw [k1]; simp))

theorem each_split {α β : Type} {R : α → β → Prop} {pre post : List α} {a : α} {bs : List β}
    (h : Each R (pre ++ a :: post) bs) : ∃ b1 b b2, bs = b1 ++ b :: b2 ∧ Each R pre b1 ∧ R a b ∧
      Each R post b2 := by
  induction pre generalizing bs with
  | nil =>
    cases h with
    | cons h1 h2 => exact ⟨[], _, _, rfl, .nil, h1, h2⟩
  | cons p pre ih =>
    cases h with
    | cons h1 h2 =>
      obtain ⟨b1, b, b2, rfl, g1, g2, g3⟩ := ih h2
      exact ⟨_ :: b1, b, b2, rfl, .cons h1 g1, g2, g3⟩

theorem each_unique {α β : Type} {R : α → β → Prop} (hR : ∀ a b c, R a b → R a c → b = c)
    {as : List α} {bs cs : List β} (h1 : Each R as bs) (h2 : Each R as cs) : bs = cs := by
  induction h1 generalizing cs with
  | nil => cases h2; rfl
  | cons a _ ih =>
    cases h2 with
    | cons b c => rw [hR _ _ _ a b, ih c]

theorem joinDot_append_lt {a b : List (List Nat)} (ha : a ≠ []) (hb : b ≠ []) :
    (joinDot a).length + 1 + (joinDot b).length = (joinDot (a ++ b)).length := by
  induction a with
  | nil => exact absurd rfl ha
  | cons x a ih =>
    cases a with
    | nil =>
      rw [List.singleton_append, joinDot_cons hb]
      simp [joinDot]
      omega
    | cons y a =>
      have := ih (by simp)
      rw [joinDot_cons (show y :: a ≠ [] by simp), List.cons_append,
        joinDot_cons (show y :: a ++ b ≠ [] by simp)]
      simp only [List.length_append, List.length_cons] at this ⊢
      omega

/-- C52.  What the declarative account calls a failure has no result: the two accounts exclude
each other. -/
theorem C52_exclusive {D : Data} {U : Uni} {flags : Nat} {u n : List Nat} {e : Rc}
    (h : ToAsciiErr D U flags u e) (h' : ToAscii D U flags u n) : False := by
  obtain ⟨x, ds, hx, hds, rfl, hlen⟩ := h'
  rcases h with ⟨h6, h⟩ | ⟨x', hx', pre, l, post, es, k1, k2, k3, k4⟩
  · exact processErr_not h6 h hx
  · have hxx : x = x' := by
      unfold Processed at hx hx'
      split at hx
      · rename_i h6
        rw [if_pos h6] at hx'
        rw [hx, hx']
      · rename_i h6
        rw [if_neg h6] at hx'
        have := hx'.2.2.1
        rw [hx.2.2.1] at this
        injection this
    subst hxx
    rw [k1] at hds
    obtain ⟨b1, b, b2, rfl, g1, g2, g3⟩ := each_split hds
    have : b1 = es := each_unique (R := LabelTo D U flags) (fun _ _ _ h h' => labelTo_unique h h') g1 k2
    subst this
    rcases k4 with k4 | ⟨d, m1, _, m2⟩
    · exact labelErr_not_to k4 g2
    · have := labelTo_unique g2 m1
      subst this
      by_cases hpost : post = []
      · subst hpost
        cases g3
        rw [List.getLast?_append] at hlen
        simp only [List.getLast?_singleton, Option.some_or, Option.some.injEq] at hlen
        simp only [true_and] at m2
        omega
      · rw [if_neg (fun h => hpost h.1)] at m2
        have hb2 : b2 ≠ [] := by
          rintro rfl
          cases g3
          exact hpost rfl
        have e1 : b1 ++ b :: b2 = (b1 ++ [b]) ++ b2 := by simp
        rw [e1] at hlen
        have := joinDot_append_lt (a := b1 ++ [b]) (by simp) hb2
        split at hlen <;> rename_i hl
        · rw [List.getLast?_append] at hl
          cases hq : b2.getLast? with
          | none => exact hb2 (List.getLast?_eq_none_iff.mp hq)
          | some y => omega
        · omega

end Idn2
