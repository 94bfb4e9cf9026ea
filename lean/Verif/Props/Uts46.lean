import Verif.Props.Inverse

/-
Properties C32, C33, C42: UTS #46 processing as a part of lookup.
-/

namespace Idn2
open Spec

/-- Lookup after mapping and normalisation. -/
def afterNfc (E : Env) (f : Nat) : Option (List Nat) → Res (List Nat)
  | none => .err .encodingError
  | some x => do
    match ← tr46LabelsP E f (splitDot x) none with
    | some e => .err e
    | none =>
      match u8Encode x with
      | none => .err .encodingError
      | some o => loopL E f (splitDot o) []

/-- The closed form of lookup with UTS #46 processing on the code points. -/
theorem lookupF_utf8s {E : Env} {D : Data} {flags : Nat} {u : List Nat}
    (hu : ∀ c ∈ u, isScalar c) (h6 : flags.testBit 6 = false) (hc : ¬ Conflict flags) :
    ∃ f, set_default_flags flags = .ok f ∧
    lookupF E D flags (utf8s u) =
      if ∃ c ∈ u, D.status c = .disallowed then .err .disallowed
      else if (u.flatMap (emit D (flags.testBit 2) (flags.testBit 5))).length ≥ 255 then
        .err .tooBigDomain
      else afterNfc E f (E.U.nfc (u.flatMap (emit D (flags.testBit 2) (flags.testBit 5)))) := by
  obtain ⟨f, hf⟩ := set_default_flags_ok hc
  refine ⟨f, hf, ?_⟩
  obtain ⟨b0, b1, b2, b3, b5, b6, b7⟩ := flag_bits flags
  have e2 := set_default_flags_bits hf IDN2_TRANSITIONAL (by decide)
  have e5 := set_default_flags_bits hf IDN2_USE_STD3_ASCII_RULES (by decide)
  have e6 := set_default_flags_bits hf IDN2_NO_TR46 (by decide)
  unfold lookupF
  rw [hf]
  simp only
  unfold lookupP tr46P mapText
  rw [e6, b6, h6, u8Decode_some_iff.mpr ⟨hu, rfl⟩, e2, b2, e5, b5]
  simp only [Bool.false_eq_true, ↓reduceIte]
  by_cases h1 : ∃ c ∈ u, D.status c = .disallowed
  · rw [if_pos h1, if_pos h1]; rfl
  · rw [if_neg h1, if_neg h1]
    by_cases h2 : (u.flatMap (emit D (flags.testBit 2) (flags.testBit 5))).length ≥ 255
    · rw [if_pos h2, if_pos h2]; rfl
    · rw [if_neg h2, if_neg h2]
      unfold afterNfc
      cases E.U.nfc (u.flatMap (emit D (flags.testBit 2) (flags.testBit 5))) with
      | none => rfl
      | some x =>
        simp only
        generalize tr46LabelsP E f (splitDot x) none = r
        cases r with
        | ub => rfl
        | err e => rfl
        | ok o =>
          cases o with
          | some e => rfl
          | none =>
            simp only [Res.bind_ok]
            cases u8Encode x <;> rfl

/-! ### C32 -/

/-- C32, first part: a name with a disallowed character is refused as such. -/
theorem C32_disallowed {E : Env} {D : Data} (W : World E D) {flags : Nat} {u : List Nat}
    (hu : ∀ c ∈ u, isScalar c) (h0 : 0 ∉ u) (h6 : flags.testBit 6 = false)
    (hc : ¬ Conflict flags) {c : Nat} (hcu : c ∈ u) (hd : D.status c = .disallowed) :
    LookupErr E flags (utf8s u) .disallowed := by
  rw [LookupErr_iff W (zero_mem_utf8s h0)]
  obtain ⟨f, _, h⟩ := lookupF_utf8s (E := E) (D := D) hu h6 hc
  rw [h, if_pos ⟨c, hcu, hd⟩]

/-- C32, second part: of a name without disallowed characters the characterwise image is
formed, which must have less than 255 characters; it is normalised, and the labels of the
outcome are the ones that are validated and converted. -/
theorem C32_mapped {E : Env} {D : Data} (W : World E D) {flags : Nat} {u m : List Nat}
    (hu : ∀ c ∈ u, isScalar c) (h0 : 0 ∉ u) (h6 : flags.testBit 6 = false)
    (hc : ¬ Conflict flags) (hd : ∀ c ∈ u, D.status c ≠ .disallowed)
    (hm : m = u.flatMap (emit D (flags.testBit 2) (flags.testBit 5))) :
    (255 ≤ m.length → LookupErr E flags (utf8s u) .tooBigDomain) ∧
    (m.length < 255 → E.U.nfc m = none → LookupErr E flags (utf8s u) .encodingError) ∧
    (∀ x n, m.length < 255 → E.U.nfc m = some x → (LookupOk E flags (utf8s u) n ↔
      (∀ l ∈ splitDot x, Tr46Label D E.U flags l) ∧
      ∃ ds, Each (LabelTo D E.U flags) (splitDot x) ds ∧ n = joinDot ds ∧
        n.length ≤ if ds.getLast? = some [] then 254 else 253)) := by
  have hnd : ¬ ∃ c ∈ u, D.status c = .disallowed := fun ⟨c, h1, h2⟩ => hd c h1 h2
  obtain ⟨f, _, h⟩ := lookupF_utf8s (E := E) (D := D) hu h6 hc
  refine ⟨fun hl => ?_, fun hl hn => ?_, fun x n hl hx => ?_⟩
  · rw [LookupErr_iff W (zero_mem_utf8s h0), h, if_neg hnd, ← hm, if_pos hl]
  · rw [LookupErr_iff W (zero_mem_utf8s h0), h, if_neg hnd, ← hm, if_neg (by omega), hn]
    rfl
  · rw [C48_lookup_spec W (zero_mem_utf8s h0) (fun hb => by rw [h6] at hb; cases hb.2)]
    unfold ToAscii Processed
    simp only [h6, Bool.false_eq_true, ↓reduceIte]
    constructor
    · rintro ⟨_, v, hv, he, x', ds, ⟨_, _, hx', ht⟩, hE, hn, hlen⟩
      have := utf8s_inj hv hu he.symm
      subst this
      rw [← hm, hx] at hx'
      injection hx' with hx'
      subst hx'
      exact ⟨ht, ds, hE, hn, hlen⟩
    · rintro ⟨ht, ds, hE, hn, hlen⟩
      exact ⟨hc, u, hu, rfl, x, ds, ⟨hd, hm ▸ hl, hm ▸ hx, ht⟩, hE, hn, hlen⟩

-- U+FFFF is disallowed, soft hyphen is removed, "A" + U+0300 becomes "à"
example : LookupErr Sample.E 0 (utf8s [0x61, 0xFFFF]) .disallowed ∧
    LookupOk Sample.E 0 (utf8s [0x41, 0xAD, 0x300])
      [0x78, 0x6E, 0x2D, 0x2D, 0x30, 0x63, 0x61] ∧
    Sample.U.nfc ([0x41, 0xAD, 0x300].flatMap (emit Sample.D false false)) = some [0xE0] := by
  decide +kernel

/-! ### C33 -/

/-- C33.  Two names whose characterwise images have the same normal form (and are both within
the limit on the length or not, and both with a disallowed character or not) have the same
outcome, also when it is an error. -/
theorem C33_mapped_form {E : Env} {D : Data} (W : World E D) {flags : Nat} {u v : List Nat}
    (hu : ∀ c ∈ u, isScalar c) (hv : ∀ c ∈ v, isScalar c) (hu0 : 0 ∉ u) (hv0 : 0 ∉ v)
    (h6 : flags.testBit 6 = false)
    (hd : (∃ c ∈ u, D.status c = .disallowed) ↔ ∃ c ∈ v, D.status c = .disallowed)
    (hlen : 255 ≤ (u.flatMap (emit D (flags.testBit 2) (flags.testBit 5))).length ↔
      255 ≤ (v.flatMap (emit D (flags.testBit 2) (flags.testBit 5))).length)
    (hnfc : E.U.nfc (u.flatMap (emit D (flags.testBit 2) (flags.testBit 5))) =
      E.U.nfc (v.flatMap (emit D (flags.testBit 2) (flags.testBit 5)))) :
    (∀ n, LookupOk E flags (utf8s u) n ↔ LookupOk E flags (utf8s v) n) ∧
    ∀ e, LookupErr E flags (utf8s u) e ↔ LookupErr E flags (utf8s v) e := by
  have key : lookupF E D flags (utf8s u) = lookupF E D flags (utf8s v) := by
    by_cases hc : Conflict flags
    · unfold lookupF
      rw [set_default_flags_eq, if_pos hc]
    · obtain ⟨f, hf, h1⟩ := lookupF_utf8s (E := E) (D := D) hu h6 hc
      obtain ⟨f', hf', h2⟩ := lookupF_utf8s (E := E) (D := D) hv h6 hc
      rw [hf] at hf'
      injection hf' with hf'
      subst hf'
      rw [h1, h2, hnfc]
      by_cases h : ∃ c ∈ u, D.status c = .disallowed
      · rw [if_pos h, if_pos (hd.mp h)]
      · rw [if_neg h, if_neg (fun h' => h (hd.mpr h'))]
        by_cases h : 255 ≤ (u.flatMap (emit D (flags.testBit 2) (flags.testBit 5))).length
        · rw [if_pos h, if_pos (hlen.mp h)]
        · rw [if_neg h, if_neg (fun h' => h (hlen.mpr h'))]
  refine ⟨fun n => ?_, fun e => ?_⟩
  · rw [LookupOk_iff W (zero_mem_utf8s hu0), LookupOk_iff W (zero_mem_utf8s hv0), key]
  · rw [LookupErr_iff W (zero_mem_utf8s hu0), LookupErr_iff W (zero_mem_utf8s hv0), key]

/-- ASCII capitals to small letters, the three other full stops to ".". -/
def Spec.foldName (c : Nat) : Nat :=
  if 0x41 ≤ c ∧ c ≤ 0x5A then c + 32
  else if c = 0x3002 ∨ c = 0xFF0E ∨ c = 0xFF61 then 0x2E else c

theorem emit_foldName {D : Data} (hD : D.Laws) (t s : Bool) (c : Nat) :
    emit D t s (foldName c) = emit D t s c ∧
      (D.status (foldName c) = .disallowed ↔ D.status c = .disallowed) := by
  unfold foldName
  by_cases h : 0x41 ≤ c ∧ c ≤ 0x5A
  · rw [if_pos h]
    obtain ⟨h1, h2, _⟩ := hD.upper c h.1 h.2
    have h3 := (hD.ldh (c + 32) (by unfold isLowerLDH; omega)).1
    unfold emit
    rw [h1, h2, h3]
    simp
  · rw [if_neg h]
    by_cases h : c = 0x3002 ∨ c = 0xFF0E ∨ c = 0xFF61
    · rw [if_pos h]
      obtain ⟨h1, h2⟩ := hD.dots c h
      unfold emit
      rw [h1, h2, hD.dot.1]
      simp
    · rw [if_neg h]
      exact ⟨rfl, Iff.rfl⟩

/-- C33, in particular: the case of ASCII letters and the choice of full stop do not matter. -/
theorem C33_case_dots {E : Env} {D : Data} (W : World E D) {flags : Nat} {u v : List Nat}
    (hu : ∀ c ∈ u, isScalar c) (hv : ∀ c ∈ v, isScalar c) (hu0 : 0 ∉ u) (hv0 : 0 ∉ v)
    (h6 : flags.testBit 6 = false) (h : u.map foldName = v.map foldName) :
    (∀ n, LookupOk E flags (utf8s u) n ↔ LookupOk E flags (utf8s v) n) ∧
    ∀ e, LookupErr E flags (utf8s u) e ↔ LookupErr E flags (utf8s v) e := by
  have hm : ∀ w : List Nat, w.flatMap (emit D (flags.testBit 2) (flags.testBit 5)) =
      (w.map foldName).flatMap (emit D (flags.testBit 2) (flags.testBit 5)) := by
    intro w
    rw [List.flatMap_map]
    exact congrArg (List.flatMap · w)
      (funext fun c => (emit_foldName W.data (flags.testBit 2) (flags.testBit 5) c).1.symm)
  have hs : ∀ w : List Nat, (∃ c ∈ w, D.status c = .disallowed) ↔
      ∃ c ∈ w.map foldName, D.status c = .disallowed := by
    intro w
    simp only [List.mem_map]
    constructor
    · rintro ⟨c, h1, h2⟩
      exact ⟨_, ⟨c, h1, rfl⟩, (emit_foldName W.data false false c).2.mpr h2⟩
    · rintro ⟨_, ⟨c, h1, rfl⟩, h2⟩
      exact ⟨c, h1, (emit_foldName W.data false false c).2.mp h2⟩
  have he : u.flatMap (emit D (flags.testBit 2) (flags.testBit 5)) =
      v.flatMap (emit D (flags.testBit 2) (flags.testBit 5)) := by rw [hm u, hm v, h]
  exact C33_mapped_form W hu hv hu0 hv0 h6 (by rw [hs u, hs v, h]) (by rw [he]) (by rw [he])

-- "FÄ。b" and "fÄ.B"
example : [0x46, 0xC4, 0x3002, 0x62].map foldName = [0x66, 0xC4, 0x2E, 0x42].map foldName ∧
    LookupOk Sample.E 0 (utf8s [0x46, 0xC4, 0x3002, 0x62])
      [0x78, 0x6E, 0x2D, 0x2D, 0x66, 0x2D, 0x30, 0x66, 0x61, 0x2E, 0x62] ∧
    LookupOk Sample.E 0 (utf8s [0x66, 0xC4, 0x2E, 0x42])
      [0x78, 0x6E, 0x2D, 0x2D, 0x66, 0x2D, 0x30, 0x66, 0x61, 0x2E, 0x62] := by
  decide +kernel

/-! ### C42 -/

theorem labelTests_transitional {D : Data} {U : Uni} {flags : Nat} (h : flags.testBit 2 = true)
    {l : List Nat} {e : Rc} : ¬ Fault D U (labelTests flags) l e := by
  have h0 : labelTests flags = 0 := by unfold labelTests; rw [if_pos h]
  rw [h0]
  intro hf
  have hb : ∀ k, (0 : Nat).testBit k = true → False := fun k h => by simp at h
  cases hf with
  | nfc h1 => exact hb _ h1
  | notNfc _ h1 => exact hb _ h1
  | twoHyphen h1 => exact hb _ h1
  | hyphenStartEnd h1 => exact hb _ h1
  | leadingCombining _ h1 => exact hb _ h1
  | disallowed _ h1 => exact hb _ h1
  | contextjAny _ h1 => exact hb _ h1
  | contextj _ _ h1 => exact hb _ h1
  | contextjNoRule _ h1 => exact hb _ h1
  | contextoAny _ h1 => exact hb _ h1
  | contextoNoRule _ h1 => exact h1.elim (hb _) (hb _)
  | contexto _ _ h1 => exact hb _ h1
  | unassigned _ h1 => exact hb _ h1
  | bidi h1 => exact hb _ h1
  | dotInLabel h1 => exact h1.elim (hb _) (hb _)
  | invalidTransitional _ h1 => exact hb _ h1
  | invalidNontransitional _ _ h1 => exact hb _ h1

/-- A label without deviation characters that is valid in nontransitional processing is so in
transitional processing. -/
theorem tr46Tests_transitional {D : Data} {U : Uni} {f g : Nat} {u : List Nat}
    (hd : ∀ c ∈ u, D.status c ≠ .deviation) (h5 : g.testBit 5 = f.testBit 5)
    (h : ∀ e, ¬ Fault D U (tr46TestsA f) u e) : ∀ e, ¬ Fault D U (tr46Tests g) u e := by
  have hA : tr46TestsA g = tr46TestsA f := by unfold tr46TestsA; rw [h5]
  obtain ⟨hk, k4, k5, k6, k7, k8, k9, k10, k11, k12, k13, k14, t12, t13⟩ := testBits_tr46 g
  rw [hA] at hk k4 k5 k6 k7 k8 k9 k10 k11 k12 k13 k14
  have hv : ∀ c ∈ u, Tr46Valid D false (!g.testBit 5) c := by
    intro c hc
    apply Classical.byContradiction
    intro hn
    exact h _ (.invalidNontransitional c k12 k13 hc (by rw [k14]; exact hn))
  have hb : ∀ k, k ≠ 12 → k ≠ 13 → (tr46Tests g).testBit k = true → (tr46TestsA f).testBit k = true :=
    fun k h1 h2 h3 => hk k h1 h2 ▸ h3
  intro e hf
  cases hf with
  | nfc h1 h2 => exact h _ (.nfc (hb 0 (by omega) (by omega) h1) h2)
  | notNfc t h1 h2 h3 => exact h _ (.notNfc t (hb 0 (by omega) (by omega) h1) h2 h3)
  | twoHyphen h1 h2 h3 => exact h _ (.twoHyphen (hb 1 (by omega) (by omega) h1) h2 h3)
  | hyphenStartEnd h1 h2 => exact h _ (.hyphenStartEnd (hb 2 (by omega) (by omega) h1) h2)
  | leadingCombining c h1 h2 h3 => exact h _ (.leadingCombining c (hb 3 (by omega) (by omega) h1) h2 h3)
  | disallowed c h1 => exact absurd (hb 4 (by omega) (by omega) h1) (by rw [k4]; simp)
  | contextjAny c h1 => exact absurd (hb 5 (by omega) (by omega) h1) (by rw [k5]; simp)
  | contextj pos c h1 => exact absurd (hb 6 (by omega) (by omega) h1) (by rw [k6]; simp)
  | contextjNoRule c h1 => exact absurd (hb 6 (by omega) (by omega) h1) (by rw [k6]; simp)
  | contextoAny c h1 => exact absurd (hb 7 (by omega) (by omega) h1) (by rw [k7]; simp)
  | contextoNoRule c h1 =>
    rcases h1 with h1 | h1
    · exact absurd (hb 8 (by omega) (by omega) h1) (by rw [k8]; simp)
    · exact absurd (hb 9 (by omega) (by omega) h1) (by rw [k9]; simp)
  | contexto pos c h1 => exact absurd (hb 9 (by omega) (by omega) h1) (by rw [k9]; simp)
  | unassigned c h1 => exact absurd (hb 10 (by omega) (by omega) h1) (by rw [k10]; simp)
  | bidi h1 => exact absurd (hb 11 (by omega) (by omega) h1) (by rw [k11]; simp)
  | dotInLabel h1 h2 => exact h _ (.dotInLabel (Or.inr k13) h2)
  | invalidTransitional c h1 h2 h3 =>
    rw [hk 14 (by omega) (by omega), k14] at h3
    rcases hv c h2 with hc | ⟨_, hc⟩ | hc
    · exact h3 (Or.inl hc)
    · exact hd c h2 hc
    · exact h3 (Or.inr (Or.inr hc))
  | invalidNontransitional c h1 h2 h3 h4 =>
    rw [hk 14 (by omega) (by omega), k14] at h4
    exact h4 (hv c h3)

/-- C42.  `f` are flags of nontransitional, `g` of transitional processing, equal in bits 5 and
7 (STD3 rules, no check of A-labels).  If the name has no deviation character, neither before
nor after mapping and normalisation, then what the first accepts the second accepts with the
same result. -/
theorem C42_transitional {E : Env} {D : Data} (W : World E D) {f g : Nat} {u n : List Nat}
    (hu : ∀ c ∈ u, isScalar c) (h0 : 0 ∉ u)
    (f2 : f.testBit 2 = false) (f6 : f.testBit 6 = false)
    (g2 : g.testBit 2 = true) (hg : ¬ Conflict g)
    (h5 : g.testBit 5 = f.testBit 5) (h7 : g.testBit 7 = f.testBit 7)
    (hd : ∀ c ∈ u, D.status c ≠ .deviation)
    (hx : ∀ x, E.U.nfc (u.flatMap (emit D false (f.testBit 5))) = some x →
      ∀ c ∈ x, D.status c ≠ .deviation)
    (h : LookupOk E f (utf8s u) n) : LookupOk E g (utf8s u) n := by
  have g6 : g.testBit 6 = false := by
    cases h : g.testBit 6 with
    | false => rfl
    | true => exact absurd (Or.inr (Or.inl ⟨h, Or.inl g2⟩)) hg
  have hem : u.flatMap (emit D true (f.testBit 5)) = u.flatMap (emit D false (f.testBit 5)) := by
    rw [List.flatMap_def, List.flatMap_def]
    congr 1
    apply List.map_congr_left
    intro c hc
    have := hd c hc
    unfold emit
    split <;> first | rfl | (rename_i h; exact absurd h this)
  have hA : tr46TestsA g = tr46TestsA f := by unfold tr46TestsA; rw [h5]
  rw [C48_lookup_spec W (zero_mem_utf8s h0) (fun hb => by rw [f6] at hb; cases hb.2)] at h
  rw [C48_lookup_spec W (zero_mem_utf8s h0) (fun hb => by rw [g6] at hb; cases hb.2)]
  obtain ⟨_, v, hv, he, x, ds, hp, hE, hn, hlen⟩ := h
  have := utf8s_inj hu hv he
  subst this
  refine ⟨hg, u, hu, rfl, x, ds, ?_, ?_, hn, hlen⟩
  · unfold Processed at hp ⊢
    rw [if_neg (by rw [f6]; simp), f2] at hp
    rw [if_neg (by rw [g6]; simp), g2, h5, hem]
    obtain ⟨p1, p2, p3, p4⟩ := hp
    refine ⟨p1, p2, p3, fun l hl => ?_⟩
    have hdl : ∀ c ∈ l, D.status c ≠ .deviation :=
      fun c hc => hx x p3 c (mem_of_mem_splitDot hl hc)
    cases p4 l hl with
    | alabel t w h1 h2 h3 => exact .alabel t w h1 h2 (hA ▸ h3)
    | ulabel h1 h2 => exact .ulabel h1 (tr46Tests_transitional hdl h5 (tr46Tests_weaken h2))
  · apply each_imp_mem hE
    intro l _ d hl
    cases hl with
    | ascii h1 h2 h3 => exact .ascii h1 (h7 ▸ h2) h3
    | alabel t w h1 h2 h3 h4 h5 h6 h8 =>
      exact .alabel t w (h7 ▸ h1) h2 h3 h4 (fun e => labelTests_transitional g2) h6 h8
    | ulabel h1 h2 h3 h4 =>
      exact .ulabel h1 (fun e => labelTests_transitional g2) (h7 ▸ h3) h4

-- without deviation characters; with one
example : LookupOk Sample.E 8 (utf8s [0x46, 0xC4]) [0x78, 0x6E, 0x2D, 0x2D, 0x66, 0x2D, 0x30, 0x66, 0x61] ∧
    LookupOk Sample.E 4 (utf8s [0x46, 0xC4]) [0x78, 0x6E, 0x2D, 0x2D, 0x66, 0x2D, 0x30, 0x66, 0x61] ∧
    LookupOk Sample.E 8 (utf8s [0xDF]) [0x78, 0x6E, 0x2D, 0x2D, 0x7A, 0x63, 0x61] ∧
    LookupOk Sample.E 4 (utf8s [0xDF]) [0x73, 0x73] := by
  decide +kernel

end Idn2
