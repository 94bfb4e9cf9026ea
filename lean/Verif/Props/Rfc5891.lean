import Verif.Spec.Rfc5891
import Verif.Props.Conform
import Verif.Props.RegisterExact
import Verif.Props.LookupExact

/-
Properties C100 and C101: lookup without UTS #46 processing and registration as RFC 5891 wants
them.
-/

namespace Idn2
open Spec Rfc5891

variable {D : Data} {U : Uni}

/-! ### The tests of lookup -/

theorem labelTests_noTr46 {f : Nat} (f6 : f.testBit 6 = true) (f2 : f.testBit 2 = false) :
    ∃ w, labelTests f = w ∧ (w.testBit 0 = true ∧ w.testBit 1 = true ∧ w.testBit 2 = false ∧
      w.testBit 3 = true ∧ w.testBit 4 = true ∧ w.testBit 5 = false ∧ w.testBit 6 = true) ∧
      (w.testBit 7 = false ∧ w.testBit 8 = true ∧ w.testBit 9 = false ∧ w.testBit 10 = true ∧
      w.testBit 11 = true ∧ w.testBit 12 = false ∧ w.testBit 13 = false) := by
  refine ⟨_, rfl, ?_⟩
  unfold labelTests
  rw [f2, f6]
  cases f.testBit 5 <;> decide

theorem contextJ_rule {v : List Nat} {pos c : Nat} (h : ContextJ U v pos c) :
    c = 0x200C ∨ c = 0x200D := by
  rcases h with ⟨h, _⟩ | ⟨h, _⟩
  · exact .inl h
  · exact .inr h

theorem contextO_rule {v : List Nat} {pos c : Nat} (h : ContextO U v pos c) : hasContextO c := by
  unfold ContextO at h
  unfold hasContextO
  rcases h with ⟨h, _⟩ | ⟨h, _⟩ | ⟨h, _⟩ | ⟨h, _⟩ | ⟨h, h', _⟩ | ⟨h, h', _⟩ <;> omega

theorem bidiOk_accepted {v : List Nat} (h : BidiOk U v) : BidiAccepted U v := fun hr =>
  bidi_ok_iff_accepted.mp (C26_rfc_accepted U v (h hr)) hr

theorem accepted_bidiOk {v : List Nat} (h : BidiAccepted U v) (hp : PlainBidi U v) :
    BidiOk U v := fun hr =>
  (C26_bidi_rule_partial U v hr hp.1 hp.2).mp (bidi_ok_iff_accepted.mpr h)

/-- The tests of lookup are those of section 5.4 and the library's Bidi check. -/
theorem must_iff {f : Nat} (f6 : f.testBit 6 = true) (f2 : f.testBit 2 = false) {v : List Nat} :
    (∀ e, ¬ Fault D U (labelTests f) v e) ↔ Must D U v ∧ BidiAccepted U v := by
  obtain ⟨w, hw, ⟨b0, b1, b2, b3, b4, b5, b6⟩, b7, b8, b9, b10, b11, b12, b13⟩ :=
    labelTests_noTr46 f6 f2
  rw [hw]
  constructor
  · intro h
    refine ⟨⟨fault_free_nfc b0 h, fun h' => h _ (.twoHyphen b1 h'.1 h'.2), fun c hc => ?_,
      fun c hc hp => h _ (.disallowed c b4 hc hp ?_), fun pos c hc hp => ?_, fun c hc hp => ?_,
      fun c hc hp => h _ (.unassigned c b10 hc hp)⟩, ?_⟩
    · cases hi : U.isM c with
      | false => rfl
      | true => exact absurd (Fault.leadingCombining c b3 hc hi) (h _)
    · rw [b12, b13]; simp
    · refine Classical.byContradiction fun hn => ?_
      by_cases h1 : c = 0x200C ∨ c = 0x200D
      · exact h _ (.contextj pos c b6 hc hp h1 hn)
      · exact h _ (.contextjNoRule c b6 (List.mem_of_getElem? hc) hp (fun h => h1 (.inl h))
          fun h => h1 (.inr h))
    · exact Classical.byContradiction fun hn => h _ (.contextoNoRule c (.inl b8) hc hp hn)
    · exact Classical.byContradiction fun hn => h _ (.bidi b11 hn)
  · rintro ⟨hm, hb⟩ e h
    cases h with
    | nfc _ h => rw [hm.nfc] at h; cases h
    | notNfc t _ h h' => rw [hm.nfc] at h; cases h; exact h' rfl
    | twoHyphen _ h h' => exact hm.hyphens ⟨h, h'⟩
    | hyphenStartEnd h => rw [b2] at h; cases h
    | leadingCombining c _ h h' => rw [hm.mark c h] at h'; cases h'
    | disallowed c h h1 h2 h3 => exact hm.disallowed c h1 h2
    | contextjAny c h => rw [b5] at h; cases h
    | contextj pos c _ h1 h2 h3 h4 => exact h4 (hm.contextj pos c h1 h2)
    | contextjNoRule c _ h h1 h2 h3 =>
      obtain ⟨pos, hpos⟩ := List.mem_iff_getElem?.mp h
      rcases contextJ_rule (hm.contextj pos c hpos h1) with h4 | h4
      · exact h2 h4
      · exact h3 h4
    | contextoAny c h => rw [b7] at h; cases h
    | contextoNoRule c _ h1 h2 h3 => exact h3 (hm.contexto c h1 h2)
    | contexto _ c h => rw [b9] at h; cases h
    | unassigned c _ h1 h2 => exact hm.unassigned c h1 h2
    | bidi _ h => exact h hb
    | dotInLabel h => rw [b12, b13] at h; simp at h
    | invalidTransitional c h => rw [b12] at h; cases h
    | invalidNontransitional c _ h => rw [b13] at h; cases h

theorem allowed_lower (hD : D.Laws) {c : Nat} (h : D.prop c ≠ .disallowed) (hc : c < 0x80) :
    isLowerLDH c := by
  refine Classical.byContradiction fun hn => h ?_
  by_cases h1 : c = 0x2E
  · rw [h1]; exact hD.dot.2
  · by_cases h2 : 0x41 ≤ c ∧ c ≤ 0x5A
    · exact (hD.upper c h2.1 h2.2).2.2
    · exact (hD.other c hc hn h1 h2).2

/-! ### Letter case of A-labels -/

theorem asciiLower_lower {c : Nat} (h : isLowerLDH c) : asciiLower c = c := by
  unfold isLowerLDH at h
  unfold asciiLower
  rw [if_neg (by omega)]

theorem encode_lower {v : List Nat} (h : ∀ c ∈ v, c < 0x80 → isLowerLDH c) :
    (Punycode.encode v).map asciiLower = Punycode.encode v := by
  refine (List.map_congr_left fun c hc => ?_).trans (List.map_id _)
  have hcl := codes_lt (b := (Punycode.basics v).length) (Punycode.insertions v)
    (Punycode.init (Punycode.basics v).length)
  unfold Punycode.encode at hc
  rcases List.mem_append.mp hc with hc | hc
  · unfold Punycode.headPart at hc
    rcases List.mem_append.mp hc with hc | hc
    · unfold Punycode.basics at hc
      have := List.mem_filter.mp hc
      exact asciiLower_lower (h c this.1 (by simpa using this.2))
    · split at hc
      · cases hc
      · rw [List.mem_singleton.mp hc]; rfl
  · obtain ⟨d, hd, rfl⟩ := List.mem_map.mp hc
    exact asciiLower_digitChar (hcl d hd)

theorem lower_hyphen {c : Nat} (h : asciiLower c = 0x2D) : c = 0x2D := by
  unfold asciiLower at h
  split at h <;> omega

theorem map_lower_eq {a b : List Nat} (h : a.map asciiLower = b)
    (hn : ∀ c ∈ a, ¬ (0x41 ≤ c ∧ c ≤ 0x5A)) : a = b := by
  rw [← h]
  refine ((List.map_congr_left fun c hc => ?_).trans (List.map_id a)).symm
  unfold asciiLower
  rw [if_neg (hn c hc)]
  rfl

/-- Without capitals among the literal characters, decoding does not depend on case. -/
theorem noCapitals_head {t v : List Nat} (h : t.map asciiLower = Punycode.encode v)
    (hn : NoCapitals (xn ++ t)) : Punycode.headPart v <+: t := by
  unfold Punycode.encode at h
  obtain ⟨a, b, rfl, ha, hb⟩ := List.map_eq_append_iff.mp h
  refine ⟨b, ?_⟩
  congr 1
  unfold Punycode.headPart at ha ⊢
  by_cases h0 : Punycode.basics v = []
  · rw [if_pos h0, h0] at ha ⊢
    rw [List.map_eq_nil_iff.mp ha]
    rfl
  · rw [if_neg h0] at ha ⊢
    obtain ⟨a', c', rfl, h1, h2⟩ := List.map_eq_append_iff.mp ha
    match c', h2 with
    | _ :: _ :: _, h2 => simp at h2
    | [c], h2 =>
      have hc : c = 0x2D := lower_hyphen (by simpa using h2)
      subst hc
      rw [map_lower_eq h1 fun x hx => hn (xn ++ a') b (by simp) x (List.mem_append_right _ hx)]

theorem xn_lower {t : List Nat} {v : List Nat} :
    (xn ++ t).map asciiLower = aLabel v ↔ t.map asciiLower = Punycode.encode v := by
  unfold aLabel
  rw [List.map_append, show xn.map asciiLower = xn from by decide]
  exact ⟨List.append_cancel_left, fun h => by rw [h]⟩

theorem xnPrefix_of {l : List Nat} (h : xn <+: l) : XnPrefix l := by
  obtain ⟨t, rfl⟩ := h
  rfl

theorem aLabel_length (v : List Nat) : (aLabel v).length = 4 + (Punycode.encode v).length := by
  unfold aLabel
  rw [List.length_append]
  rfl

/-! ### Lookup -/

theorem labelTo_looksUp (hD : D.Laws) {f : Nat} (f6 : f.testBit 6 = true)
    (f2 : f.testBit 2 = false) {l d : List Nat} (h : LabelTo D U f l d) :
    ∃ o, LooksUp D U (Converts f) l d o ∧ d.length ≤ 63 := by
  cases h with
  | ascii h1 h2 h3 =>
    by_cases hx : XnPrefix l
    · exact ⟨none, .unconverted h1 hx h2, h3⟩
    · exact ⟨none, .ldh h1 hx, h3⟩
  | alabel t v f7 h1 h2 h3 h4 h5 h6 =>
    subst h1
    have hm := ((must_iff f6 f2).mp h4).1
    have hl := encode_lower fun c hc hlt => allowed_lower hD (hm.disallowed c hc) hlt
    have hlen := congrArg List.length h5
    rw [List.length_map, List.length_map] at hlen
    have := aLabel_length v
    unfold aLabel at this
    exact ⟨some v, .converted v ⟨f7, ⟨t, rfl⟩⟩ (xn_lower.mpr (h5.trans hl)) h2.nonascii h3 hm,
      by omega⟩
  | ulabel h1 h2 h3 h4 =>
    have := aLabel_length l
    unfold aLabel at this
    exact ⟨some l, .ulabel h1 ((must_iff f6 f2).mp h2).1, by omega⟩

theorem norm_nfc {l v : List Nat} (h : Norm D U l v) (hv : U.nfc v = some v) :
    U.nfc l = some v := by
  rcases h with ⟨_, rfl⟩ | ⟨_, h⟩
  · exact hv
  · exact h

theorem labelToNfc_looksUp (hD : D.Laws) (hU : U.Laws) {f : Nat} (f6 : f.testBit 6 = true)
    (f2 : f.testBit 2 = false)
    (hk : f.testBit 7 = true → ∀ a b, U.nfc a = some b → (∀ c ∈ b, isLowerLDH c) → a = b)
    {l d : List Nat} (h : LabelToNfc D U f l d) :
    ∃ x o, U.nfc l = some x ∧ LooksUp D U (Converts f) x d o ∧ d.length ≤ 63 := by
  cases h with
  | ascii h1 h2 h3 =>
    by_cases hx : XnPrefix l
    · exact ⟨l, none, hU.nfc_ascii l h1, .unconverted h1 hx h2, h3⟩
    · exact ⟨l, none, hU.nfc_ascii l h1, .ldh h1 hx, h3⟩
  | alabel t u v f7 h1 h2 h3 hnm h4 h5 h6 =>
    have hasc : ∀ c ∈ l, c < 0x80 := by
      refine Classical.byContradiction fun h => ?_
      exact nonascii_xn (not_ascii h) h1 h2
    subst h1
    have hm := ((must_iff f6 f2).mp h4).1
    have hlow : ∀ c ∈ v, c < 0x80 → isLowerLDH c :=
      fun c hc hlt => allowed_lower hD (hm.disallowed c hc) hlt
    have hl := encode_lower hlow
    have hlen := congrArg List.length h5
    rw [List.length_map, List.length_map] at hlen
    have := aLabel_length v
    unfold aLabel at this
    have hn := norm_nfc hnm hm.nfc
    have hs := hU.nfc_scalar _ _ h3 hn
    refine ⟨_, some v, hU.nfc_ascii _ hasc,
      .converted v ⟨f7, ⟨t, rfl⟩⟩ (xn_lower.mpr (h5.trans hl)) (alike_nonascii h2 h5) hs hm,
      by omega⟩
  | ulabel v h1 hnm h2 h3 h4 =>
    have hm := ((must_iff f6 f2).mp h2).1
    have := aLabel_length v
    unfold aLabel at this
    have hn := norm_nfc hnm hm.nfc
    refine ⟨v, some v, hn, .ulabel ?_ hm, by omega⟩
    cases f7 : f.testBit 7 with
    | false => exact (h3 f7).1
    | true =>
      refine Classical.byContradiction fun hne => ?_
      have ha : ∀ c ∈ v, c < 0x80 := fun c hc => by
        refine Classical.byContradiction fun hlt => hne ⟨c, hc, by omega⟩
      have := hk f7 l v hn fun c hc => allowed_lower hD (hm.disallowed c hc) (ha c hc)
      subst this
      obtain ⟨c, hc, hge⟩ := h1
      have := ha c hc
      omega

theorem fst_map_zip {R : List Nat → List Nat → Option (List Nat) → Prop} {ls ds : List (List Nat)}
    (h : Each (fun l d => ∃ o, R l d o) ls ds) :
    ∃ xs : List (List Nat × Option (List Nat)), Each (fun l x => R l x.1 x.2) ls xs ∧
      xs.map Prod.fst = ds := by
  induction h with
  | nil => exact ⟨[], .nil, rfl⟩
  | cons h1 _ ih =>
    obtain ⟨o, ho⟩ := h1
    obtain ⟨xs, h2, h3⟩ := ih
    exact ⟨(_, o) :: xs, .cons ho h2, by rw [List.map_cons, h3]⟩

/-- C100, soundness: what lookup without UTS #46 processing (NO_TR46, bit 6) accepts has passed,
label by label, all that RFC 5891 says it MUST pass, and the result is the one of the protocol.
With NFC_INPUT (bit 0) this is said of the normalised name, see section 5.2.  If that is combined
with NO_ALABEL_ROUNDTRIP, it must be known of NFC that it makes letters, digits and hyphens only of
themselves. -/
theorem C100_sound {E : Env} (W : World E D) {f : Nat} (f6 : f.testBit 6 = true)
    (hk : f.testBit 0 = true → f.testBit 7 = true →
      ∀ a b, E.U.nfc a = some b → (∀ c ∈ b, isLowerLDH c) → a = b)
    {s n : List Nat} (h0 : 0 ∉ s) (h : LookupOk E f s n) :
    ∃ u x xs, (∀ c ∈ u, isScalar c) ∧ s = utf8s u ∧
      (if f.testBit 0 then E.U.nfc u = some x else x = u) ∧
      LookupName D E.U (Converts f) x n xs ∧ DnsLimits (xs.map Prod.fst) := by
  cases b0 : f.testBit 0 with
  | false =>
    obtain ⟨hc, u, hu, rfl, x, ds, hp, he, rfl, hl⟩ :=
      (C48_lookup_spec W h0 (by rw [b0]; simp)).mp h
    have f2 : f.testBit 2 = false := by
      cases b2 : f.testBit 2 with
      | false => rfl
      | true => exact absurd (.inr (.inl ⟨f6, .inl b2⟩)) hc
    unfold Processed at hp
    rw [if_pos f6] at hp
    subst hp
    obtain ⟨xs, h1, rfl⟩ := fst_map_zip (R := fun l d o =>
        LooksUp D E.U (Converts f) l d o ∧ d.length ≤ 63)
      (each_imp_mem he fun l _ d h => labelTo_looksUp W.data f6 f2 h)
    refine ⟨x, x, xs, hu, rfl, rfl, ⟨Each.imp (fun h => h.1) h1, rfl⟩, fun d hd => ?_, hl⟩
    obtain ⟨x, hx, rfl⟩ := List.mem_map.mp hd
    obtain ⟨_, _, h⟩ := each_mem_right h1 hx
    exact h.2
  | true =>
    obtain ⟨hc, u, hu, rfl, ds, he, rfl, hl⟩ := (C48_lookup_nfc W h0 b0 f6).mp h
    have f2 : f.testBit 2 = false := by
      cases b2 : f.testBit 2 with
      | false => rfl
      | true => exact absurd (.inr (.inl ⟨f6, .inl b2⟩)) hc
    have key := each_imp_mem he fun l _ d h =>
      labelToNfc_looksUp W.data W.uni f6 f2 (hk b0) h
    have : ∃ ts, Each (fun l t => E.U.nfc l = some t) (splitDot u) ts ∧
        Each (fun t d => ∃ o, LooksUp D E.U (Converts f) t d o ∧ d.length ≤ 63) ts ds := by
      clear he hl h
      generalize splitDot u = ls at key
      induction key with
      | nil => exact ⟨[], .nil, .nil⟩
      | cons h1 _ ih =>
        obtain ⟨x, o, h1, h2⟩ := h1
        obtain ⟨ts, h3, h4⟩ := ih
        exact ⟨x :: ts, .cons h1 h3, .cons ⟨o, h2⟩ h4⟩
    obtain ⟨ts, h1, h2⟩ := this
    have hn := nfc_join W.uni h1
    rw [joinDot_splitDot] at hn
    have hne : ts ≠ [] := by
      rintro rfl
      cases hsp : splitDot u with
      | nil => exact absurd hsp (splitDot_ne_nil u)
      | cons a as => rw [hsp] at h1; cases h1
    have hnd : ∀ t ∈ ts, 0x2E ∉ t := fun t ht => by
      obtain ⟨l, hl, h⟩ := each_mem_right h1 ht
      exact W.uni.nfc_nosep l t 0x2E (.inr rfl) (mem_splitDot_nodot hl) h
    obtain ⟨xs, h3, rfl⟩ := fst_map_zip h2
    refine ⟨u, joinDot ts, xs, hu, rfl, hn, ⟨?_, rfl⟩, fun d hd => ?_, hl⟩
    · rw [splitDot_joinDot hne hnd]
      exact Each.imp (fun h => h.1) h3
    · obtain ⟨x, hx, rfl⟩ := List.mem_map.mp hd
      obtain ⟨_, _, h⟩ := each_mem_right h3 hx
      exact h.2

/-- "fä.xn--f-0fa.-a" is looked up; so is "·", whose contextual rule is broken, but there is one;
"ab--ä", a mark at the start, "Ä", a joiner without virama, an unassigned code point, and an A-label
of "Þ" are refused. -/
example : LookupOk Sample.E 64 (utf8s [0x66, 0xE4] ++ 0x2E :: xn ++ [0x66, 0x2D, 0x30, 0x66, 0x61] ++
        [0x2E, 0x2D, 0x61])
      (xn ++ [0x66, 0x2D, 0x30, 0x66, 0x61] ++ 0x2E :: xn ++ [0x66, 0x2D, 0x30, 0x66, 0x61] ++
        [0x2E, 0x2D, 0x61]) ∧
    LookupOk Sample.E 64 (utf8s [0xB7]) (xn ++ [0x75, 0x62, 0x61]) ∧
    LookupErr Sample.E 64 (utf8s [0x61, 0x62, 0x2D, 0x2D, 0xE4]) .twoHyphen ∧
    LookupErr Sample.E 64 (utf8s [0x300, 0x61]) .leadingCombining ∧
    LookupErr Sample.E 64 (utf8s [0xC4]) .disallowed ∧
    LookupErr Sample.E 64 (utf8s [0x915, 0x200D]) .contextj ∧
    LookupErr Sample.E 64 (utf8s [0x102]) .unassigned ∧
    LookupErr Sample.E 64 (xn ++ [0x79, 0x63, 0x61]) .disallowed := by
  decide +kernel

theorem looksUp_labelTo (hD : D.Laws) {f : Nat} (f6 : f.testBit 6 = true)
    (f2 : f.testBit 2 = false) {l d : List Nat} {o : Option (List Nat)}
    (hs : ∀ c ∈ l, isScalar c) (h : LooksUp D U (Converts f) l d o)
    (hb : ∀ v, o = some v → BidiOk U v) (hl : d.length ≤ 63)
    (hn : Converts f l → NoCapitals l) : LabelTo D U f l d ∧ LabelToNfc D U f l d := by
  have nrm : ∀ {v}, U.nfc v = some v → Norm D U v v := fun {v} h => by
    by_cases hq : QuickYes U D (looked v)
    · exact .inl ⟨hq, rfl⟩
    · exact .inr ⟨hq, h⟩
  cases h with
  | ldh h1 h2 =>
    have : ¬ (f.testBit 7 = false ∧ xn <+: l) := fun h => h2 (xnPrefix_of h.2)
    exact ⟨.ascii h1 this hl, .ascii h1 this hl⟩
  | unconverted h1 h2 h3 => exact ⟨.ascii h1 h3 hl, .ascii h1 h3 hl⟩
  | converted v h1 h2 h3 h4 h5 =>
    obtain ⟨f7, t, rfl⟩ := h1
    have h2 := xn_lower.mp h2
    have hlow : ∀ c ∈ v, c < 0x80 → isLowerLDH c :=
      fun c hc hlt => allowed_lower hD (h5.disallowed c hc) hlt
    have hm : t.map asciiLower = (Punycode.encode v).map asciiLower := h2.trans (encode_lower hlow).symm
    have hlen := congrArg List.length h2
    rw [List.length_map] at hlen
    rw [aLabel_length] at hl
    have hf := (must_iff f6 f2).mpr ⟨h5, bidiOk_accepted (hb v rfl)⟩
    have hd : Decodes t v := punycodes_decodes ⟨h4, h3, noCapitals_head h2 (hn ⟨f7, t, rfl⟩), hm⟩
      (fun c hc hlt => isLowerLDH_LDHU (hlow c hc hlt)) (by omega)
    exact ⟨.alabel t v f7 rfl hd h4 hf hm (by omega),
      .alabel t v v f7 rfl hd h4 (nrm h5.nfc) hf hm (by omega)⟩
  | ulabel h1 h2 =>
    have hlow : ∀ c ∈ l, c < 0x80 → isLDHU c :=
      fun c hc hlt => isLowerLDH_LDHU (allowed_lower hD (h2.disallowed c hc) hlt)
    rw [aLabel_length] at hl
    have hf := (must_iff f6 f2).mpr ⟨h2, bidiOk_accepted (hb l rfl)⟩
    exact ⟨.ulabel h1 hf (fun _ => hlow) (by omega),
      .ulabel l h1 (nrm h2.nfc) hf (fun _ => ⟨h1, hlow⟩) (by omega)⟩

/-- C100, completeness: a name that passes what RFC 5891 says it MUST and SHOULD pass is looked up,
with the result of the protocol, under any flags.  Not shown for A-labels with capitals among the
literal characters, see `C100_violated`. -/
theorem C100_complete_partial {E : Env} (W : World E D) {f : Nat} (hc : ¬ Conflict f)
    (f6 : f.testBit 6 = true) {u n : List Nat} {xs : List (List Nat × Option (List Nat))}
    (hs : ∀ c ∈ u, isScalar c) (h0 : 0 ∉ u) (h : LookupName D E.U (Converts f) u n xs)
    (hb : Should E.U xs) (hl : DnsLimits (xs.map Prod.fst))
    (hn : ∀ l ∈ splitDot u, Converts f l → NoCapitals l) : LookupOk E f (utf8s u) n := by
  have f2 : f.testBit 2 = false := by
    cases b2 : f.testBit 2 with
    | false => rfl
    | true => exact absurd (.inr (.inl ⟨f6, .inl b2⟩)) hc
  obtain ⟨he, rfl⟩ := h
  have key : Each (fun l d => LabelTo D E.U f l d ∧ LabelToNfc D E.U f l d) (splitDot u)
      (xs.map Prod.fst) := by
    apply each_map_right
    have : Each (fun l x => LooksUp D E.U (Converts f) l x.1 x.2 ∧ x ∈ xs) (splitDot u) xs :=
      each_swap (each_imp_mem (each_swap he) fun x hx l h => ⟨h, hx⟩)
    refine each_imp_mem this fun l hlm x hx => ?_
    exact looksUp_labelTo W.data f6 f2 (fun c hc => hs c (mem_of_mem_splitDot hlm hc)) hx.1
      (hb x hx.2) (hl.1 _ (List.mem_map.mpr ⟨x, hx.2, rfl⟩)) (hn l hlm)
  have h0' : 0 ∉ utf8s u := fun h => h0 ((utf8s_zero_iff hs).mp h)
  cases b0 : f.testBit 0 with
  | false =>
    refine (C48_lookup_spec W h0' (by rw [b0]; simp)).mpr ⟨hc, u, hs, rfl, u, _, ?_,
      Each.imp (fun h => h.1) key, rfl, hl.2⟩
    unfold Processed
    rw [if_pos f6]
  | true =>
    exact (C48_lookup_nfc W h0' b0 f6).mpr ⟨hc, u, hs, rfl, _, Each.imp (fun h => h.2) key, rfl,
      hl.2⟩

/-- "fä" passes all the tests, so it is looked up, also with NFC_INPUT and without looking into
A-labels. -/
example (h : Must Sample.D Sample.U [0x66, 0xE4])
    (hl : (aLabel [0x66, 0xE4]).length ≤ 63) :
    LookupOk Sample.E (64 + 1 + 128) (utf8s [0x66, 0xE4]) (aLabel [0x66, 0xE4]) := by
  refine C100_complete_partial World.sample (xs := [(_, some [0x66, 0xE4])]) (by decide) (by decide)
    (by unfold isScalar; decide) (by decide)
    ⟨.cons (.ulabel (by decide) h) .nil, rfl⟩ ?_ ⟨?_, ?_⟩ ?_
  · intro x hx v hv
    rw [List.mem_singleton.mp hx] at hv
    injection hv with hv
    subst hv
    rintro ⟨c, hc, hr⟩
    exact absurd hr (by revert c; decide)
  · intro d hd
    rw [List.mem_singleton.mp hd]; exact hl
  · rw [if_neg (by simp [xn])]
    exact Nat.le_trans hl (by decide)
  · intro l _ hc
    exact absurd hc.1 (by decide)

/-- The decoder keeps the case of the literal characters, where RFC 5891 has the A-label converted
to lower case first: "xn--F-0fa" is refused, although it stands for "fä" (in the sample). -/
theorem C100_violated : LookupName Sample.D Sample.U (Converts 64)
      (xn ++ [0x46, 0x2D, 0x30, 0x66, 0x61]) (xn ++ [0x66, 0x2D, 0x30, 0x66, 0x61])
      [(xn ++ [0x66, 0x2D, 0x30, 0x66, 0x61], some [0x66, 0xE4])] ∧
    BidiOk Sample.U [0x66, 0xE4] ∧
    LookupErr Sample.E 64 (xn ++ [0x46, 0x2D, 0x30, 0x66, 0x61]) .disallowed := by
  have h : LookupOk Sample.E 64 (utf8s [0x66, 0xE4]) (xn ++ [0x66, 0x2D, 0x30, 0x66, 0x61]) := by
    decide +kernel
  obtain ⟨u, x, xs, hu, hs, hx, ⟨he, hn⟩, -⟩ := C100_sound World.sample (f := 64) (by decide)
    (fun h => absurd h (by decide)) (by decide) h
  have hu' : u = [0x66, 0xE4] := utf8s_inj hu (by unfold isScalar; decide) hs.symm
  rw [show Nat.testBit 64 0 = false from by decide] at hx
  simp only [Bool.false_eq_true, ↓reduceIte] at hx
  subst hx hu'
  rw [show splitDot [0x66, 0xE4] = [[0x66, 0xE4]] from by decide] at he
  refine ⟨⟨?_, rfl⟩, ?_, by decide +kernel⟩
  · match xs, he with
    | [(d, o)], .cons h1 .nil =>
      cases h1 with
      | ldh h => exact absurd h (by decide)
      | unconverted h => exact absurd h (by decide)
      | converted v h => exact absurd h.2 (by decide)
      | ulabel h1 h2 =>
        have hd : aLabel [0x66, 0xE4] = xn ++ [0x66, 0x2D, 0x30, 0x66, 0x61] := hn.symm
        rw [show splitDot (xn ++ [0x46, 0x2D, 0x30, 0x66, 0x61]) =
          [xn ++ [0x46, 0x2D, 0x30, 0x66, 0x61]] from by decide]
        refine .cons ?_ .nil
        have := LooksUp.converted (D := Sample.D) (U := Sample.U) (convert := Converts 64)
          (l := xn ++ [0x46, 0x2D, 0x30, 0x66, 0x61]) [0x66, 0xE4] ⟨by decide, by decide⟩
          (by rw [hd]; decide) h1 (by unfold isScalar; decide) h2
        rwa [hd] at this
  · rintro ⟨c, hc, hr⟩
    exact absurd hr (by revert c; decide)

/-! ### Registration -/

/-- The tests of registration are those of section 4.2 and the library's Bidi check. -/
theorem uLabel_iff {v : List Nat} (hs : ∀ c ∈ v, isScalar c) (hna : ∃ c ∈ v, 0x80 ≤ c)
    (hl : (aLabel v).length ≤ 63) (hb : BidiAccepted U v → BidiOk U v) :
    (∀ e, ¬ Fault D U regTests v e) ↔ ULabel D U v := by
  constructor
  · intro h
    refine ⟨hs, fault_free_nfc (by decide) h, fun c hc hp => h _ (.disallowed c (by decide) hc hp ?_),
      fun c hc hp => h _ (.unassigned c (by decide) hc hp),
      fun h' => h _ (.twoHyphen (by decide) h'.1 h'.2),
      fun h' => h _ (.hyphenStartEnd (by decide) (.inl h')),
      fun h' => h _ (.hyphenStartEnd (by decide) (.inr h')), fun c hc => ?_,
      fun pos c hc hp => ?_, fun pos c hc hp => ?_, hb ?_, hna, hl⟩
    · rintro ⟨h1, _⟩
      revert h1; decide
    · cases hi : U.isM c with
      | false => rfl
      | true => exact absurd (Fault.leadingCombining c (by decide) hc hi) (h _)
    · refine Classical.byContradiction fun hn => ?_
      by_cases h1 : c = 0x200C ∨ c = 0x200D
      · exact h _ (.contextj pos c (by decide) hc hp h1 hn)
      · exact h _ (.contextjNoRule c (by decide) (List.mem_of_getElem? hc) hp (fun h => h1 (.inl h))
          fun h => h1 (.inr h))
    · refine Classical.byContradiction fun hn => ?_
      by_cases h1 : hasContextO c
      · exact h _ (.contexto pos c (by decide) hc hp h1 hn)
      · exact h _ (.contextoNoRule c (.inr (by decide)) (List.mem_of_getElem? hc) hp h1)
    · exact Classical.byContradiction fun hn => h _ (.bidi (by decide) hn)
  · intro hm e h
    cases h with
    | nfc _ h => rw [hm.nfc] at h; cases h
    | notNfc t _ h h' => rw [hm.nfc] at h; cases h; exact h' rfl
    | twoHyphen _ h h' => exact hm.hyphens ⟨h, h'⟩
    | hyphenStartEnd _ h => exact h.elim hm.first hm.last
    | leadingCombining c _ h h' => rw [hm.mark c h] at h'; cases h'
    | disallowed c h h1 h2 h3 => exact hm.disallowed c h1 h2
    | contextjAny c h => revert h; decide
    | contextj pos c _ h1 h2 h3 h4 => exact h4 (hm.contextj pos c h1 h2)
    | contextjNoRule c _ h h1 h2 h3 =>
      obtain ⟨pos, hpos⟩ := List.mem_iff_getElem?.mp h
      rcases contextJ_rule (hm.contextj pos c hpos h1) with h4 | h4
      · exact h2 h4
      · exact h3 h4
    | contextoAny c h => revert h; decide
    | contextoNoRule c _ h1 h2 h3 =>
      obtain ⟨pos, hpos⟩ := List.mem_iff_getElem?.mp h1
      exact h3 (contextO_rule (hm.contexto pos c hpos h2))
    | contexto pos c _ h1 h2 h3 h4 => exact h4 (hm.contexto pos c h1 h2)
    | unassigned c _ h1 h2 => exact hm.unassigned c h1 h2
    | bidi _ h => exact h (bidiOk_accepted hm.bidi)
    | dotInLabel h => revert h; decide
    | invalidTransitional c h => revert h; decide
    | invalidNontransitional c _ h => revert h; decide

theorem uLabel_decodes (hD : D.Laws) {v : List Nat} (h : ULabel D U v) :
    Decodes (Punycode.encode v) v := by
  have := h.length
  rw [aLabel_length] at this
  exact punycodes_decodes ⟨h.scalar, h.nonascii, ⟨_, rfl⟩, rfl⟩
    (fun c hc hlt => isLowerLDH_LDHU (allowed_lower hD (h.disallowed c hc) hlt)) (by omega)

/-- C101, completeness: what RFC 5891 permits to be registered is registered, under any flags. -/
theorem C101_complete {E : Env} (W : World E D) (f : Nat) {r : Submission} {n : List Nat}
    (h : Grants D E.U r n) : RegOk E f r.args.1 r.args.2 n := by
  cases h with
  | ulabel v h =>
    have hl := h.length
    rw [aLabel_length] at hl
    refine (C65_register_ulabel W f _ (.ok _)).mpr (.ulabel v v h.scalar h.nonascii rfl ?_
      ((uLabel_iff h.scalar h.nonascii h.length fun _ => h.bidi).mpr h) (by omega))
    unfold NormIf
    split
    · by_cases hq : QuickYes E.U D (looked v)
      · exact .inl ⟨hq, rfl⟩
      · exact .inr ⟨hq, h.nfc⟩
    · rfl
  | alabel a v ha h =>
    subst ha
    exact (C66_register_alabel W f none _ (.ok _)).mpr (.alabel _ v h.length rfl
      (uLabel_decodes W.data h) h.scalar (.inl rfl)
      ((uLabel_iff h.scalar h.nonascii h.length fun _ => h.bidi).mpr h) rfl)
  | both v a ha h =>
    subst ha
    exact (C66_register_alabel W f (some (utf8s v)) _ (.ok _)).mpr (.alabel _ v h.length rfl
      (uLabel_decodes W.data h) h.scalar (.inr rfl)
      ((uLabel_iff h.scalar h.nonascii h.length fun _ => h.bidi).mpr h) rfl)

/-- C101, soundness for A-labels: one that is registered keeps all of section 4, if its U-label is
one for which the library's Bidi check is the Bidi rule. -/
theorem C101_alabel_partial {E : Env} (W : World E D) {f : Nat} {ul : Option (List Nat)}
    {a n : List Nat} (h : RegOk E f ul (some a) n)
    (hb : ∀ v, (∀ c ∈ v, isScalar c) → a = aLabel v → PlainBidi E.U v) :
    n = a ∧ ∃ v, (ul = none ∨ ul = some (utf8s v)) ∧ Grants D E.U (.alabel a) a ∧
      Grants D E.U (.both v a) a := by
  have h := (C66_register_alabel W f ul a (.ok n)).mp h
  cases h with
  | alabel p v h1 h2 h3 h4 h5 h6 h7 =>
    subst h7
    have hl : (aLabel v).length ≤ 63 := by unfold aLabel; rw [← h2]; exact h1
    have hu := (uLabel_iff (D := D) h4 h3.nonascii hl
      (fun h => accepted_bidiOk h (hb v h4 h2))).mp h6
    exact ⟨rfl, v, h5, .alabel _ v h2 hu, .both v _ h2 hu⟩

/-- C101, soundness for U-labels: under the same condition a registered label that is not ASCII
keeps all of section 4; with NFC_INPUT (bit 0) this is said of the normalised label.  Used of NFC
there: it makes letters, digits and hyphens only of themselves. -/
theorem C101_ulabel_partial {E : Env} (W : World E D) {f : Nat}
    (hk : f.testBit 0 = true → ∀ a b, E.U.nfc a = some b → (∀ c ∈ b, isLowerLDH c) → a = b)
    {s n : List Nat} (h : RegOk E f (some s) none n) (hna : ∃ c ∈ s, 0x80 ≤ c)
    (hb : ∀ u v, (∀ c ∈ u, isScalar c) → s = utf8s u →
      (if f.testBit 0 then E.U.nfc u = some v else v = u) → PlainBidi E.U v) :
    ∃ u v, (∀ c ∈ u, isScalar c) ∧ s = utf8s u ∧
      (if f.testBit 0 then E.U.nfc u = some v else v = u) ∧
      Grants D E.U (.ulabel v) n := by
  have h := (C65_register_ulabel W f s (.ok n)).mp h
  cases h with
  | ascii h1 =>
    obtain ⟨c, hc, hge⟩ := hna
    have := h1 c hc
    omega
  | ulabel q v h1 h2 h3 h4 h5 h6 =>
    have hn : (if f.testBit 0 then E.U.nfc q = some v else v = q) ∧ (∀ c ∈ v, isScalar c) ∧
        ∃ c ∈ v, 0x80 ≤ c := by
      unfold NormIf at h4
      split at h4
      · next b0 =>
        have hq := norm_nfc h4 (fault_free_nfc (by decide) h5)
        rw [if_pos b0]
        refine ⟨hq, W.uni.nfc_scalar _ _ h1 hq, ?_⟩
        refine Classical.byContradiction fun hne => ?_
        have ha : ∀ c ∈ v, c < 0x80 := fun c hc => by
          refine Classical.byContradiction fun hlt => hne ⟨c, hc, by omega⟩
        have := hk b0 q v hq fun c hc => good_ascii W.data h5 c hc (ha c hc)
        subst this
        exact hne h2
      · next b0 => rw [if_neg b0]; subst h4; exact ⟨rfl, h1, h2⟩
    have hl : (aLabel v).length ≤ 63 := by rw [aLabel_length]; omega
    exact ⟨q, v, h1, h3, hn.1, .ulabel v ((uLabel_iff hn.2.1 hn.2.2 hl
      (fun h => accepted_bidiOk h (hb q v h1 h3 hn.1))).mp h5)⟩

/-- "fä". -/
theorem grants_sample : Grants Sample.D Sample.U (.ulabel [0x66, 0xE4])
    (xn ++ [0x66, 0x2D, 0x30, 0x66, 0x61]) := by
  have h : RegOk Sample.E 0 (some (utf8s [0x66, 0xE4])) none
      (xn ++ [0x66, 0x2D, 0x30, 0x66, 0x61]) := by decide +kernel
  have key : ∀ u v, (∀ c ∈ u, isScalar c) → utf8s [0x66, 0xE4] = utf8s u →
      (if Nat.testBit 0 0 then Sample.E.U.nfc u = some v else v = u) → v = [0x66, 0xE4] := by
    intro u v hu he hv
    rw [show Nat.testBit 0 0 = false from rfl] at hv
    simp only [Bool.false_eq_true, ↓reduceIte] at hv
    rw [hv]
    exact utf8s_inj hu (by unfold isScalar; decide) he.symm
  obtain ⟨u, v, hu, hs, hv, hg⟩ := C101_ulabel_partial World.sample (f := 0)
    (fun h => absurd h (by decide)) h (by decide) fun u v hu hs hv => by
      rw [key u v hu hs hv]
      refine ⟨fun h => ?_, by decide⟩
      obtain ⟨x, hx, h⟩ := h.1
      exact absurd h (by revert x; decide)
  rwa [key u v hu hs hv] at hg

/-- So its A-label may be registered too, with or without it. -/
example : RegOk Sample.E 0 none (some (xn ++ [0x66, 0x2D, 0x30, 0x66, 0x61]))
      (xn ++ [0x66, 0x2D, 0x30, 0x66, 0x61]) ∧
    RegOk Sample.E 0 (some (utf8s [0x66, 0xE4])) (some (xn ++ [0x66, 0x2D, 0x30, 0x66, 0x61]))
      (xn ++ [0x66, 0x2D, 0x30, 0x66, 0x61]) := by
  have h := grants_sample
  generalize hn : xn ++ [0x66, 0x2D, 0x30, 0x66, 0x61] = n at h ⊢
  cases h with
  | ulabel _ h =>
    exact ⟨C101_complete World.sample 0 (.alabel _ _ rfl h),
      C101_complete World.sample 0 (.both _ _ rfl h)⟩

/-- Refused: "·" where its rule is broken, "-ä", an A-label with a capital. -/
example : RegErr Sample.E 0 (some (utf8s [0xB7])) none .contexto ∧
    RegErr Sample.E 0 (some (utf8s [0x2D, 0xE4])) none .hyphenStartEnd ∧
    RegErr Sample.E 0 none (some (xn ++ [0x66, 0x2D, 0x30, 0x46, 0x61])) .ualabelMismatch := by
  decide +kernel

/-- Registration goes beyond RFC 5891 in two ways.  Rule 4 of the Bidi rule is not checked:
"א1٠" is registered.  And a string that looks like an A-label is registered untested if it is
given as U-label: "xn--0", which is not the encoding of anything. -/
theorem C101_violated :
    ((∃ n, RegOk Sample.E 0 (some (utf8s [0x5D0, 0x31, 0x660])) none n) ∧
      ¬ ∃ n, Grants Sample.D Sample.U (.ulabel [0x5D0, 0x31, 0x660]) n) ∧
    (RegOk Sample.E 0 (some (xn ++ [0x30])) none (xn ++ [0x30]) ∧
      (¬ ∃ n, Grants Sample.D Sample.U (.ulabel (xn ++ [0x30])) n) ∧
      ¬ ∃ n, Grants Sample.D Sample.U (.alabel (xn ++ [0x30])) n) := by
  refine ⟨⟨?_, ?_⟩, by decide +kernel, ?_, ?_⟩
  · exact ⟨[120, 110, 45, 45, 49, 45, 122, 104, 99, 55, 52, 98], by decide +kernel⟩
  · rintro ⟨n, h⟩
    cases h with
    | ulabel v h =>
      exact C26_bidi_rule_violated.1.2 (h.bidi ⟨0x5D0, by decide, by decide⟩)
  · rintro ⟨n, h⟩
    cases h with
    | ulabel v h =>
      obtain ⟨c, hc, hge⟩ := h.nonascii
      revert hc; unfold xn; simp; omega
  · rintro ⟨n, h⟩
    have := C101_complete World.sample 0 h
    have h2 : RegErr Sample.E 0 none (some (xn ++ [0x30])) .punycodeBadInput := by
      decide +kernel
    cases regIs_unique (r := .error _) (r' := .ok n) h2 this

end Idn2
