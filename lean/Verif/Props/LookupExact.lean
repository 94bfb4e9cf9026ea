import Verif.Proof.LookupExact
import Verif.Spec.Lookup

/-
Properties C52 and C64: the error codes of lookup, exactly, and the complete account of lookup.
-/

namespace Idn2
open Spec

/-- C52, exactly: lookup of a well-formed name ends with `e` if and only if the declarative
account of errors says so. -/
theorem C52_lookup_error_iff {E : Env} {D : Data} (W : World E D) {flags : Nat} {u : List Nat}
    {e : Rc} (hu : ∀ c ∈ u, isScalar c) (hu0 : 0 ∉ u)
    (hb : ¬ (flags.testBit 0 = true ∧ flags.testBit 6 = true)) (hc : ¬ Conflict flags) :
    LookupErr E flags (utf8s u) e ↔ ToAsciiErr D E.U flags u e := by
  refine ⟨C52_lookup_error W hu hu0 hb hc, fun h => ?_⟩
  have h0 : 0 ∉ utf8s u := zero_mem_utf8s hu0
  rcases lookup_total W flags h0 with ⟨n, hn⟩ | ⟨e', he⟩
  · obtain ⟨_, v, hv, hs, ht⟩ := (C48_lookup_spec W h0 hb).mp hn
    exact (C52_exclusive h (utf8s_inj hu hv hs ▸ ht)).elim
  · rw [h.unique (C52_lookup_error W hu hu0 hb hc he)]
    exact he

/-- The same with NFC_INPUT (bit 0) and NO_TR46 (bit 6). -/
theorem C52_lookup_error_nfc_iff {E : Env} {D : Data} (W : World E D) {flags : Nat} {u : List Nat}
    {e : Rc} (hu : ∀ c ∈ u, isScalar c) (hu0 : 0 ∉ u) (hb0 : flags.testBit 0 = true)
    (hb6 : flags.testBit 6 = true) (hc : ¬ Conflict flags) :
    LookupErr E flags (utf8s u) e ↔ ToAsciiErrNfc D E.U flags u e := by
  refine ⟨C52_lookup_error_nfc W hu hu0 hb0 hb6 hc, fun h => ?_⟩
  have h0 : 0 ∉ utf8s u := zero_mem_utf8s hu0
  rcases lookup_total W flags h0 with ⟨n, hn⟩ | ⟨e', he⟩
  · obtain ⟨_, v, hv, hs, ht⟩ := (C48_lookup_nfc W h0 hb0 hb6).mp hn
    exact (C52_exclusive_nfc h (utf8s_inj hu hv hs ▸ ht)).elim
  · rw [h.unique (C52_lookup_error_nfc W hu hu0 hb0 hb6 hc he)]
    exact he

/-! ### Labels as bytes -/

theorem bytesTo_iff {E : Env} {D : Data} (W : World E D) {flags f : Nat}
    (hf : set_default_flags flags = .ok f) {l d : List Nat} (h0 : 0 ∉ l) :
    labelP E l f = .ok d ↔ BytesTo D E.U flags l d := by
  have key : ∀ u, (∀ c ∈ u, isScalar c) → l = utf8s u → (labelP E l f = .ok d ↔
      if flags.testBit 0 then LabelToNfc D E.U flags u d else LabelTo D E.U flags u d) := by
    rintro u hu rfl
    have hu0 : 0 ∉ u := fun h => h0 ((utf8s_zero_iff hu).mpr h)
    cases hb : flags.testBit 0 with
    | true => exact labelP_nfc_iff W hf hb hu hu0
    | false => exact labelP_iff W hf hu hu0 (Or.inl hb)
  constructor
  · intro h
    obtain ⟨u, hu, hl⟩ := labelP_wellFormed W h0 h
    exact ⟨u, hu, hl, (key u hu hl).mp h⟩
  · rintro ⟨u, hu, hl, h⟩
    exact (key u hu hl).mpr h

theorem labelP_malformed {E : Env} {f : Nat} {l : List Nat} (h : ¬ WellFormed l) :
    labelP E l f = .err .encodingError := by
  have hd : u8Decode l = none := by
    cases hd : u8Decode l with
    | none => rfl
    | some u => exact absurd ⟨u, u8Decode_some_iff.mp hd⟩ h
  have ha : ¬ ascii_p l = true := by
    rw [ascii_p_iff]
    intro ha
    exact h ⟨l, u8Decode_some_iff.mp (u8Decode_ascii ha)⟩
  unfold labelP labelConvertP u8nfcP
  rw [if_neg ha, hd]
  rfl

theorem bytesErr_iff {E : Env} {D : Data} (W : World E D) {flags f : Nat}
    (hf : set_default_flags flags = .ok f) {l : List Nat} {e : Rc} (h0 : 0 ∉ l) :
    labelP E l f = .err e ↔ BytesErr D E.U flags l e := by
  have key : ∀ u, (∀ c ∈ u, isScalar c) → l = utf8s u → ∀ e, labelP E l f = .err e →
      if flags.testBit 0 then LabelErrNfc D E.U flags u e else Spec.LabelErr D E.U flags u e := by
    rintro u hu rfl e h
    have hu0 : 0 ∉ u := fun h => h0 ((utf8s_zero_iff hu).mpr h)
    cases hb : flags.testBit 0 with
    | true => exact labelP_nfc_err W hf hb hu hu0 h
    | false => exact labelP_err W hf hu hu0 (Or.inl hb) h
  by_cases hw : WellFormed l
  · obtain ⟨u, hu, hl⟩ := hw
    constructor
    · intro h
      exact Or.inr ⟨u, hu, hl, key u hu hl e h⟩
    · rintro (⟨h, _⟩ | ⟨u', hu', hl', h⟩)
      · exact absurd ⟨u, hu, hl⟩ h
      · have := utf8s_inj hu hu' (hl.symm.trans hl')
        subst this
        cases hp : labelP E l f with
        | ub => exact absurd hp (labelP_ne_ub W.tables W.uni h0 f)
        | ok d =>
          obtain ⟨v, hv, hl2, ht⟩ := (bytesTo_iff W hf h0).mp hp
          have := utf8s_inj hu hv (hl.symm.trans hl2)
          subst this
          cases hb : flags.testBit 0 with
          | true => rw [hb] at h ht; exact (labelErrNfc_not_to h ht).elim
          | false => rw [hb] at h ht; exact (labelErr_not_to h ht).elim
        | err e' =>
          have hk := key u hu hl e' hp
          cases hb : flags.testBit 0 with
          | true => rw [hb] at h hk; rw [Spec.LabelErrNfc.unique h hk]
          | false => rw [hb] at h hk; rw [Spec.LabelErr.unique h hk]
  · rw [labelP_malformed hw]
    constructor
    · intro h
      injection h with h
      exact Or.inl ⟨hw, h.symm⟩
    · rintro (⟨_, rfl⟩ | ⟨u, hu, hl, _⟩)
      · rfl
      · exact absurd ⟨u, hu, hl⟩ hw

/-- The errors of the labels in order, in terms of other accounts of the single label. -/
theorem firstErr_congr {ok ok' : List Nat → List Nat → Prop} {er er' : List Nat → Rc → Prop}
    {ls : List (List Nat)} {e : Rc} (h1 : ∀ l ∈ ls, ∀ d, ok l d ↔ ok' l d)
    (h2 : ∀ l ∈ ls, ∀ e, er l e ↔ er' l e) : FirstErr ok er ls e ↔ FirstErr ok' er' ls e := by
  have conv : ∀ {ok ok' : List Nat → List Nat → Prop} {er er' : List Nat → Rc → Prop},
      (∀ l ∈ ls, ∀ d, ok l d → ok' l d) → (∀ l ∈ ls, ∀ e, er l e → er' l e) →
      FirstErr ok er ls e → FirstErr ok' er' ls e := by
    rintro ok ok' er er' g1 g2 ⟨pre, l, post, ds, k1, k2, k3, k4⟩
    have hl : l ∈ ls := by rw [k1]; simp
    refine ⟨pre, l, post, ds, k1, each_imp_mem k2 fun a ha d => g1 a (by rw [k1]; simp [ha]) d,
      k3, ?_⟩
    rcases k4 with k4 | ⟨d, k4, k5⟩
    · exact Or.inl (g2 l hl e k4)
    · exact Or.inr ⟨d, g1 l hl d k4, k5⟩
  exact ⟨conv (fun l hl d => (h1 l hl d).mp) (fun l hl e => (h2 l hl e).mp),
    conv (fun l hl d => (h1 l hl d).mpr) (fun l hl e => (h2 l hl e).mpr)⟩

/-- The outcome of `idn2_lookup_u8`. -/
def LookupIs (E : Env) (flags : Nat) (s : List Nat) : Except Rc (List Nat) → Prop
  | .ok n => LookupOk E flags s n
  | .error e => LookupErr E flags s e

theorem lookupIs_unique {E : Env} {flags : Nat} {s : List Nat} {r r' : Except Rc (List Nat)}
    (h : LookupIs E flags s r) (h' : LookupIs E flags s r') : r = r' := by
  cases r <;> cases r' <;> simp only [LookupIs, LookupOk, LookupErr] at h h' <;> rw [h] at h' <;>
    simp at h' <;> rw [h']

theorem lookup_error_noTr46 {E : Env} {D : Data} (W : World E D) {flags : Nat} {s : List Nat} {e : Rc}
    (h0 : 0 ∉ s) (h6 : flags.testBit 6 = true) (hc : ¬ Conflict flags) :
    LookupErr E flags s e ↔
      FirstErr (BytesTo D E.U flags) (BytesErr D E.U flags) (splitDot s) e := by
  obtain ⟨f, hf⟩ := set_default_flags_ok hc
  have hl0 : ∀ l ∈ splitDot s, 0 ∉ l := fun l hl hc => h0 (mem_of_mem_splitDot hl hc)
  have hn : has f IDN2_NO_TR46 = true := by
    rw [set_default_flags_bits hf _ (by decide), (flag_bits flags).2.2.2.2.2.1, h6]
  rw [LookupErr_iff W h0]
  unfold lookupF
  rw [hf]
  simp only
  rw [lookupP_noTr46 hn, loopL_err_iff]
  exact firstErr_congr (fun l hl d => bytesTo_iff W hf (hl0 l hl))
    (fun l hl e => bytesErr_iff W hf (hl0 l hl))

theorem lookup_ok_noTr46 {E : Env} {D : Data} (W : World E D) {flags : Nat} {s n : List Nat}
    (h0 : 0 ∉ s) (h6 : flags.testBit 6 = true) (hc : ¬ Conflict flags) :
    LookupOk E flags s n ↔ ∃ ds, Each (BytesTo D E.U flags) (splitDot s) ds ∧ n = joinDot ds ∧
      n.length ≤ if ds.getLast? = some [] then 254 else 253 := by
  obtain ⟨f, hf⟩ := set_default_flags_ok hc
  have hl0 : ∀ l ∈ splitDot s, 0 ∉ l := fun l hl hc => h0 (mem_of_mem_splitDot hl hc)
  have hn : has f IDN2_NO_TR46 = true := by
    rw [set_default_flags_bits hf _ (by decide), (flag_bits flags).2.2.2.2.2.1, h6]
  have he : ∀ ds, Each (fun l d => labelP E l f = .ok d) (splitDot s) ds ↔
      Each (BytesTo D E.U flags) (splitDot s) ds := fun ds =>
    each_iff_mem fun l hl d => bytesTo_iff W hf (hl0 l hl)
  rw [LookupOk_iff W h0, lookupF_ok_iff]
  constructor
  · rintro ⟨f', hf', hp⟩
    rw [hf] at hf'
    injection hf' with hf'
    subst hf'
    rw [lookupP_ok_iff, hn] at hp
    simp only [↓reduceIte] at hp
    obtain ⟨src, ds, rfl, h1, h2, h3⟩ := hp
    exact ⟨ds, (he ds).mp h1, h2, h3⟩
  · rintro ⟨ds, h1, h2, h3⟩
    refine ⟨f, hf, ?_⟩
    rw [lookupP_ok_iff, hn]
    simp only [↓reduceIte]
    exact ⟨s, ds, rfl, (he ds).mpr h1, h2, h3⟩

theorem lookup_conflict {E : Env} {D : Data} (W : World E D) {flags : Nat} {s : List Nat} (h0 : 0 ∉ s)
    (hc : Conflict flags) : LookupErr E flags s .invalidFlags := by
  rw [LookupErr_iff W h0]
  unfold lookupF
  rw [set_default_flags_eq, if_pos hc]

/-- C64.  The complete account of lookup, for all flags and all strings: this is the outcome of
the library if and only if it is the outcome of the account. -/
theorem C64_lookup {E : Env} {D : Data} (W : World E D) (flags : Nat) {s : List Nat} (h0 : 0 ∉ s)
    (r : Except Rc (List Nat)) : LookupIs E flags s r ↔ Lookup D E.U flags s r := by
  have hb : flags.testBit 6 = false → ¬ (flags.testBit 0 = true ∧ flags.testBit 6 = true) := by
    rintro h ⟨_, h'⟩
    rw [h] at h'
    cases h'
  have hz : ∀ {u}, (∀ c ∈ u, isScalar c) → s = utf8s u → 0 ∉ u := by
    rintro u hu rfl h
    exact h0 ((utf8s_zero_iff hu).mpr h)
  have back : ∀ {r}, Lookup D E.U flags s r → LookupIs E flags s r := by
    intro r h
    cases h with
    | conflict h => exact lookup_conflict W h0 h
    | malformed h1 h2 h3 => exact (C37_malformed W h0 h3).2 h1 h2
    | result u n h1 h2 h3 h4 h5 => exact (C48_lookup_spec W h0 (hb h2)).mpr ⟨h1, u, h3, h4, h5⟩
    | error u e h1 h2 h3 h4 h5 =>
      have hu0 := hz h3 h4
      subst h4
      exact (C52_lookup_error_iff W h3 hu0 (hb h2) h1).mpr h5
    | labels ds h1 h2 h3 h4 => exact (lookup_ok_noTr46 W h0 h2 h1).mpr ⟨ds, h3, rfl, h4⟩
    | label e h1 h2 h3 => exact (lookup_error_noTr46 W h0 h2 h1).mpr h3
  refine ⟨fun h => ?_, back⟩
  by_cases hc : Conflict flags
  · have := back (.conflict (D := D) hc)
    rw [lookupIs_unique h this]
    exact .conflict hc
  · cases h6 : flags.testBit 6 with
    | true =>
      cases r with
      | ok n =>
        obtain ⟨ds, g1, rfl, g2⟩ := (lookup_ok_noTr46 W h0 h6 hc).mp h
        exact .labels ds hc h6 g1 g2
      | error e => exact .label e hc h6 ((lookup_error_noTr46 W h0 h6 hc).mp h)
    | false =>
      by_cases hw : WellFormed s
      · obtain ⟨u, hu, hs⟩ := hw
        cases r with
        | ok n =>
          obtain ⟨_, v, hv, hs', ht⟩ := (C48_lookup_spec W h0 (hb h6)).mp h
          exact .result v n hc h6 hv hs' ht
        | error e =>
          have hu0 := hz hu hs
          refine .error u e hc h6 hu hs ?_
          subst hs
          exact (C52_lookup_error_iff W hu hu0 (hb h6) hc).mp h
      · have := back (.malformed (D := D) hc h6 hw)
        rw [lookupIs_unique h this]
        exact .malformed hc h6 hw

/-- C64.  The account gives every string one outcome. -/
theorem C64_unique {E : Env} {D : Data} (W : World E D) (flags : Nat) {s : List Nat} (h0 : 0 ∉ s) :
    ∃ r, Lookup D E.U flags s r ∧ ∀ r', Lookup D E.U flags s r' → r' = r := by
  have : ∃ r, LookupIs E flags s r := by
    rcases lookup_total W flags h0 with ⟨n, h⟩ | ⟨e, h⟩
    · exact ⟨.ok n, h⟩
    · exact ⟨.error e, h⟩
  obtain ⟨r, hr⟩ := this
  exact ⟨r, (C64_lookup W flags h0 r).mp hr,
    fun r' hr' => lookupIs_unique ((C64_lookup W flags h0 r').mpr hr') hr⟩

/-- One name for each clause of the account: conflicting flags; UTF-8 that is malformed; "fä";
a hyphen at the start; with NO_TR46 "fä.f", and a malformed label behind one with a leading
combining mark, which decides. -/
example : Lookup Sample.D Sample.U 12 [0x66] (.error .invalidFlags) ∧
    Lookup Sample.D Sample.U 0 [0x66, 0xC3] (.error .encodingError) ∧
    Lookup Sample.D Sample.U 0 [0x66, 0xC3, 0xA4] (.ok (xn ++ [0x66, 0x2D, 0x30, 0x66, 0x61])) ∧
    Lookup Sample.D Sample.U 0 [0x2D, 0xC3, 0xA4] (.error .hyphenStartEnd) ∧
    Lookup Sample.D Sample.U 64 [0x66, 0xC3, 0xA4, 0x2E, 0x66]
      (.ok (xn ++ [0x66, 0x2D, 0x30, 0x66, 0x61, 0x2E, 0x66])) ∧
    Lookup Sample.D Sample.U 64 [0x66, 0x2E, 0xCC, 0x80, 0x2E, 0xFF] (.error .leadingCombining) := by
  have h : LookupErr Sample.E 12 [0x66] .invalidFlags ∧
      LookupErr Sample.E 0 [0x66, 0xC3] .encodingError ∧
      LookupOk Sample.E 0 [0x66, 0xC3, 0xA4] (xn ++ [0x66, 0x2D, 0x30, 0x66, 0x61]) ∧
      LookupErr Sample.E 0 [0x2D, 0xC3, 0xA4] .hyphenStartEnd ∧
      LookupOk Sample.E 64 [0x66, 0xC3, 0xA4, 0x2E, 0x66]
        (xn ++ [0x66, 0x2D, 0x30, 0x66, 0x61, 0x2E, 0x66]) ∧
      LookupErr Sample.E 64 [0x66, 0x2E, 0xCC, 0x80, 0x2E, 0xFF] .leadingCombining := by
    decide +kernel
  obtain ⟨h1, h2, h3, h4, h5, h6⟩ := h
  have W := World.sample
  exact ⟨(C64_lookup W 12 (by decide) (.error _)).mp h1, (C64_lookup W 0 (by decide) (.error _)).mp h2,
    (C64_lookup W 0 (by decide) (.ok _)).mp h3, (C64_lookup W 0 (by decide) (.error _)).mp h4,
    (C64_lookup W 64 (by decide) (.ok _)).mp h5, (C64_lookup W 64 (by decide) (.error _)).mp h6⟩

/-- The account can be used without the library: a malformed label is refused. -/
example : Lookup Sample.D Sample.U 64 [0xFF] (.error .encodingError) := by
  refine .label _ (by decide) (by decide) ⟨[], [0xFF], [], [], rfl, .nil, by simp [joinDot], Or.inl ?_⟩
  refine Or.inl ⟨?_, rfl⟩
  rintro ⟨u, hu⟩
  have h : u8Decode [0xFF] = none := by decide
  rw [u8Decode_some_iff.mpr hu] at h
  cases h

end Idn2
