import Verif.Props.Stable

/-
Properties C21, C44: converting a lookup result to Unicode and looking it up again.
-/

namespace Idn2
open Spec

theorem each_exists {α β : Type} {R : α → β → Prop} {as : List α} (h : ∀ a ∈ as, ∃ b, R a b) :
    ∃ bs, Each R as bs := by
  induction as with
  | nil => exact ⟨[], .nil⟩
  | cons a as ih =>
    obtain ⟨b, hb⟩ := h a List.mem_cons_self
    obtain ⟨bs, hbs⟩ := ih fun x hx => h x (List.mem_cons_of_mem _ hx)
    exact ⟨b :: bs, .cons hb hbs⟩

theorem each_swap {α β : Type} {R : α → β → Prop} {as : List α} {bs : List β} (h : Each R as bs) :
    Each (fun b a => R a b) bs as := by
  induction h with
  | nil => exact .nil
  | cons h1 _ ih => exact .cons h1 ih

theorem each_ne_nil {α β : Type} {R : α → β → Prop} {as : List α} {bs : List β} (h : Each R as bs)
    (hne : as ≠ []) : bs ≠ [] := by
  cases h with
  | nil => exact absurd rfl hne
  | cons => simp

theorem joinDot_length_le {as bs : List (List Nat)} (h : Each (fun a b => b.length ≤ a.length) as bs) :
    (joinDot bs).length ≤ (joinDot as).length := by
  induction h with
  | nil => simp [joinDot]
  | @cons a b as bs h1 h2 ih =>
    by_cases hne : as = []
    · subst hne
      cases h2
      simpa [joinDot] using h1
    · rw [joinDot_cons hne, joinDot_cons (each_ne_nil h2 hne)]
      simp only [List.length_append, List.length_cons]
      omega

theorem nfc_joinDot {U : Uni} (hU : U.Laws) {us : List (List Nat)}
    (h : ∀ u ∈ us, U.nfc u = some u) : U.nfc (joinDot us) = some (joinDot us) := by
  induction us with
  | nil => exact hU.nfc_ascii [] (by simp)
  | cons u us ih =>
    have ih := ih fun x hx => h x (List.mem_cons_of_mem _ hx)
    by_cases hne : us = []
    · subst hne; exact h u List.mem_cons_self
    · rw [joinDot_cons hne, hU.nfc_sep _ _ _ (Or.inr rfl), h u List.mem_cons_self, ih]
      rfl

/-- Label and Unicode form of a result. -/
def Spec.Pair (D : Data) (U : Uni) (flags : Nat) (d u : List Nat) : Prop :=
  (Plain D U flags d ∧ u = d) ∨ (Behind D U flags u ∧ d = xn ++ Punycode.encode u)

theorem xnPrefix_lower {d : List Nat} (h : ∀ c ∈ d, ¬ (0x41 ≤ c ∧ c ≤ 0x5A)) (hx : XnPrefix d) :
    xn <+: d := by
  unfold XnPrefix at hx
  have : (d.take 4).map asciiLower = d.take 4 := by
    rw [List.map_congr_left (g := id), List.map_id]
    intro c hc
    have := h c (List.mem_of_mem_take hc)
    unfold asciiLower
    rw [if_neg this]; rfl
  rw [this] at hx
  exact ⟨d.drop 4, by rw [show xn = [0x78, 0x6E, 0x2D, 0x2D] from rfl, ← hx, List.take_append_drop]⟩

/-- C21.  UTS #46 nontransitional processing (bits 2 and 6 off) with A-labels being checked (bit
7 off): a result can be converted to Unicode; with STD3 rules (bit 5), or if the Unicode form
has no character that only the absence of STD3 rules lets through mapped, looking up the Unicode
form gives the result back. -/
theorem C21_unicode_inverts {E : Env} {D : Data} (W : World E D) {flags : Nat} {s n : List Nat}
    (h0 : 0 ∉ s) (h2 : flags.testBit 2 = false) (h6 : flags.testBit 6 = false)
    (h7 : flags.testBit 7 = false) (h : LookupOk E flags s n) :
    ∃ v, ToUniOk n v ∧ (∀ c ∈ v, isScalar c) ∧
      ((flags.testBit 5 = true ∨ ∀ c ∈ v, D.status c ≠ .std3Mapped) →
        LookupOk E flags (utf8s v) n) := by
  have hn0 : 0 ∉ n := fun hc => by have := C08_lookup_ascii W h0 h 0 hc; omega
  obtain ⟨hlen, hres⟩ := result_labels W h0 h7 h
  have hch := result_chars W h0 h6 h7 h
  obtain ⟨f, hf, _⟩ := lookupF_ok_iff.mp ((LookupOk_iff W h0).mp h)
  have hconf : ¬ Conflict flags := by
    intro hc
    rw [set_default_flags_eq, if_pos hc] at hf
    cases hf
  have htt : tr46Tests flags = tr46TestsA flags := by
    unfold tr46Tests tr46TestsA; rw [h2]; rfl
  obtain ⟨us, hus⟩ : ∃ us, Each (Pair D E.U flags) (splitDot n) us := by
    apply each_exists
    intro d hd
    rcases hres d hd with hp | ⟨u, hb, hd'⟩
    · exact ⟨d, Or.inl ⟨hp, rfl⟩⟩
    · exact ⟨u, Or.inr ⟨hb, hd'⟩⟩
  have hne := each_ne_nil hus (splitDot_ne_nil n)
  -- what is known of each Unicode label
  have hu : ∀ u ∈ us, (∀ c ∈ u, isScalar c) ∧ (∀ e, ¬ Fault D E.U (tr46TestsA flags) u e) ∧
      ¬ xn <+: u := by
    intro u hu
    obtain ⟨d, _, hp | ⟨hb, _⟩⟩ := each_mem_right hus hu
    · obtain ⟨hp, rfl⟩ := hp
      exact ⟨fun c hc => by have := hp.ascii c hc; unfold isScalar; omega,
        htt ▸ hp.tr46 h6, hp.noxn⟩
    · refine ⟨hb.scalar, hb.tr46 h6, ?_⟩
      rintro ⟨t, rfl⟩
      have h1 : (tr46TestsA flags).testBit 1 = true := by
        unfold tr46TestsA; cases flags.testBit 5 <;> decide
      exact hb.tr46 h6 _ (.twoHyphen h1 rfl rfl)
  have huni : Each (fun d u => uniLabelP d = .ok u) (splitDot n) us := by
    apply each_imp_mem hus
    rintro d hd u (⟨hp, rfl⟩ | ⟨hb, rfl⟩)
    · have hx : ¬ XnPrefix u := fun hx => hp.noxn (xnPrefix_lower (fun c hc => by
        obtain ⟨h8, h9⟩ := hch c (mem_of_mem_splitDot hd hc)
        exact (ascii_valid W.data h8 h9).2.2.1) hx)
      have := uniLabelP_plain (l := u)
        (fun c hc => by have := hp.ascii c hc; unfold isScalar; omega) hx
      rw [ascii_utf8s hp.ascii] at this
      rw [this, if_pos (by have := hp.length; omega)]
    · unfold uniLabelP
      have : aceAnyCase (xn ++ Punycode.encode u) = true := by
        rw [aceAnyCase_iff]; rfl
      rw [if_pos this]
      exact decodes_iff.mpr (labelTo_self h7 hb).1
  have hlens : (joinDot us).length ≤ n.length := by
    have := joinDot_length_le (each_imp_mem (S := fun a b => b.length ≤ a.length) hus (by
      rintro d _ u (⟨_, rfl⟩ | ⟨hb, rfl⟩)
      · omega
      · have := length_le_encode (scalar_lt hb.scalar)
        rw [List.length_append]; omega))
    rwa [joinDot_splitDot] at this
  have hn254 : n.length ≤ 254 := by
    unfold nameLimit at hlen
    split at hlen <;> omega
  have hdot : ∀ u ∈ us, 0x2E ∉ u := fun u hm => (tr46A_char (hu u hm).2.1).2
  have hvs : ∀ c ∈ joinDot us, isScalar c := by
    intro c hc
    rcases mem_joinDot hc with rfl | ⟨u, hm, hcu⟩
    · unfold isScalar; omega
    · exact (hu u hm).1 c hcu
  refine ⟨joinDot us, ?_, hvs, ?_⟩
  · rw [ToUniOk_iff]
    exact (uniLoop_ok_iff (splitDot_ne_nil n)).mpr ⟨us, huni, rfl, by omega⟩
  · intro hstd
    have hv0 : 0 ∉ joinDot us := by
      intro hc
      rcases mem_joinDot hc with hc | ⟨u, hm, hcu⟩
      · omega
      · obtain ⟨d, hd, hp | ⟨hb, _⟩⟩ := each_mem_right hus hm
        · obtain ⟨_, rfl⟩ := hp
          exact hn0 (mem_of_mem_splitDot hd hcu)
        · have := hb.ascii 0 hcu (by omega)
          unfold isLDHU at this; omega
    have hemit : ∀ c ∈ joinDot us, emit D (flags.testBit 2) (flags.testBit 5) c = [c] ∧
        D.status c ≠ .disallowed := by
      intro c hc
      have hv : Tr46Valid D false (!flags.testBit 5) c := by
        rcases mem_joinDot hc with rfl | ⟨u, hm, hcu⟩
        · exact Or.inl W.data.dot.1
        · exact (tr46A_char (hu u hm).2.1).1 c hcu
      rw [h2]
      unfold emit
      rcases hv with hv | ⟨_, hv⟩ | ⟨h5, hv | hv⟩
      · rw [hv]; simp
      · rw [hv]; simp
      · rw [hv]
        have : flags.testBit 5 = false := by simpa using h5
        rw [this]; simp
      · exfalso
        rcases hstd with h | h
        · rw [h] at h5; cases h5
        · exact h c hc hv
    rw [C48_lookup_spec W (zero_mem_utf8s hv0) (fun hb => by rw [h6] at hb; cases hb.2)]
    refine ⟨hconf, joinDot us, hvs, rfl, joinDot us, splitDot n, ?_, ?_,
      (joinDot_splitDot n).symm, hlen⟩
    · unfold Processed
      rw [if_neg (by rw [h6]; simp), flatMap_self fun c hc => (hemit c hc).1]
      refine ⟨fun c hc => (hemit c hc).2, by omega, nfc_joinDot W.uni fun u hm =>
        fault_free_nfc (tr46TestsA_nfc flags) (hu u hm).2.1, ?_⟩
      rw [splitDot_joinDot hne hdot]
      intro u hm
      exact .ulabel (hu u hm).2.2 (htt ▸ (hu u hm).2.1)
    · rw [splitDot_joinDot hne hdot]
      apply each_imp_mem (each_swap hus)
      rintro u hm d (⟨hp, rfl⟩ | ⟨hb, rfl⟩)
      · exact .ascii hp.ascii (fun hx => hp.noxn hx.2) hp.length
      · exact .ulabel hb.nonascii hb.tests (fun _ => hb.ascii) hb.length

-- "fä" and back
example : LookupOk Sample.E 32 [0x46, 0xC3, 0x84] [0x78, 0x6E, 0x2D, 0x2D, 0x66, 0x2D, 0x30, 0x66, 0x61] ∧
    ToUniOk [0x78, 0x6E, 0x2D, 0x2D, 0x66, 0x2D, 0x30, 0x66, 0x61] [0x66, 0xE4] ∧
    LookupOk Sample.E 32 (utf8s [0x66, 0xE4]) [0x78, 0x6E, 0x2D, 0x2D, 0x66, 0x2D, 0x30, 0x66, 0x61] := by
  decide +kernel

/-- The property does not extend to transitional processing (flag 4): "xn--zca" is accepted, its
Unicode form is "ß", and that is mapped to "ss". -/
theorem C21_transitional : ∃ s n v n', LookupOk Sample.E 36 s n ∧ ToUniOk n v ∧
    LookupOk Sample.E 36 (utf8s v) n' ∧ n' ≠ n :=
  ⟨[0x78, 0x6E, 0x2D, 0x2D, 0x7A, 0x63, 0x61], [0x78, 0x6E, 0x2D, 0x2D, 0x7A, 0x63, 0x61], [0xDF],
    [0x73, 0x73], by decide +kernel⟩

/-! ### C44 -/

/-- C44.  With default flags, an A-label that is accepted is shown as a label which, if it has no
character with the UTS #46 status disallowed_STD3_mapped, is looked up as the same A-label. -/
theorem C44_alabel_stable_partial {E : Env} {D : Data} (W : World E D) {t n : List Nat}
    (h0 : 0 ∉ t) (h : LookupOk E 0 (xn ++ t) n) :
    ∃ v, ToUniOk n v ∧ (∀ c ∈ v, isScalar c) ∧
      ((∀ c ∈ v, D.status c ≠ .std3Mapped) → LookupOk E 0 (utf8s v) n) := by
  obtain ⟨v, h1, h2, h3⟩ := C21_unicode_inverts W (s := xn ++ t) (by simp [xn, h0]) (by decide)
    (by decide) (by decide) h
  exact ⟨v, h1, h2, fun hs => h3 (Or.inr hs)⟩

/-- C44 without that restriction fails: "xn--fba" is accepted and shown as U+00A8, which is mapped
to a space and a combining mark and refused. -/
theorem C44_violated : ∃ t n v, LookupOk Sample.E 0 (xn ++ t) n ∧ ToUniOk n v ∧
    LookupErr Sample.E 0 (utf8s v) .alabelRoundtripFailed :=
  ⟨[0x66, 0x62, 0x61], [0x78, 0x6E, 0x2D, 0x2D, 0x66, 0x62, 0x61], [0xA8], by decide +kernel⟩

end Idn2
