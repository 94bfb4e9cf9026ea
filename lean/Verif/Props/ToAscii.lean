import Verif.Proof.ToAsciiP
import Verif.Props.Unicode

/-
Property C48: `idn2_lookup_u8` computes `Spec.ToAscii`.
-/

namespace Idn2
open Spec

theorem nfc_labels {U : Uni} (hU : U.Laws) {x : List Nat} (h : U.nfc x = some x) :
    ∀ l ∈ splitDot x, U.nfc l = some l := by
  generalize hn : x.length = n
  induction n using Nat.strongRecOn generalizing x with
  | _ n ih =>
    rw [splitDot_eq x]
    have hsp : x = x.takeWhile (· != 0x2E) ++ x.dropWhile (· != 0x2E) :=
      (List.takeWhile_append_dropWhile).symm
    have hnd := mem_takeWhile_ne (d := 0x2E) x
    cases hx : x.dropWhile (· != 0x2E) with
    | nil =>
      rw [hx, List.append_nil] at hsp
      intro l hl
      simp at hl
      subst hl
      rw [← hsp]; exact h
    | cons c r =>
      have hc0 : c = 0x2E := by
        have := List.head_dropWhile_not (p := (· != 0x2E)) (l := x) (by rw [hx]; simp)
        simp only [hx, List.head_cons] at this
        simpa using this
      subst hc0
      rw [hx] at hsp
      generalize x.takeWhile (· != 0x2E) = a at *
      have hsep := hU.nfc_sep a 0x2E r (Or.inr rfl)
      rw [← hsp, h] at hsep
      cases ha : U.nfc a with
      | none => rw [ha] at hsep; simp at hsep
      | some a' =>
        cases hr : U.nfc r with
        | none => rw [ha, hr] at hsep; simp at hsep
        | some r' =>
          rw [ha, hr] at hsep
          simp at hsep
          have ha' := hU.nfc_nosep a a' 0x2E (Or.inr rfl) hnd ha
          have h1 := splitDot_append_dot hnd r
          have h2 := splitDot_append_dot ha' r'
          rw [← hsp] at h1
          rw [← hsep, h1] at h2
          injection h2 with h3 h4
          have hrr : r = r' := by
            rw [← joinDot_splitDot r, h4, joinDot_splitDot]
          intro l hl
          simp only [List.mem_cons] at hl
          rcases hl with rfl | hl
          · rw [ha, h3]
          · have hlen := congrArg List.length hsp
            simp at hlen
            exact ih r.length (by omega) (by rw [hr, hrr]) rfl l hl

theorem lookupP_ok_iff {E : Env} {D : Data} {f : Nat} {s n : List Nat} :
    lookupP E D f s = .ok n ↔ ∃ src ds,
      (if has f IDN2_NO_TR46 = true then src = s else tr46P E D f s = .ok src) ∧
      Each (fun l d => labelP E l f = .ok d) (splitDot src) ds ∧
      n = joinDot ds ∧ n.length ≤ nameLimit ds := by
  unfold lookupP
  rw [Res.bind_eq_ok]
  constructor
  · rintro ⟨src, h1, h2⟩
    obtain ⟨ds, h3, h4, h5⟩ := (loopL_ok_iff (splitDot_ne_nil src)).mp h2
    refine ⟨src, ds, ?_, mapLabels_forall.mp h3, h4, h5⟩
    split at h1
    · rename_i h; rw [if_pos h]; injection h1 with h1; exact h1.symm
    · rename_i h; rw [if_neg h]; exact h1
  · rintro ⟨src, ds, h1, h2, h3, h4⟩
    refine ⟨src, ?_, (loopL_ok_iff (splitDot_ne_nil src)).mpr ⟨ds, mapLabels_forall.mpr h2, h3, h4⟩⟩
    split at h1
    · rename_i h; rw [if_pos h, h1]
    · rename_i h; rw [if_neg h]; exact h1

theorem each_iff_mem {α β : Type} {R S : α → β → Prop} {as : List α} {bs : List β}
    (h : ∀ a ∈ as, ∀ b, R a b ↔ S a b) : Each R as bs ↔ Each S as bs := by
  induction as generalizing bs with
  | nil => constructor <;> (rintro ⟨⟩; exact .nil)
  | cons a as ih =>
    have ih := fun bs => ih (bs := bs) fun x hx => h x (List.mem_cons_of_mem _ hx)
    constructor
    · rintro (_ | ⟨h1, h2⟩)
      exact .cons ((h a List.mem_cons_self _).mp h1) ((ih _).mp h2)
    · rintro (_ | ⟨h1, h2⟩)
      exact .cons ((h a List.mem_cons_self _).mpr h1) ((ih _).mpr h2)

theorem each_map_iff {α β γ : Type} {R : β → γ → Prop} {f : α → β} {as : List α} {bs : List γ} :
    Each R (as.map f) bs ↔ Each (fun a b => R (f a) b) as bs := by
  induction as generalizing bs with
  | nil => constructor <;> (rintro ⟨⟩; exact .nil)
  | cons a as ih =>
    constructor
    · rintro (_ | ⟨h1, h2⟩)
      exact .cons h1 (ih.mp h2)
    · rintro (_ | ⟨h1, h2⟩)
      exact .cons h1 (ih.mpr h2)

theorem utf8s_inj {u v : List Nat} (hu : ∀ c ∈ u, isScalar c) (hv : ∀ c ∈ v, isScalar c)
    (h : utf8s u = utf8s v) : u = v := by
  have h1 := u8Decode_some_iff.mpr ⟨hu, rfl⟩
  rw [h, u8Decode_some_iff.mpr ⟨hv, rfl⟩] at h1
  injection h1 with h1
  exact h1.symm

theorem labels_iff {E : Env} {D : Data} (W : World E D) {flags f : Nat}
    (hf : set_default_flags flags = .ok f) {x : List Nat} {ds : List (List Nat)}
    (hx : ∀ c ∈ x, isScalar c) (h0 : 0 ∉ x)
    (hn : ∀ l ∈ splitDot x, flags.testBit 0 = false ∨ (E.U.nfc l = some l ∧
      ∀ t u, l = xn ++ t → Decodes t u → E.U.nfc u = some u)) :
    Each (fun l d => labelP E l f = .ok d) (splitDot (utf8s x)) ds ↔
      Each (LabelTo D E.U flags) (splitDot x) ds := by
  rw [splitDot_utf8s hx, each_map_iff]
  apply each_iff_mem
  intro l hl d
  exact labelP_iff W hf (fun c hc => hx c (mem_of_mem_splitDot hl hc))
    (fun hc => h0 (mem_of_mem_splitDot hl hc)) (hn l hl)

theorem fault_free_nfc {D : Data} {U : Uni} {m : Nat} {u : List Nat} (hm : m.testBit 0 = true)
    (h : ∀ e, ¬ Fault D U m u e) : U.nfc u = some u := by
  cases hn : U.nfc u with
  | none => exact absurd (Fault.nfc hm hn) (h _)
  | some t =>
    apply Classical.byContradiction
    intro hne
    exact h _ (.notNfc t hm hn fun h' => hne (by rw [h']))

theorem tr46TestsA_nfc (flags : Nat) : (tr46TestsA flags).testBit 0 = true := by
  unfold tr46TestsA; cases flags.testBit 5 <;> decide

theorem tr46Label_decoded {D : Data} {U : Uni} {flags : Nat} {l : List Nat}
    (h : Tr46Label D U flags l) {t u : List Nat} (hl : l = xn ++ t) (hd : Decodes t u) :
    ∀ e, ¬ Fault D U (tr46TestsA flags) u e := by
  rcases h with ⟨t', u', rfl, hd', hv⟩ | ⟨h, _⟩
  · have := List.append_cancel_left hl
    subst this
    have h1 := decodes_iff.mpr hd
    rw [decodes_iff.mpr hd'] at h1
    injection h1 with h1
    subst h1
    exact hv
  · exact absurd ⟨t, hl.symm⟩ h

/-- C48.  `idn2_lookup_u8` succeeds exactly when the flags do not conflict, the string is the
UTF-8 form of a sequence of scalar values, and the declarative account of lookup gives the
result.  The combination of NO_TR46 (bit 6) with NFC_INPUT (bit 0), where the
normalisation loop matters, is `C48_lookup_nfc`. -/
theorem C48_lookup_spec {E : Env} {D : Data} (W : World E D) {flags : Nat} {s n : List Nat}
    (h0 : 0 ∉ s) (hb : ¬ (flags.testBit 0 = true ∧ flags.testBit 6 = true)) :
    LookupOk E flags s n ↔ ¬ Conflict flags ∧
      ∃ u, (∀ c ∈ u, isScalar c) ∧ s = utf8s u ∧ ToAscii D E.U flags u n := by
  have hconf : ∀ f, set_default_flags flags = .ok f → ¬ Conflict flags := by
    intro f hf hc
    rw [set_default_flags_eq, if_pos hc] at hf
    cases hf
  have key : ∀ f, set_default_flags flags = .ok f → ∀ u, (∀ c ∈ u, isScalar c) → s = utf8s u →
      (lookupP E D f s = .ok n ↔ ToAscii D E.U flags u n) := by
    rintro f hf u hu rfl
    have hu0 : 0 ∉ u := fun h => h0 ((utf8s_zero_iff hu).mpr h)
    have h6 : has f IDN2_NO_TR46 = flags.testBit 6 := by
      rw [set_default_flags_bits hf _ (by decide), (flag_bits flags).2.2.2.2.2.1]
    have h2 : has f IDN2_TRANSITIONAL = flags.testBit 2 := by
      rw [set_default_flags_bits hf _ (by decide), (flag_bits flags).2.2.1]
    have h5 : has f IDN2_USE_STD3_ASCII_RULES = flags.testBit 5 := by
      rw [set_default_flags_bits hf _ (by decide), (flag_bits flags).2.2.2.2.1]
    have hmap : mapText D f u = u.flatMap (emit D (flags.testBit 2) (flags.testBit 5)) := by
      unfold mapText; rw [h2, h5]
    have hms : ∀ c ∈ mapText D f u, isScalar c := mapText_scalar W.data f hu
    have hm0 : 0 ∉ mapText D f u := zero_mem_mapText W.data f hu0
    rw [lookupP_ok_iff]
    unfold ToAscii Processed
    rw [h6]
    cases hb6 : flags.testBit 6 with
    | true =>
      have hb0 : flags.testBit 0 = false := by
        cases h : flags.testBit 0 with
        | false => rfl
        | true => exact absurd ⟨h, hb6⟩ hb
      simp only [↓reduceIte]
      have hl := fun ds => labels_iff (ds := ds) W hf hu hu0 (fun _ _ => Or.inl hb0)
      constructor
      · rintro ⟨src, ds, rfl, h1, h2, h3⟩
        exact ⟨u, ds, rfl, (hl ds).mp h1, h2, h3⟩
      · rintro ⟨x, ds, rfl, h1, h2, h3⟩
        exact ⟨_, ds, rfl, (hl ds).mpr h1, h2, h3⟩
    | false =>
      simp only [Bool.false_eq_true, ↓reduceIte]
      have hl : ∀ x, E.U.nfc (mapText D f u) = some x →
          (∀ l ∈ splitDot x, Tr46Label D E.U flags l) → ∀ ds, _ := fun x hx ht ds =>
        labels_iff (ds := ds) W hf (W.uni.nfc_scalar _ x hms hx)
          (W.uni.nfc_nosep _ x 0 (Or.inl rfl) hm0 hx)
          (fun l hl => Or.inr ⟨nfc_labels W.uni (W.uni.nfc_idem _ _ hx) l hl,
            fun t v h1 h2 => fault_free_nfc (tr46TestsA_nfc flags)
              (tr46Label_decoded (ht l hl) h1 h2)⟩)
      have ht : ∀ x, E.U.nfc (mapText D f u) = some x →
          ((∀ l ∈ splitDot x, tr46LabelP E f l = .ok none) ↔
            ∀ l ∈ splitDot x, Tr46Label D E.U flags l) := by
        intro x hx
        have hxs := W.uni.nfc_scalar _ x hms hx
        have := fun l (hl : l ∈ splitDot x) =>
          tr46LabelP_iff W hf (fun c hc => hxs c (mem_of_mem_splitDot hl hc))
        exact ⟨fun h l hl => (this l hl).mp (h l hl), fun h l hl => (this l hl).mpr (h l hl)⟩
      constructor
      · rintro ⟨src, ds, h1, h2, h3, h4⟩
        obtain ⟨u', x, hu', hd, hlen, hx, htl, ho⟩ := tr46P_ok_iff.mp h1
        rw [u8Decode_some_iff.mpr ⟨hu, rfl⟩] at hu'
        injection hu' with hu'
        subst hu'
        have htl := (ht x hx).mp htl
        obtain ⟨_, rfl⟩ := u8Encode_some_iff.mp ho
        exact ⟨x, ds, ⟨hd, hmap ▸ hlen, hmap ▸ hx, htl⟩, (hl x hx htl ds).mp h2, h3, h4⟩
      · rintro ⟨x, ds, ⟨hd, hlen, hx, htl⟩, h2, h3, h4⟩
        rw [← hmap] at hlen hx
        refine ⟨utf8s x, ds, tr46P_ok_iff.mpr ⟨u, x, u8Decode_some_iff.mpr ⟨hu, rfl⟩, hd, hlen, hx,
          (ht x hx).mpr htl, u8Encode_utf8s (W.uni.nfc_scalar _ x hms hx)⟩,
          (hl x hx htl ds).mpr h2, h3, h4⟩
  constructor
  · intro h
    obtain ⟨u, hu, hs⟩ := C37_utf8 W h0 h
    obtain ⟨f, hf, hp⟩ := lookupF_ok_iff.mp ((LookupOk_iff W h0).mp h)
    exact ⟨hconf f hf, u, hu, hs, (key f hf u hu hs).mp hp⟩
  · rintro ⟨hc, u, hu, hs, ht⟩
    obtain ⟨f, hf⟩ := set_default_flags_ok hc
    exact (LookupOk_iff W h0).mpr (lookupF_ok_iff.mpr ⟨f, hf, (key f hf u hu hs).mpr ht⟩)

-- "Fä." with default flags, by C48
example : ToAscii Sample.D Sample.U 0 [0x46, 0xE4, 0x2E]
    [0x78, 0x6E, 0x2D, 0x2D, 0x66, 0x2D, 0x30, 0x66, 0x61, 0x2E] := by
  have h : LookupOk Sample.E 0 (utf8s [0x46, 0xE4, 0x2E])
      [0x78, 0x6E, 0x2D, 0x2D, 0x66, 0x2D, 0x30, 0x66, 0x61, 0x2E] := by decide +kernel
  obtain ⟨_, u, hu, hs, ht⟩ := (C48_lookup_spec World.sample (by decide) (by decide)).mp h
  exact utf8s_inj (by unfold isScalar; decide) hu hs ▸ ht

-- a label of hyphens 3 and 4 has no image
example : ¬ ∃ n, ToAscii Sample.D Sample.U 0 [0x61, 0x62, 0x2D, 0x2D, 0xE4] n := by
  rintro ⟨n, h⟩
  have hl := (C48_lookup_spec (flags := 0) (s := utf8s [0x61, 0x62, 0x2D, 0x2D, 0xE4]) World.sample
    (by decide) (by decide)).mpr ⟨by decide, _, by unfold isScalar; decide, rfl, h⟩
  have he : LookupErr Sample.E 0 (utf8s [0x61, 0x62, 0x2D, 0x2D, 0xE4]) .twoHyphen := by
    decide +kernel
  have h1 := (LookupOk_iff World.sample (by decide)).mp hl
  have h2 := (LookupErr_iff World.sample (by decide)).mp he
  rw [h1] at h2
  cases h2

end Idn2
