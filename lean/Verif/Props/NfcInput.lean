import Verif.Props.Uts46
import Verif.Props.Register
import Verif.Spec.ToAsciiNfc

/-
Property C36: IDN2_NFC_INPUT.
-/

namespace Idn2
open Spec

/-- Normalisation acts on the labels. -/
theorem nfc_split {U : Uni} (hU : U.Laws) {u x : List Nat} (h : U.nfc u = some x) :
    Each (fun l m => U.nfc l = some m) (splitDot u) (splitDot x) := by
  generalize hn : u.length = n
  induction n using Nat.strongRecOn generalizing u x with
  | _ n ih =>
    have hsp : u = u.takeWhile (· != 0x2E) ++ u.dropWhile (· != 0x2E) :=
      (List.takeWhile_append_dropWhile).symm
    have hnd := mem_takeWhile_ne (d := 0x2E) u
    cases hx : u.dropWhile (· != 0x2E) with
    | nil =>
      rw [hx, List.append_nil] at hsp
      rw [← hsp] at hnd
      rw [splitDot_nodot hnd, splitDot_nodot (hU.nfc_nosep u x 0x2E (Or.inr rfl) hnd h)]
      exact .cons h .nil
    | cons c r =>
      have hc0 : c = 0x2E := by
        have := List.head_dropWhile_not (p := (· != 0x2E)) (l := u) (by rw [hx]; simp)
        simp only [hx, List.head_cons] at this
        simpa using this
      subst hc0
      rw [hx] at hsp
      generalize u.takeWhile (· != 0x2E) = a at *
      have hsep := hU.nfc_sep a 0x2E r (Or.inr rfl)
      rw [← hsp, h] at hsep
      cases ha : U.nfc a with
      | none => rw [ha] at hsep; simp at hsep
      | some a' =>
        cases hr : U.nfc r with
        | none => rw [ha, hr] at hsep; simp at hsep
        | some r' =>
          rw [ha, hr] at hsep
          simp at hsep
          have ha' := hU.nfc_nosep a a' 0x2E (Or.inr rfl) hnd ha
          rw [hsp, hsep, splitDot_append_dot hnd, splitDot_append_dot ha']
          have hlen := congrArg List.length hsp
          simp at hlen
          exact .cons ha (ih r.length (by omega) hr rfl)

theorem isNFCLoop_yes {E : Env} {D : Data} (hI : Implements E.T D) {l : List Nat}
    (hl : ∀ c ∈ l, c < 0x10000) {last : Nat} {r v : Int}
    (h : isNFCLoop E false l last r = .ok v) (hv : v ≠ 0) :
    QuickYes E.U D l ∧ ∀ c b, l = c :: b → last ≤ E.U.ccc c ∨ E.U.ccc c = 0 := by
  induction l generalizing last r with
  | nil => exact ⟨⟨by simp, by simp⟩, by simp⟩
  | cons ch rest ih =>
    have hch := hl ch List.mem_cons_self
    simp only [isNFCLoop] at h
    by_cases hc : last > E.U.ccc ch ∧ E.U.ccc ch ≠ 0
    · rw [if_pos hc] at h
      exact absurd (Res.ok.inj h).symm hv
    · rw [if_neg hc, hI.nfcqc ch (by omega), Res.bind_ok,
        show decide (ch ≥ 0x10000) = false from decide_eq_false (by omega)] at h
      have key : ∀ {r : Int}, isNFCLoop E false rest (E.U.ccc ch) r = .ok v →
          (D.qc ch = none ∨ D.qc ch = some 0) → QuickYes E.U D (ch :: rest) ∧
          ∀ c b, ch :: rest = c :: b → last ≤ E.U.ccc c ∨ E.U.ccc c = 0 := by
        intro r h hq
        obtain ⟨⟨i1, i2⟩, i3⟩ := ih (fun c hc => hl c (List.mem_cons_of_mem _ hc)) h
        refine ⟨⟨?_, ?_⟩, ?_⟩
        · intro c hc
          rcases List.mem_cons.mp hc with rfl | hc
          · exact hq
          · exact i1 c hc
        · intro a c d b he
          cases a with
          | nil =>
            injection he with h1 h2
            subst h1
            exact i3 d b h2
          | cons x a =>
            injection he with h1 h2
            exact i2 a c d b h2
        · intro c b he
          injection he with h1 _
          subst h1
          omega
      cases hq : D.qc ch with
      | none => rw [hq] at h; exact key h (Or.inl hq)
      | some k =>
        rw [hq] at h
        simp only at h
        by_cases hk : k = 0
        · subst hk
          exact key h (Or.inr hq)
        · rw [if_pos (by simpa using hk)] at h
          exact absurd (Res.ok.inj h).symm hv

/-- The conversion of a label to code points under IDN2_NFC_INPUT normalises it, if it has no
supplementary character. -/
theorem u8nfcP_nfc {E : Env} {D : Data} (W : World E D) (hq : QuickSound E.U D) {l t : List Nat}
    (hl : ∀ c ∈ l, isScalar c) (hb : ∀ c ∈ l, c < 0x10000) (ht : E.U.nfc l = some t) :
    u8nfcP E (utf8s l) true = .ok t := by
  unfold u8nfcP
  rw [u8Decode_some_iff.mpr ⟨hl, rfl⟩]
  obtain ⟨v, hv⟩ := isNFC_ne_ub W.tables (fun c hc => isScalar_le (hl c hc))
  simp only [↓reduceIte]
  rw [hv, Res.bind_ok]
  by_cases h0 : v = 0
  · rw [if_pos h0, ht]
  · rw [if_neg h0]
    have := hq l hl (isNFCLoop_yes W.tables hb hv h0).1
    rw [ht] at this
    injection this with this
    rw [this]

theorem each_map_right {α β γ : Type} {R : α → γ → Prop} {g : β → γ} {as : List α} {bs : List β}
    (h : Each (fun a b => R a (g b)) as bs) : Each R as (bs.map g) := by
  induction h with
  | nil => exact .nil
  | cons h1 _ ih => exact .cons h1 ih

theorem nfc_join {U : Uni} (hU : U.Laws) {ls ts : List (List Nat)}
    (h : Each (fun l t => U.nfc l = some t) ls ts) : U.nfc (joinDot ls) = some (joinDot ts) := by
  induction h with
  | nil => exact hU.nfc_ascii [] (by simp)
  | @cons a b as bs h1 h2 ih =>
    by_cases hne : as = []
    · subst hne
      cases h2
      exact h1
    · rw [joinDot_cons hne, joinDot_cons (each_ne_nil h2 hne), hU.nfc_sep _ _ _ (Or.inr rfl), h1, ih]
      rfl

theorem loopL_congr {E : Env} {f : Nat} {as bs : List (List Nat)}
    (h : Each (fun a b => labelP E a f = labelP E b f) as bs) (name : List Nat) :
    loopL E f as name = loopL E f bs name := by
  induction h generalizing name with
  | nil => rfl
  | @cons a b as bs h1 h2 ih =>
    by_cases hne : as = []
    · subst hne
      cases h2
      simp only [loopL, h1]
    · rw [loopL_cons hne, loopL_cons (each_ne_nil h2 hne), h1]
      cases labelP E b f with
      | ub => rfl
      | err e => rfl
      | ok tmp =>
        simp only [Res.bind_ok]
        rw [ih]

theorem lookupF_noTr46 {E : Env} {D : Data} {flags : Nat} {s : List Nat}
    (h6 : flags.testBit 6 = true) (hc : ¬ Conflict flags) :
    ∃ f, set_default_flags flags = .ok f ∧ f.testBit 0 = flags.testBit 0 ∧
      lookupF E D flags s = loopL E f (splitDot s) [] := by
  obtain ⟨f, hf⟩ := set_default_flags_ok hc
  have e6 := set_default_flags_bits hf IDN2_NO_TR46 (by decide)
  have e0 := set_default_flags_bits hf IDN2_NFC_INPUT (by decide)
  rw [(flag_bits f).2.2.2.2.2.1, (flag_bits flags).2.2.2.2.2.1, h6] at e6
  rw [(flag_bits f).1, (flag_bits flags).1] at e0
  refine ⟨f, hf, e0, ?_⟩
  unfold lookupF
  rw [hf]
  simp only
  unfold lookupP
  rw [(flag_bits f).2.2.2.2.2.1, e6]
  rfl

/-- Non-ASCII labels do not become ASCII.  (They can: the Kelvin sign U+212A is normalised to
"K".) -/
def Spec.KeepsNonAscii (U : Uni) (u : List Nat) : Prop :=
  ∀ l ∈ splitDot u, (∃ c ∈ l, 0x80 ≤ c) → ∀ t, U.nfc l = some t → ∃ c ∈ t, 0x80 ≤ c

/-- C36, for lookup without TR46 processing (bit 6) and with IDN2_NFC_INPUT (bit 0): a name
without supplementary characters none of whose labels becomes ASCII has the same outcome, result
or error, as its NFC form.  Missing: names with supplementary characters, for which it fails. -/
theorem C36_nfc_input_partial {E : Env} {D : Data} (W : World E D) (hq : QuickSound E.U D)
    {flags : Nat} {u x : List Nat} (hu : ∀ c ∈ u, isScalar c) (hu0 : 0 ∉ u)
    (hb : ∀ c ∈ u, c < 0x10000) (hk : KeepsNonAscii E.U u)
    (h0 : flags.testBit 0 = true) (h6 : flags.testBit 6 = true) (hx : E.U.nfc u = some x) :
    (∀ n, LookupOk E flags (utf8s u) n ↔ LookupOk E flags (utf8s x) n) ∧
    ∀ e, LookupErr E flags (utf8s u) e ↔ LookupErr E flags (utf8s x) e := by
  have hxs := W.uni.nfc_scalar u x hu hx
  have hx0 := W.uni.nfc_nosep u x 0 (Or.inl rfl) hu0 hx
  have key : lookupF E D flags (utf8s u) = lookupF E D flags (utf8s x) := by
    by_cases hc : Conflict flags
    · unfold lookupF
      rw [set_default_flags_eq, if_pos hc]
    · obtain ⟨f, hf, hf0, h1⟩ := lookupF_noTr46 (E := E) (D := D) (s := utf8s u) h6 hc
      obtain ⟨f', hf', _, h2⟩ := lookupF_noTr46 (E := E) (D := D) (s := utf8s x) h6 hc
      rw [hf] at hf'
      injection hf' with hf'
      subst hf'
      rw [h1, h2, splitDot_utf8s hu, splitDot_utf8s hxs]
      apply loopL_congr
      rw [each_map_iff]
      apply each_map_right
      apply each_imp_mem (nfc_split W.uni hx)
      intro l hl t ht
      have hls : ∀ c ∈ l, isScalar c := fun c hc => hu c (mem_of_mem_splitDot hl hc)
      by_cases hasc : ∀ c ∈ l, c < 0x80
      · have := W.uni.nfc_ascii l hasc
        rw [ht] at this
        injection this with this
        rw [this]
      · have hna : ∃ c ∈ l, 0x80 ≤ c := by
          apply Classical.byContradiction
          intro hn
          exact hasc fun c hc => by
            apply Classical.byContradiction
            intro h
            exact hn ⟨c, hc, by omega⟩
        have hts := W.uni.nfc_scalar l t hls ht
        unfold labelP
        rw [not_ascii_utf8s hls hna, not_ascii_utf8s hts (hk l hl hna t ht)]
        unfold labelConvertP
        rw [(flag_bits f).1, hf0, h0,
          u8nfcP_nfc W hq hls (fun c hc => hb c (mem_of_mem_splitDot hl hc)) ht,
          u8nfcP_stable W hts (W.uni.nfc_idem l t ht)]
        rfl
  refine ⟨fun n => ?_, fun e => ?_⟩
  · rw [LookupOk_iff W (zero_mem_utf8s hu0), LookupOk_iff W (zero_mem_utf8s hx0), key]
  · rw [LookupErr_iff W (zero_mem_utf8s hu0), LookupErr_iff W (zero_mem_utf8s hx0), key]

theorem compose_nomark (l : List Nat) (h : 0x300 ∉ l) : Sample.compose l = l := by
  fun_induction Sample.compose l with
  | case1 => rfl
  | case2 d => rfl
  | case3 x y r hh ih => exact absurd (by simp [hh.2]) h
  | case4 x y r hh ih => rw [ih fun hc => h (List.mem_cons_of_mem _ hc)]

/-- The hypothesis on the quick check holds in the sample environment. -/
theorem quickSound_sample : QuickSound Sample.U Sample.D := by
  intro l _ h
  have h1 : 0x300 ∉ l := fun hc => absurd (h.yes _ hc) (by decide +kernel)
  have h2 : 0x340 ∉ l := fun hc => absurd (h.yes _ hc) (by decide +kernel)
  show some (Sample.compose (l.map Sample.decompose)) = some l
  rw [Sample.map_decompose_eq l fun c hc hc' => h2 (hc' ▸ hc), compose_nomark l h1]

-- "a" + U+0300, and its NFC form "à"; NO_TR46 and NFC_INPUT
example : Sample.U.nfc [0x61, 0x300] = some [0xE0] ∧
    LookupOk Sample.E 65 (utf8s [0x61, 0x300]) [0x78, 0x6E, 0x2D, 0x2D, 0x30, 0x63, 0x61] ∧
    LookupOk Sample.E 65 (utf8s [0xE0]) [0x78, 0x6E, 0x2D, 0x2D, 0x30, 0x63, 0x61] ∧
    LookupErr Sample.E 64 (utf8s [0x61, 0x300]) .notNfc := by
  decide +kernel

theorem labelP_nfc_ok {E : Env} {D : Data} (W : World E D) {f : Nat} {l d : List Nat}
    (hl : ∀ c ∈ l, isScalar c) (f2 : f.testBit 2 = false)
    (hk : (∃ c ∈ l, 0x80 ≤ c) → ∀ t, E.U.nfc l = some t → ∃ c ∈ t, 0x80 ≤ c)
    (h : labelP E (utf8s l) f = .ok d) :
    ∃ t, E.U.nfc l = some t ∧ labelP E (utf8s t) f = .ok d := by
  by_cases hasc : ∀ c ∈ l, c < 0x80
  · exact ⟨l, W.uni.nfc_ascii l hasc, h⟩
  · have hna : ∃ c ∈ l, 0x80 ≤ c := by
      apply Classical.byContradiction
      intro hn
      exact hasc fun c hc => by
        apply Classical.byContradiction
        intro h
        exact hn ⟨c, hc, by omega⟩
    have h' := h
    unfold labelP at h'
    rw [not_ascii_utf8s hl hna] at h'
    simp only [Bool.false_eq_true, ↓reduceIte] at h'
    unfold labelConvertP at h'
    obtain ⟨p, hp, h2⟩ := Res.bind_eq_ok.mp h'
    obtain ⟨_, ht, hfin⟩ := Res.bind_eq_ok.mp h2
    have hcase : E.U.nfc l = some p ∨ p = l := by
      unfold u8nfcP at hp
      rw [u8Decode_some_iff.mpr ⟨hl, rfl⟩] at hp
      simp only at hp
      split at hp
      · obtain ⟨v, hv⟩ := isNFC_ne_ub W.tables (fun c hc => isScalar_le (hl c hc))
        rw [hv, Res.bind_ok] at hp
        split at hp
        · left
          cases hn : E.U.nfc l with
          | none => rw [hn] at hp; cases hp
          | some t => rw [hn] at hp; injection hp with hp; rw [hp]
        · right; injection hp with hp; exact hp.symm
      · right; injection hp with hp; exact hp.symm
    have hps : ∀ c ∈ p, isScalar c := by
      rcases hcase with hn | rfl
      · exact W.uni.nfc_scalar l p hl hn
      · exact hl
    -- what passes the tests is in NFC
    have hpn : E.U.nfc p = some p := by
      unfold labelTestIf at ht
      rw [(flag_bits f).2.2.1, f2] at ht
      simp only [Bool.false_eq_true, ↓reduceIte] at ht
      have hf := (labelTestP_ok_iff W.tables (fun c hc => isScalar_le (hps c hc)) _).mp ht
      refine fault_free_nfc ?_ hf
      unfold labelMask
      split <;> split <;> decide
    have hlp : E.U.nfc l = some p := by
      rcases hcase with hn | rfl
      · exact hn
      · exact hpn
    refine ⟨p, hlp, ?_⟩
    unfold labelP
    rw [not_ascii_utf8s hps (hk hna p hlp)]
    simp only [Bool.false_eq_true, ↓reduceIte]
    unfold labelConvertP
    rw [u8nfcP_stable W hps hpn]
    exact h2

/-- C36, one direction, for all names without a label that becomes ASCII, with or without
IDN2_NFC_INPUT, without TR46 processing: what is accepted has an NFC form, which is accepted
with the same result. -/
theorem C36_accepted_partial {E : Env} {D : Data} (W : World E D) {flags : Nat} {u n : List Nat}
    (hu : ∀ c ∈ u, isScalar c) (hu0 : 0 ∉ u) (hk : KeepsNonAscii E.U u)
    (h6 : flags.testBit 6 = true) (h : LookupOk E flags (utf8s u) n) :
    ∃ x, E.U.nfc u = some x ∧ LookupOk E flags (utf8s x) n := by
  have hc : ¬ Conflict flags := by
    intro hc
    obtain ⟨f, hf, _⟩ := lookupF_ok_iff.mp ((LookupOk_iff W (zero_mem_utf8s hu0)).mp h)
    rw [set_default_flags_eq, if_pos hc] at hf
    cases hf
  obtain ⟨f, hf, hf0, h1⟩ := lookupF_noTr46 (E := E) (D := D) (s := utf8s u) h6 hc
  have f2 : f.testBit 2 = false := by
    have := set_default_flags_bits hf IDN2_TRANSITIONAL (by decide)
    rw [(flag_bits f).2.2.1, (flag_bits flags).2.2.1] at this
    rw [this]
    cases h2 : flags.testBit 2 with
    | false => rfl
    | true => exact absurd (Or.inr (Or.inl ⟨h6, Or.inl h2⟩)) hc
  have hl := (LookupOk_iff W (zero_mem_utf8s hu0)).mp h
  rw [h1, splitDot_utf8s hu] at hl
  -- the labels of the NFC form
  obtain ⟨ts, hts⟩ : ∃ ts, Each (fun l t => E.U.nfc l = some t ∧
      labelP E (utf8s l) f = labelP E (utf8s t) f) (splitDot u) ts := by
    apply each_exists
    intro l hl'
    obtain ⟨ds, hm, _⟩ := (loopL_ok_iff (by simp [splitDot_ne_nil])).mp hl
    obtain ⟨d, hd⟩ : ∃ d, labelP E (utf8s l) f = .ok d := by
      have := each_swap (mapLabels_forall.mp hm)
      obtain ⟨d, _, hd⟩ := each_mem_right this (List.mem_map.mpr ⟨l, hl', rfl⟩)
      exact ⟨d, hd⟩
    obtain ⟨t, h3, h4⟩ := labelP_nfc_ok W (fun c hc => hu c (mem_of_mem_splitDot hl' hc)) f2
      (hk l hl') hd
    exact ⟨t, h3, by rw [hd, h4]⟩
  have hx := nfc_join W.uni (each_imp_mem hts fun _ _ _ h => h.1)
  rw [joinDot_splitDot] at hx
  have hxs := W.uni.nfc_scalar u _ hu hx
  have hx0 := W.uni.nfc_nosep u _ 0 (Or.inl rfl) hu0 hx
  refine ⟨_, hx, ?_⟩
  have hsp : splitDot (joinDot ts) = ts := by
    apply splitDot_joinDot (each_ne_nil hts (splitDot_ne_nil u))
    intro t ht
    obtain ⟨l, hl', h3, _⟩ := each_mem_right hts ht
    exact W.uni.nfc_nosep l t 0x2E (Or.inr rfl) (mem_splitDot_nodot hl') h3
  obtain ⟨f', hf', _, h2⟩ := lookupF_noTr46 (E := E) (D := D) (s := utf8s (joinDot ts)) h6 hc
  rw [hf] at hf'
  injection hf' with hf'
  subst hf'
  rw [LookupOk_iff W (zero_mem_utf8s hx0), h2, splitDot_utf8s hxs, hsp, ← hl]
  apply loopL_congr
  apply each_map_right
  rw [each_map_iff]
  exact each_imp_mem (each_swap hts) fun _ _ _ h => h.2.symm

/-- C36 fails with supplementary characters: U+20000 U+0340 is refused as not being in NFC, its
NFC form U+20000 U+0300 is accepted. -/
theorem C36_violated : ∃ u x n, Sample.U.nfc u = some x ∧ LookupOk Sample.E 65 (utf8s x) n ∧
    LookupErr Sample.E 65 (utf8s u) .notNfc :=
  ⟨[0x20000, 0x340], [0x20000, 0x300], [0x78, 0x6E, 0x2D, 0x2D, 0x6B, 0x73, 0x61, 0x31, 0x32, 0x37, 0x31, 0x78], by
    decide +kernel⟩

/-- C36 in TR46 mode: there the flag has no influence on what is accepted. -/
theorem C36_tr46_ignored {E : Env} {D : Data} (W : World E D) {f g : Nat} {s n : List Nat}
    (h0 : 0 ∉ s) (h6 : f.testBit 6 = false) (h : ∀ k, k ≠ 0 → g.testBit k = f.testBit k) :
    LookupOk E g s n ↔ LookupOk E f s n := by
  have g6 : g.testBit 6 = false := by rw [h 6 (by omega), h6]
  rw [C48_lookup_spec W h0 (fun hb => by rw [g6] at hb; cases hb.2),
    C48_lookup_spec W h0 (fun hb => by rw [h6] at hb; cases hb.2)]
  have hc : Conflict g ↔ Conflict f := by
    unfold Conflict
    rw [h 1 (by omega), h 2 (by omega), h 3 (by omega), h 6 (by omega), h 7 (by omega)]
  have e1 : labelTests g = labelTests f := by
    unfold labelTests
    rw [h 2 (by omega), h 5 (by omega), h 6 (by omega)]
  have e2 : tr46Tests g = tr46Tests f := by
    unfold tr46Tests
    rw [h 2 (by omega), h 5 (by omega)]
  have e3 : tr46TestsA g = tr46TestsA f := by
    unfold tr46TestsA
    rw [h 5 (by omega)]
  have e4 : ∀ l, Tr46Label D E.U g l ↔ Tr46Label D E.U f l := by
    intro l
    constructor <;> intro hl <;> cases hl with
    | alabel t u h1 h2 h3 => exact .alabel t u h1 h2 (by simpa only [e3] using h3)
    | ulabel h1 h2 => exact .ulabel h1 (by simpa only [e2] using h2)
  have e5 : ∀ l d, LabelTo D E.U g l d ↔ LabelTo D E.U f l d := by
    intro l d
    have h7 := h 7 (by omega)
    constructor <;> intro hl <;> cases hl with
    | ascii h1 h2 h3 => exact .ascii h1 (by simpa only [h7] using h2) h3
    | alabel t w h1 h2 h3 h4 h5 h6 h8 =>
      exact .alabel t w (by simpa only [h7] using h1) h2 h3 h4 (by simpa only [e1] using h5) h6 h8
    | ulabel h1 h2 h3 h4 =>
      exact .ulabel h1 (by simpa only [e1] using h2) (by simpa only [h7] using h3) h4
  have e6 : LabelTo D E.U g = LabelTo D E.U f := by
    funext l d; exact propext (e5 l d)
  unfold ToAscii Processed
  rw [hc, h 2 (by omega), h 5 (by omega), h 6 (by omega), e6]
  simp only [e4]

example : LookupOk Sample.E 1 (utf8s [0x61, 0x300]) [0x78, 0x6E, 0x2D, 0x2D, 0x30, 0x63, 0x61] ∧
    LookupOk Sample.E 0 (utf8s [0x61, 0x300]) [0x78, 0x6E, 0x2D, 0x2D, 0x30, 0x63, 0x61] := by
  decide +kernel

end Idn2
