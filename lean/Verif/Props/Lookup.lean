import Verif.Proof.Errors
import Verif.Spec.Api
import Verif.Spec.Flags
import Verif.Data.Sample
import Verif.Data.Laws

/-
Properties C07-C11, C13, C14: `idn2_lookup_u8`.

`E` is the library's environment (tables and libunistring), `D` the Unicode data, `s` the
bytes of the input string (so `0 ∉ s`).
-/

namespace Idn2
open Spec

theorem World.of {T : Tables} {U : Uni} {D : Data} (h1 : Implements T D) (h2 : U.Laws)
    (h3 : D.Laws) : World ⟨T, U⟩ D := ⟨h1, h2, h3⟩

/-- The shipped tables with any normaliser that satisfies the laws of NFC. -/
theorem World.shipped {U : Uni} (h : U.Laws) : World (Env.mk Shipped.T U) Shipped.D :=
  World.of Shipped.implements h Shipped.laws

theorem World.sample : World Sample.E Sample.D :=
  ⟨Sample.implements, Sample.uni_laws, Sample.laws⟩

theorem LookupOk_iff {E : Env} {D : Data} (W : World E D) {flags : Nat} {s n : List Nat} (h0 : 0 ∉ s) :
    LookupOk E flags s n ↔ lookupF E D flags s = .ok n := by
  unfold LookupOk
  rw [lookup_u8_out W.tables W.uni W.data flags h0]
  cases lookupF E D flags s <;> simp [retOf]

theorem LookupErr_iff {E : Env} {D : Data} (W : World E D) {flags : Nat} {s : List Nat} {e : Rc}
    (h0 : 0 ∉ s) : LookupErr E flags s e ↔ lookupF E D flags s = .err e := by
  unfold LookupErr
  rw [lookup_u8_out W.tables W.uni W.data flags h0]
  cases lookupF E D flags s <;> simp [retOf]

theorem lookupF_ok_iff {E : Env} {D : Data} {flags : Nat} {s n : List Nat} :
    lookupF E D flags s = .ok n ↔ ∃ f, set_default_flags flags = .ok f ∧ lookupP E D f s = .ok n := by
  unfold lookupF
  cases set_default_flags flags with
  | error e => simp
  | ok f => simp

theorem lookupF_ne_ub {E : Env} {D : Data} (W : World E D) (flags : Nat) {s : List Nat}
    (h0 : 0 ∉ s) : lookupF E D flags s ≠ .ub := by
  unfold lookupF
  cases set_default_flags flags with
  | error e => simp
  | ok f => exact lookupP_ne_ub W.tables W.uni W.data f h0

theorem lookup_total {E : Env} {D : Data} (W : World E D) (flags : Nat) {s : List Nat}
    (h0 : 0 ∉ s) : (∃ n, LookupOk E flags s n) ∨ ∃ e, LookupErr E flags s e := by
  have := lookupF_ne_ub W flags h0
  cases h : lookupF E D flags s with
  | ub => exact absurd h this
  | err e => exact Or.inr ⟨e, (LookupErr_iff W h0).mpr h⟩
  | ok n => exact Or.inl ⟨n, (LookupOk_iff W h0).mpr h⟩

/-! ### The labels of the result -/

theorem nfc_nosep_u8nfc {E : Env} {D : Data} (W : World E D) {src p : List Nat} {nfc : Bool} {d : Nat}
    (hd : d = 0 ∨ d = 0x2E) (hs : d ∉ src) (h : u8nfcP E src nfc = .ok p) : d ∉ p := by
  obtain ⟨_, q, hq, hp⟩ := (u8nfcP_spec W.tables W.uni src nfc).2 p h
  have hdq : d ∉ q := by
    intro hc
    exact hs ((mem_u8Encode_ascii (u8Encode_decode hq) (by omega)).mpr hc)
  rcases hp with rfl | ⟨_, hn⟩
  · exact hdq
  · exact W.uni.nfc_nosep q p d hd hdq hn

/-- The bytes and the length of a converted label. -/
theorem labelP_dst {E : Env} {D : Data} (W : World E D) {src dst : List Nat} (h0 : 0 ∉ src)
    {flags : Nat} (h : labelP E src flags = .ok dst) :
    (∀ c ∈ dst, c < 0x80) ∧ dst.length ≤ 63 ∧ 0 ∉ dst ∧ (0x2E ∉ src → 0x2E ∉ dst) := by
  have ace : ∀ p enc, Converted E flags p enc → 0 ∉ p → (0x2E ∉ src → 0x2E ∉ p) →
      dst = acePrefix ++ enc →
      (∀ c ∈ dst, c < 0x80) ∧ dst.length ≤ 63 ∧ 0 ∉ dst ∧ (0x2E ∉ src → 0x2E ∉ dst) := by
    rintro p enc hc hp0 hp1 rfl
    have hsh := enc_shape (by omega) (by omega) hc.encode
    have hlt : ∀ c ∈ acePrefix ++ enc, isLowerLDH c ∨ (c ∈ p ∧ c < 0x80) := by
      intro c hc
      rcases List.mem_append.mp hc with hc | hc
      · left; unfold acePrefix at hc; unfold isLowerLDH; simp at hc; omega
      · exact (hsh.chars c hc).symm
    refine ⟨?_, ?_, ?_, ?_⟩
    · intro c hc
      rcases hlt c hc with h | h
      · unfold isLowerLDH at h; omega
      · exact h.2
    · have := hsh.cap
      simp only [List.length_append, acePrefix, List.length_cons, List.length_nil]; omega
    · intro hc
      rcases hlt 0 hc with h | h
      · unfold isLowerLDH at h; omega
      · exact hp0 h.1
    · intro hd hc
      rcases hlt 0x2E hc with h | h
      · unfold isLowerLDH at h; omega
      · exact hp1 hd h.1
  rcases (labelP_ok_iff W.tables W.uni h0).mp h with ⟨h1, _, h3, rfl⟩ |
    ⟨_, _, t, u, src8, p, enc, _, hu, h8, hp, hc, hd, _⟩ | ⟨_, p, enc, hp, hc, hd⟩
  · exact ⟨h1, h3, h0, fun h => h⟩
  · have hsep : ∀ d, d = 0 ∨ d = 0x2E → d ∉ p := by
      intro d hd
      apply nfc_nosep_u8nfc W hd _ hp
      intro hm
      have hm := (mem_u8Encode_ascii h8 (by omega)).mp hm
      rcases (C05_decode_output (by omega) hu).1 d hm with h | h
      · have := h.1; unfold isLDHU at this; omega
      · omega
    exact ace p enc hc (hsep 0 (Or.inl rfl)) (fun _ => hsep 0x2E (Or.inr rfl)) hd
  · exact ace p enc hc (nfc_nosep_u8nfc W (Or.inl rfl) h0 hp)
      (fun h => nfc_nosep_u8nfc W (Or.inr rfl) h hp) hd

theorem mapLabels_forall {E : Env} {flags : Nat} {ls ds : List (List Nat)} :
    mapLabels E flags ls = .ok ds ↔
      Each (fun l d => labelP E l flags = .ok d) ls ds := by
  induction ls generalizing ds with
  | nil =>
    simp only [mapLabels, Res.ok.injEq]
    constructor
    · rintro rfl; exact .nil
    · rintro ⟨⟩; rfl
  | cons l ls ih =>
    rw [mapLabels_ok_cons]
    constructor
    · rintro ⟨d, ds', rfl, h1, h2⟩
      exact .cons h1 (ih.mp h2)
    · rintro (_ | ⟨h1, h2⟩)
      exact ⟨_, _, rfl, h1, ih.mpr h2⟩

theorem each_mem_right {α β : Type} {R : α → β → Prop} {as : List α} {bs : List β}
    (h : Each R as bs) {b : β} (hb : b ∈ bs) : ∃ a ∈ as, R a b := by
  induction h with
  | nil => cases hb
  | cons h1 h2 ih =>
    rcases List.mem_cons.mp hb with rfl | hb
    · exact ⟨_, List.mem_cons_self, h1⟩
    · obtain ⟨a, ha, hr⟩ := ih hb
      exact ⟨a, List.mem_cons_of_mem _ ha, hr⟩

/-- What success of lookup means, down to the labels: the string the labels are taken from,
and the converted labels. -/
theorem lookupP_ok {E : Env} {D : Data} (W : World E D) {flags : Nat} {s n : List Nat} (h0 : 0 ∉ s)
    (h : lookupP E D flags s = .ok n) : ∃ src ds, 0 ∉ src ∧
      (if has flags IDN2_NO_TR46 = true then src = s else tr46P E D flags s = .ok src) ∧
      Each (fun l d => labelP E l flags = .ok d) (splitDot src) ds ∧
      n = joinDot ds ∧ splitDot n = ds ∧ n.length ≤ nameLimit ds ∧
      (∀ d ∈ ds, (∀ c ∈ d, c < 0x80) ∧ d.length ≤ 63 ∧ 0 ∉ d ∧ 0x2E ∉ d) := by
  unfold lookupP at h
  obtain ⟨src, hs, hl⟩ := Res.bind_eq_ok.mp h
  obtain ⟨ds, hm, hn, hlen⟩ := (loopL_ok_iff (splitDot_ne_nil src)).mp hl
  have hs0 : 0 ∉ src := by
    split at hs
    · injection hs with hs; exact hs ▸ h0
    · exact tr46P_zero W.uni W.data h0 hs
  have hf := mapLabels_forall.mp hm
  have hds : ∀ d ∈ ds, (∀ c ∈ d, c < 0x80) ∧ d.length ≤ 63 ∧ 0 ∉ d ∧ 0x2E ∉ d := by
    intro d hd
    obtain ⟨l, hl, hr⟩ := each_mem_right hf hd
    obtain ⟨k1, k2, k3, k4⟩ := labelP_dst W (fun hc => hs0 (mem_of_mem_splitDot hl hc)) hr
    exact ⟨k1, k2, k3, k4 (mem_splitDot_nodot hl)⟩
  have hne : ds ≠ [] := by
    rintro rfl
    have := splitDot_ne_nil src
    cases hf' : splitDot src with
    | nil => exact this hf'
    | cons a b => rw [hf'] at hf; cases hf
  rw [List.nil_append] at hn
  refine ⟨src, ds, hs0, ?_, hf, hn, ?_, hlen, hds⟩
  · split at hs
    · rename_i hb; rw [if_pos hb]; injection hs with hs; exact hs.symm
    · rename_i hb; rw [if_neg hb]; exact hs
  · rw [hn, splitDot_joinDot hne (fun d hd => (hds d hd).2.2.2)]

theorem getLast_joinDot_dot {ds : List (List Nat)} (hd : ∀ d ∈ ds, 0x2E ∉ d) (hlen : joinDot ds ≠ []) :
    ds.getLast? = some [] → (joinDot ds).getLast? = some 0x2E := by
  induction ds with
  | nil => intro h; simp at h
  | cons l ls ih =>
    cases ls with
    | nil =>
      intro h
      simp only [List.getLast?_singleton, Option.some.injEq] at h
      subst h
      exact absurd rfl hlen
    | cons x xs =>
      intro h
      rw [List.getLast?_cons_of_ne_nil (by simp)] at h
      rw [joinDot_cons (by simp)]
      by_cases hj : joinDot (x :: xs) = []
      · rw [hj]; simp
      · have := ih (fun d hd' => hd d (List.mem_cons_of_mem _ hd')) hj h
        rw [List.getLast?_append, List.getLast?_cons_of_ne_nil hj, this]; rfl

/-- C07.  Size limits of a successful lookup. -/
theorem C07_lookup_limits {E : Env} {D : Data} (W : World E D) {flags : Nat} {s n : List Nat}
    (h0 : 0 ∉ s) (h : LookupOk E flags s n) :
    (∀ l ∈ splitDot n, l.length ≤ 63) ∧ n.length ≤ 254 ∧
      (n.getLast? ≠ some 0x2E → n.length ≤ 253) := by
  obtain ⟨f, _, hp⟩ := lookupF_ok_iff.mp ((LookupOk_iff W h0).mp h)
  obtain ⟨src, ds, _, _, _, hn, hsp, hlen, hds⟩ := lookupP_ok W h0 hp
  refine ⟨?_, ?_, ?_⟩
  · intro l hl; rw [hsp] at hl; exact (hds l hl).2.1
  · unfold nameLimit at hlen; split at hlen <;> omega
  · intro hl
    unfold nameLimit at hlen
    split at hlen
    · rename_i hlast
      by_cases hne : joinDot ds = []
      · rw [hn, hne]; simp
      · exact absurd (by rw [hn]; exact getLast_joinDot_dot (fun d hd => (hds d hd).2.2.2) hne hlast) hl
    · exact hlen

/-- A name with a trailing dot and a non-ASCII label. -/
example : LookupOk Sample.E 0 [0xc3, 0x9f, 0x2e] [120, 110, 45, 45, 122, 99, 97, 46] := by
  decide +kernel

/-- The limit 254 is reached (NO_TR46, 63+63+63+61 letters and a final dot), and one byte
more is refused. -/
example :
    let l (k : Nat) := List.replicate k 0x61 ++ [0x2E]
    LookupOk Sample.E 64 (l 63 ++ l 63 ++ l 63 ++ l 61) (l 63 ++ l 63 ++ l 63 ++ l 61) ∧
    LookupErr Sample.E 64 (l 63 ++ l 63 ++ l 63 ++ l 62) .tooBigDomain := by
  decide +kernel

/-- C08.  The result is ASCII without NUL. -/
theorem C08_lookup_ascii {E : Env} {D : Data} (W : World E D) {flags : Nat} {s n : List Nat}
    (h0 : 0 ∉ s) (h : LookupOk E flags s n) : ∀ c ∈ n, 1 ≤ c ∧ c ≤ 127 := by
  obtain ⟨f, _, hp⟩ := lookupF_ok_iff.mp ((LookupOk_iff W h0).mp h)
  obtain ⟨src, ds, _, _, _, hn, _, _, hds⟩ := lookupP_ok W h0 hp
  intro c hc
  rw [hn] at hc
  rcases mem_joinDot hc with rfl | ⟨l, hl, hcl⟩
  · omega
  · obtain ⟨k1, _, k3, _⟩ := hds l hl
    have := k1 c hcl
    have : c ≠ 0 := by rintro rfl; exact k3 hcl
    omega

/-- C09.  Lookup has no undefined behaviour: whatever the bytes of the string and the flags,
it returns IDN2_OK with a string, or an error code. -/
theorem C09_lookup_safe {E : Env} {D : Data} (W : World E D) (flags : Nat) {s : List Nat}
    (h0 : 0 ∉ s) (out : Option Cell) :
    (idn2_lookup_u8 E (some s) out flags : Out _) ≠ .ub := by
  rw [lookup_u8_out W.tables W.uni W.data flags h0]
  have := lookupF_ne_ub W flags h0
  cases h : lookupF E D flags s with
  | ub => exact absurd h this
  | err e => simp [retOf]
  | ok n => simp [retOf]

/-- Without the terminating zero of its intermediate strings the model would notice: a
normaliser that drops the terminator is caught as undefined behaviour. -/
example : (idn2_lookup_u8 ⟨Sample.T, { Sample.U with nfc := fun a => some a.dropLast }⟩
    (some [0x61]) (some (.old 0)) 0 : Out _) = .ub := by decide +kernel

/-! ### Flags -/

theorem set_default_flags_bits {flags f : Nat} (h : set_default_flags flags = .ok f) (x : Nat)
    (hx : has IDN2_NONTRANSITIONAL x = false) : has f x = has flags x := by
  unfold set_default_flags at h
  have hor : has (flags ||| IDN2_NONTRANSITIONAL) x = has flags x := by
    unfold has at *
    rw [Nat.and_comm, Nat.and_or_distrib_left]
    rw [Nat.and_comm] at hx
    have : x &&& IDN2_NONTRANSITIONAL = 0 := by simpa using hx
    rw [this, Nat.or_zero, Nat.and_comm]
  split at h
  · cases h
  · split at h
    · cases h
    · split at h
      · cases h
      · split at h
        · injection h with h; rw [← h, hor]
        · injection h with h; rw [h]

theorem flag_bits (x : Nat) :
    has x IDN2_NFC_INPUT = x.testBit 0 ∧ has x IDN2_ALABEL_ROUNDTRIP = x.testBit 1 ∧
    has x IDN2_TRANSITIONAL = x.testBit 2 ∧ has x IDN2_NONTRANSITIONAL = x.testBit 3 ∧
    has x IDN2_USE_STD3_ASCII_RULES = x.testBit 5 ∧ has x IDN2_NO_TR46 = x.testBit 6 ∧
    has x IDN2_NO_ALABEL_ROUNDTRIP = x.testBit 7 :=
  ⟨has_pow x 0, has_pow x 1, has_pow x 2, has_pow x 3, has_pow x 5, has_pow x 6, has_pow x 7⟩

theorem set_default_flags_eq (flags : Nat) : set_default_flags flags =
    if Conflict flags then .error .invalidFlags
    else if flags.testBit 6 = false ∧ flags.testBit 2 = false then
      .ok (flags ||| IDN2_NONTRANSITIONAL)
    else .ok flags := by
  obtain ⟨_, h1, h2, h3, _, h6, h7⟩ := flag_bits flags
  unfold set_default_flags
  rw [has_or, has_or, h1, h2, h3, h6, h7]
  by_cases hc : Conflict flags
  · rw [if_pos hc]
    unfold Conflict at hc
    revert hc
    cases flags.testBit 2 <;> cases flags.testBit 3 <;> cases flags.testBit 6 <;>
      cases flags.testBit 1 <;> cases flags.testBit 7 <;> simp
  · rw [if_neg hc]
    unfold Conflict at hc
    revert hc
    cases flags.testBit 2 <;> cases flags.testBit 3 <;> cases flags.testBit 6 <;>
      cases flags.testBit 1 <;> cases flags.testBit 7 <;> simp

/-- C13.  Lookup returns IDN2_INVALID_FLAGS exactly for conflicting flags. -/
theorem C13_invalid_flags {E : Env} {D : Data} (W : World E D) (flags : Nat) {s : List Nat}
    (h0 : 0 ∉ s) : LookupErr E flags s .invalidFlags ↔ Conflict flags := by
  rw [LookupErr_iff W h0]
  unfold lookupF
  rw [set_default_flags_eq]
  by_cases hc : Conflict flags
  · rw [if_pos hc]; simp [hc]
  · rw [if_neg hc]
    have key : ∀ f, lookupP E D f s ≠ .err .invalidFlags := by
      intro f h
      have := lookupP_errs W.tables W.uni W.data f h0 _ h
      simp [convErr, punyErr, testErr] at this
    constructor
    · intro h
      split at h
      · rename_i e he; split at he <;> cases he
      · exact absurd h (key _)
    · intro h; exact absurd h hc

example : Conflict 12 ∧ Conflict 68 ∧ Conflict 72 ∧ Conflict 130 ∧ ¬ Conflict 1 ∧ ¬ Conflict 0x6B3B
    ∧ LookupErr Sample.E 12 [0x61] .invalidFlags ∧ LookupErr Sample.E 130 [0xFF] .invalidFlags := by
  decide +kernel

theorem labelP_flags {E : Env} {f g : Nat} {src : List Nat}
    (h0 : f.testBit 0 = g.testBit 0) (h2 : f.testBit 2 = g.testBit 2)
    (h3 : f.testBit 3 = g.testBit 3) (h5 : f.testBit 5 = g.testBit 5)
    (h7 : f.testBit 7 = g.testBit 7) : labelP E src f = labelP E src g := by
  obtain ⟨f0, f1, f2, f3, f5, f6, f7⟩ := flag_bits f
  obtain ⟨g0, g1, g2, g3, g5, g6, g7⟩ := flag_bits g
  have hm : labelMask f = labelMask g := by
    unfold labelMask; rw [f3, f5, g3, g5, h3, h5]
  have ht : ∀ p, labelTestIf E f p = labelTestIf E g p := by
    intro p; unfold labelTestIf; rw [f2, g2, h2, hm]
  have hfin : ∀ rt p, labelFinish rt p f = labelFinish rt p g := by
    intro rt p; unfold labelFinish; rw [f7, g7, h7]
  have hc : ∀ s rt, labelConvertP E s rt f = labelConvertP E s rt g := by
    intro s rt; unfold labelConvertP; rw [f0, g0, h0]
    simp only [ht, hfin]
  have ha : isAce f src = isAce g src := by unfold isAce; rw [f7, g7, h7]
  unfold labelP
  rw [ha]
  simp only [hc]

theorem loopL_flags {E : Env} {f g : Nat} {ls : List (List Nat)} {name : List Nat}
    (h : ∀ src, labelP E src f = labelP E src g) : loopL E f ls name = loopL E g ls name := by
  induction ls generalizing name with
  | nil => rfl
  | cons l ls ih =>
    by_cases hls : ls = []
    · subst hls; simp only [loopL, h]
    · rw [loopL_cons hls, loopL_cons hls, h]
      simp only [ih]

theorem tr46P_flags {E : Env} {D : Data} {f g : Nat} {s : List Nat}
    (h2 : f.testBit 2 = g.testBit 2) (h5 : f.testBit 5 = g.testBit 5) :
    tr46P E D f s = tr46P E D g s := by
  obtain ⟨f0, f1, f2, f3, f5, f6, f7⟩ := flag_bits f
  obtain ⟨g0, g1, g2, g3, g5, g6, g7⟩ := flag_bits g
  have ha : ∀ m, addStd3 f m = addStd3 g m := by
    intro m; unfold addStd3; rw [f5, g5, h5]
  have hm : tr46Mask f = tr46Mask g := by
    unfold tr46Mask; rw [f2, g2, h2, ha]
  have hl : ∀ l, tr46LabelP E f l = tr46LabelP E g l := by
    intro l; unfold tr46LabelP; rw [hm]; simp only [ha]
  have hls : ∀ ls err, tr46LabelsP E f ls err = tr46LabelsP E g ls err := by
    intro ls
    induction ls with
    | nil => intro err; rfl
    | cons l ls ih => intro err; simp only [tr46LabelsP, hl, ih]
  have hmt : ∀ u, mapText D f u = mapText D g u := by
    intro u; unfold mapText; rw [f2, g2, f5, g5, h2, h5]
  unfold tr46P
  simp only [hmt, hls]

theorem lookupF_flags {E : Env} {D : Data} {f g : Nat} {s : List Nat} (hf : ¬ Conflict f)
    (hg : ¬ Conflict g) (h0 : f.testBit 0 = g.testBit 0) (h2 : f.testBit 2 = g.testBit 2)
    (h5 : f.testBit 5 = g.testBit 5) (h6 : f.testBit 6 = g.testBit 6)
    (h7 : f.testBit 7 = g.testBit 7) : lookupF E D f s = lookupF E D g s := by
  have key : ∀ f' g', (∀ k, k ≠ 3 → f'.testBit k = f.testBit k) →
      (∀ k, k ≠ 3 → g'.testBit k = g.testBit k) → f'.testBit 3 = g'.testBit 3 →
      lookupP E D f' s = lookupP E D g' s := by
    intro f' g' hf' hg' h3
    have b : ∀ k, k = 0 ∨ k = 2 ∨ k = 3 ∨ k = 5 ∨ k = 6 ∨ k = 7 → f'.testBit k = g'.testBit k := by
      intro k hk
      by_cases k3 : k = 3
      · rw [k3]; exact h3
      · rw [hf' k k3, hg' k k3]
        rcases hk with rfl | rfl | rfl | rfl | rfl | rfl <;> first | assumption | exact absurd rfl k3
    unfold lookupP
    rw [(flag_bits f').2.2.2.2.2.1, (flag_bits g').2.2.2.2.2.1, b 6 (by simp),
      tr46P_flags (b 2 (by simp)) (b 5 (by simp))]
    simp only [loopL_flags (fun src => labelP_flags (src := src) (E := E) (b 0 (by simp))
      (b 2 (by simp)) (b 3 (by simp)) (b 5 (by simp)) (b 7 (by simp)))]
  have hor : ∀ x k, k ≠ 3 → (x ||| IDN2_NONTRANSITIONAL).testBit k = x.testBit k := by
    intro x k hk
    rw [Nat.testBit_or, show IDN2_NONTRANSITIONAL = 2 ^ 3 from rfl, Nat.testBit_two_pow]
    simp [Ne.symm hk]
  have hor3 : ∀ x, (x ||| IDN2_NONTRANSITIONAL).testBit 3 = true := by
    intro x
    rw [Nat.testBit_or, show IDN2_NONTRANSITIONAL = 2 ^ 3 from rfl, Nat.testBit_two_pow]
    simp
  unfold lookupF
  rw [set_default_flags_eq, set_default_flags_eq, if_neg hf, if_neg hg, ← h6, ← h2]
  by_cases hd : f.testBit 6 = false ∧ f.testBit 2 = false
  · rw [if_pos hd, if_pos hd]
    exact key _ _ (hor f) (hor g) (by rw [hor3, hor3])
  · rw [if_neg hd, if_neg hd]
    refine key _ _ (fun _ _ => rfl) (fun _ _ => rfl) ?_
    have e1 : f.testBit 3 = false := by
      unfold Conflict at hf
      cases h : f.testBit 3 with
      | false => rfl
      | true => exfalso; simp [h] at hf; simp at hd; cases h6' : f.testBit 6 <;> simp_all
    have e2 : g.testBit 3 = false := by
      unfold Conflict at hg
      rw [← h2, ← h6] at hg
      cases h : g.testBit 3 with
      | false => rfl
      | true => exfalso; simp [h] at hg; simp at hd; cases h6' : f.testBit 6 <;> simp_all
    rw [e1, e2]

/-- C14.  Only NFC_INPUT, TRANSITIONAL, USE_STD3_ASCII_RULES, NO_TR46 and
NO_ALABEL_ROUNDTRIP (bits 0, 2, 5, 6, 7) matter: non-conflicting flag words that agree on
them give the same return code and the same output.  So NONTRANSITIONAL is the default, and
ALABEL_ROUNDTRIP, ALLOW_UNASSIGNED and undefined bits have no effect. -/
theorem C14_flags {E : Env} {D : Data} (W : World E D) {f g : Nat} {s : List Nat} (h0 : 0 ∉ s)
    (hf : ¬ Conflict f) (hg : ¬ Conflict g)
    (hb : ∀ k, k = 0 ∨ k = 2 ∨ k = 5 ∨ k = 6 ∨ k = 7 → f.testBit k = g.testBit k)
    (out : Option Cell) :
    (idn2_lookup_u8 E (some s) out f : Out _) = idn2_lookup_u8 E (some s) out g := by
  rw [lookup_u8_out W.tables W.uni W.data f h0, lookup_u8_out W.tables W.uni W.data g h0,
    lookupF_flags hf hg (hb 0 (by simp)) (hb 2 (by simp)) (hb 5 (by simp)) (hb 6 (by simp))
      (hb 7 (by simp))]

/-- C14, the default: flags 0 and IDN2_NONTRANSITIONAL. -/
theorem C14_default {E : Env} {D : Data} (W : World E D) {s : List Nat} (h0 : 0 ∉ s)
    (out : Option Cell) : (idn2_lookup_u8 E (some s) out 0 : Out _) =
      idn2_lookup_u8 E (some s) out IDN2_NONTRANSITIONAL :=
  C14_flags W h0 (by decide) (by decide) (by rintro k (rfl | rfl | rfl | rfl | rfl) <;> decide) out

/-- The flags that matter do matter: sharp s is kept by default and becomes "ss" in
transitional processing; ALLOW_UNASSIGNED (16) and 2^20 change nothing. -/
example : LookupOk Sample.E 0 [0xc3, 0x9f] [120, 110, 45, 45, 122, 99, 97] ∧
    LookupOk Sample.E (8 + 16 + 2 + 2 ^ 20) [0xc3, 0x9f] [120, 110, 45, 45, 122, 99, 97] ∧
    LookupOk Sample.E 4 [0xc3, 0x9f] [0x73, 0x73] := by decide +kernel

/-! ### Label-wise behaviour without TR46 -/

theorem lookupP_noTr46 {E : Env} {D : Data} {flags : Nat} {s : List Nat}
    (h : has flags IDN2_NO_TR46 = true) : lookupP E D flags s = loopL E flags (splitDot s) [] := by
  unfold lookupP; rw [if_pos h, Res.bind_ok]

/-- A single label looked up on its own. -/
theorem lookup_label {E : Env} {D : Data} (W : World E D) {flags : Nat} {l d : List Nat} (h0 : 0 ∉ l)
    (hd : 0x2E ∉ l) (h : has flags IDN2_NO_TR46 = true) :
    lookupP E D flags l = .ok d ↔ labelP E l flags = .ok d := by
  rw [lookupP_noTr46 h, splitDot_nodot hd, loopL_ok_iff (by simp)]
  constructor
  · rintro ⟨ds, h1, h2, _⟩
    obtain ⟨x, ds', rfl, h4, h5⟩ := mapLabels_ok_cons.mp h1
    have : ds' = [] := by simpa [mapLabels] using h5.symm
    subst this
    rw [h2]; exact h4
  · intro h
    refine ⟨[d], mapLabels_ok_cons.mpr ⟨d, [], rfl, h, rfl⟩, rfl, ?_⟩
    have := (labelP_dst W h0 h).2.1
    unfold nameLimit; split <;> omega

theorem each_imp_mem {α β : Type} {R S : α → β → Prop} {as : List α} {bs : List β}
    (h : Each R as bs) (hi : ∀ a ∈ as, ∀ b, R a b → S a b) : Each S as bs := by
  induction h with
  | nil => exact .nil
  | cons h1 h2 ih =>
    exact .cons (hi _ List.mem_cons_self _ h1) (ih (fun a ha b hr => hi a (List.mem_cons_of_mem _ ha) b hr))

theorem set_noTr46 {flags f : Nat} (h6 : flags.testBit 6 = true) (h : set_default_flags flags = .ok f) :
    f = flags ∧ has f IDN2_NO_TR46 = true := by
  have : f = flags := by
    rw [set_default_flags_eq] at h
    split at h
    · cases h
    · split at h
      · rename_i h'; rw [h6] at h'; cases h'.1
      · injection h with h; exact h.symm
  subst this
  exact ⟨rfl, by rw [(flag_bits f).2.2.2.2.2.1, h6]⟩

/-- C10.  With IDN2_NO_TR46 (bit 6) lookup of a name is lookup of each of its labels, in
order, plus the limit on the whole: 253 bytes, or 254 if the last label is empty. -/
theorem C10_labelwise {E : Env} {D : Data} (W : World E D) {flags : Nat} {s n : List Nat} (h0 : 0 ∉ s)
    (h6 : flags.testBit 6 = true) :
    LookupOk E flags s n ↔ ∃ ds,
      Each (fun l d => LookupOk E flags l d) (splitDot s) ds ∧ n = joinDot ds ∧
      n.length ≤ if ds.getLast? = some [] then 254 else 253 := by
  rw [LookupOk_iff W h0, lookupF_ok_iff]
  constructor
  · rintro ⟨f, hf, h⟩
    obtain ⟨rfl, hn⟩ := set_noTr46 h6 hf
    rw [lookupP_noTr46 hn, loopL_ok_iff (splitDot_ne_nil s)] at h
    obtain ⟨ds, h1, h2, h3⟩ := h
    refine ⟨ds, each_imp_mem (mapLabels_forall.mp h1) ?_, h2, h3⟩
    intro l hl d hd
    have hl0 : 0 ∉ l := fun hc => h0 (mem_of_mem_splitDot hl hc)
    rw [LookupOk_iff W hl0, lookupF_ok_iff]
    exact ⟨f, hf, (lookup_label W hl0 (mem_splitDot_nodot hl) hn).mpr hd⟩
  · rintro ⟨ds, h1, h2, h3⟩
    have hex : ∃ f, set_default_flags flags = .ok f := by
      cases hs : splitDot s with
      | nil => exact absurd hs (splitDot_ne_nil s)
      | cons l ls =>
        rw [hs] at h1
        cases h1 with
        | cons ha _ =>
          have hl : l ∈ splitDot s := by rw [hs]; exact List.mem_cons_self
          have hl0 : 0 ∉ l := fun hc => h0 (mem_of_mem_splitDot hl hc)
          obtain ⟨f, hf, _⟩ := lookupF_ok_iff.mp ((LookupOk_iff W hl0).mp ha)
          exact ⟨f, hf⟩
    obtain ⟨f, hf⟩ := hex
    obtain ⟨rfl, hn⟩ := set_noTr46 h6 hf
    refine ⟨f, hf, ?_⟩
    rw [lookupP_noTr46 hn, loopL_ok_iff (splitDot_ne_nil s)]
    refine ⟨ds, mapLabels_forall.mpr (each_imp_mem h1 ?_), h2, h3⟩
    intro l hl d hd
    have hl0 : 0 ∉ l := fun hc => h0 (mem_of_mem_splitDot hl hc)
    obtain ⟨f', hf', hp⟩ := lookupF_ok_iff.mp ((LookupOk_iff W hl0).mp hd)
    rw [hf] at hf'
    injection hf' with hf'
    subst hf'
    exact (lookup_label W hl0 (mem_splitDot_nodot hl) hn).mp hp

/-- C10, failure: the error is IDN2_TOO_BIG_DOMAIN or the error one of the labels gives on its
own. -/
theorem C10_labelwise_error {E : Env} {D : Data} (W : World E D) {flags : Nat} {s : List Nat} {e : Rc}
    (h0 : 0 ∉ s) (h6 : flags.testBit 6 = true) (h : LookupErr E flags s e) :
    e = .tooBigDomain ∨ ∃ l ∈ splitDot s, LookupErr E flags l e := by
  rw [LookupErr_iff W h0] at h
  cases hf : set_default_flags flags with
  | error e' =>
    right
    obtain ⟨l, ls, hs⟩ := List.exists_cons_of_ne_nil (splitDot_ne_nil s)
    have hl : l ∈ splitDot s := by rw [hs]; exact List.mem_cons_self
    have hl0 : 0 ∉ l := fun hc => h0 (mem_of_mem_splitDot hl hc)
    refine ⟨l, hl, (LookupErr_iff W hl0).mpr ?_⟩
    unfold lookupF at h ⊢
    rw [hf] at h ⊢
    exact h
  | ok f =>
    obtain ⟨rfl, hn⟩ := set_noTr46 h6 hf
    unfold lookupF at h
    rw [hf] at h
    simp only at h
    rw [lookupP_noTr46 hn] at h
    rcases loopL_errs h with h | ⟨l, hl, h⟩
    · exact Or.inl h
    · right
      have hl0 : 0 ∉ l := fun hc => h0 (mem_of_mem_splitDot hl hc)
      refine ⟨l, hl, (LookupErr_iff W hl0).mpr ?_⟩
      unfold lookupF
      rw [hf]
      simp only
      rw [lookupP_noTr46 hn, splitDot_nodot (mem_splitDot_nodot hl)]
      simp only [loopL]
      rw [h]; rfl

/-- Two labels, the second with a non-ASCII letter. -/
example : LookupOk Sample.E 64 [0x61, 0x2e, 0xc3, 0xa0] [0x61, 0x2e, 120, 110, 45, 45, 48, 99, 97] ∧
    LookupErr Sample.E 64 [0x61, 0x2e, 0xff, 0x2e, 0x62] .encodingError := by decide +kernel

/-- C11.  With IDN2_NO_TR46 an ASCII name none of whose labels starts with "xn--" is returned
unchanged if it is within the limits, and otherwise refused for its length. -/
theorem C11_ascii_passthrough {E : Env} {D : Data} (W : World E D) {flags : Nat} {s : List Nat}
    (h0 : 0 ∉ s) (h6 : flags.testBit 6 = true) (hc : ¬ Conflict flags)
    (ha : ∀ c ∈ s, c < 0x80) (hx : ∀ l ∈ splitDot s, ¬ [0x78, 0x6E, 0x2D, 0x2D] <+: l) :
    if (∀ l ∈ splitDot s, l.length ≤ 63) ∧
        s.length ≤ (if (splitDot s).getLast? = some [] then 254 else 253)
    then LookupOk E flags s s
    else LookupErr E flags s .tooBigLabel ∨ LookupErr E flags s .tooBigDomain := by
  have hf : set_default_flags flags = .ok flags := by
    rw [set_default_flags_eq, if_neg hc, if_neg (by rw [h6]; simp)]
  obtain ⟨_, hn⟩ := set_noTr46 h6 hf
  have hlab : ∀ l ∈ splitDot s, labelP E l flags = if l.length > 63 then .err .tooBigLabel else .ok l := by
    intro l hl
    unfold labelP
    rw [if_pos ((ascii_p_iff l).mpr (fun c hcl => ha c (mem_of_mem_splitDot hl hcl)))]
    have : isAce flags l = false := by
      cases h : isAce flags l with
      | false => rfl
      | true =>
        obtain ⟨_, t, rfl⟩ := isAce_iff.mp h
        exact absurd ⟨t, rfl⟩ (hx _ hl)
    rw [this]; rfl
  rw [LookupOk_iff W h0, LookupErr_iff W h0, LookupErr_iff W h0]
  unfold lookupF
  rw [hf]
  simp only
  rw [lookupP_noTr46 hn]
  by_cases hlim : (∀ l ∈ splitDot s, l.length ≤ 63) ∧
        s.length ≤ (if (splitDot s).getLast? = some [] then 254 else 253)
  · rw [if_pos hlim]
    refine (loopL_ok_iff (splitDot_ne_nil s)).mpr ⟨splitDot s, ?_, ?_, hlim.2⟩
    · rw [mapLabels_forall]
      have : ∀ ls : List (List Nat), (∀ l ∈ ls, labelP E l flags = .ok l) →
          Each (fun l d => labelP E l flags = .ok d) ls ls := by
        intro ls
        induction ls with
        | nil => intro _; exact .nil
        | cons l ls ih =>
          intro h
          exact .cons (h l List.mem_cons_self) (ih (fun x hx => h x (List.mem_cons_of_mem _ hx)))
      apply this
      intro l hl
      rw [hlab l hl, if_neg (by have := hlim.1 l hl; omega)]
    · rw [joinDot_splitDot]; rfl
  · rw [if_neg hlim]
    have hub := loopL_ne_ub W.tables W.uni flags
      (ls := splitDot s) (fun l hl hc => h0 (mem_of_mem_splitDot hl hc)) []
    cases h : loopL E flags (splitDot s) [] with
    | ub => exact absurd h hub
    | err e =>
      rcases loopL_errs h with rfl | ⟨l, hl, he⟩
      · exact Or.inr rfl
      · rw [hlab l hl] at he
        split at he
        · injection he with he; subst he; exact Or.inl rfl
        · cases he
    | ok n =>
      exfalso
      obtain ⟨ds, h1, h2, h3⟩ := (loopL_ok_iff (splitDot_ne_nil s)).mp h
      have heq : ∀ ls ds : List (List Nat), (∀ l ∈ ls, l ∈ splitDot s) →
          Each (fun l d => labelP E l flags = .ok d) ls ds → ds = ls ∧ ∀ l ∈ ls, l.length ≤ 63 := by
        intro ls ds hin hfa
        induction hfa with
        | nil => exact ⟨rfl, by simp⟩
        | cons ha hb ih =>
          obtain ⟨i1, i2⟩ := ih (fun l hl => hin l (List.mem_cons_of_mem _ hl))
          rw [hlab _ (hin _ List.mem_cons_self)] at ha
          split at ha
          · cases ha
          · injection ha with ha
            refine ⟨by rw [i1, ha], ?_⟩
            intro l hl
            rcases List.mem_cons.mp hl with rfl | hl
            · omega
            · exact i2 l hl
      obtain ⟨e1, e2⟩ := heq _ ds (fun _ h => h) (mapLabels_forall.mp h1)
      subst e1
      rw [joinDot_splitDot, List.nil_append] at h2
      subst h2
      exact hlim ⟨e2, h3⟩

/-- Upper case, spaces and underscores pass through; so does "XN--" in upper case. -/
example : LookupOk Sample.E 64 [0x58, 0x4e, 0x2d, 0x2d, 0x20, 0x5f, 0x2e, 0x42]
    [0x58, 0x4e, 0x2d, 0x2d, 0x20, 0x5f, 0x2e, 0x42] ∧
    LookupErr Sample.E 64 (List.replicate 64 0x61) .tooBigLabel := by decide +kernel

end Idn2
