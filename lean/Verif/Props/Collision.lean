import Verif.Spec.Collision
import Verif.Props.Std3
import Verif.Props.PunyAscii
import Verif.Props.LookupNfc

/-
Two names are looked up alike exactly if they stand for the same labels.
-/

namespace Idn2

open Spec

variable {D : Data} {U : Uni}

theorem Spec.Denotes.unique {l v w : List Nat} (h : Denotes l v) (h' : Denotes l w) : v = w := by
  have key : ∀ t v, l = xn ++ t → Decodes t v → ¬ ((∃ c ∈ l, 0x80 ≤ c) ∨ ¬ xn <+: l) := by
    rintro t v rfl hd (⟨c, hc, hc'⟩ | hx)
    · have := xn_ascii hd c hc; omega
    · exact hx ⟨t, rfl⟩
  cases h with
  | alabel t _ h1 h2 =>
    cases h' with
    | alabel t' _ h3 h4 =>
      have := List.append_cancel_left (h1.symm.trans h3)
      subst this
      exact h2.unique h4
    | other h3 => exact absurd h3 (key t v h1 h2)
  | other h1 =>
    cases h' with
    | alabel t' _ h3 h4 => exact absurd h1 (key t' w h3 h4)
    | other => rfl

/-- The ASCII label `d` is the one for `v`. -/
def AceOf (v d : List Nat) : Prop :=
  ((∀ c ∈ v, c < 0x80) ∧ ¬ xn <+: v ∧ d = v) ∨
    (Decodes (Punycode.encode v) v ∧ d = xn ++ Punycode.encode v)

theorem AceOf.inj {v w d : List Nat} (h : AceOf v d) (h' : AceOf w d) : v = w := by
  rcases h with ⟨_, h1, rfl⟩ | ⟨h1, rfl⟩ <;> rcases h' with ⟨_, h3, h4⟩ | ⟨h3, h4⟩
  · exact h4
  · exact absurd ⟨_, h4.symm⟩ h1
  · exact absurd ⟨_, h4⟩ h3
  · have := List.append_cancel_left h4
    rw [this] at h1
    exact h1.unique h3

theorem AceOf.fn {v d d' : List Nat} (h : AceOf v d) (h' : AceOf v d') : d = d' := by
  have key : (∀ c ∈ v, c < 0x80) → ¬ Decodes (Punycode.encode v) v := by
    intro h1 h2
    obtain ⟨c, hc, hc'⟩ := h2.nonascii
    have := h1 c hc
    omega
  rcases h with ⟨h0, h1, rfl⟩ | ⟨h1, rfl⟩ <;> rcases h' with ⟨h2, h3, rfl⟩ | ⟨h3, rfl⟩
  · rfl
  · exact absurd h3 (key h0)
  · exact absurd h1 (key h2)
  · rfl

theorem each_ace {vs ws ds es : List (List Nat)} (h : Each AceOf vs ds) (h' : Each AceOf ws es) :
    ds = es ↔ vs = ws := by
  constructor
  · rintro rfl
    exact each_unique (fun _ _ _ x y => x.inj y) (each_swap h) (each_swap h')
  · rintro rfl
    exact each_unique (fun _ _ _ x y => x.fn y) h h'

theorem ace_nodot {v : List Nat} (h : Decodes (Punycode.encode v) v) :
    0x2E ∉ xn ++ Punycode.encode v := by
  intro hd
  rw [List.mem_append] at hd
  rcases hd with hd | hd
  · simp [xn] at hd
  · have := h.chars _ hd
    unfold isLDHU at this
    omega

theorem Spec.Decodes.of {v : List Nat} (hs : ∀ c ∈ v, isScalar c) (hl : ∀ c ∈ v, c < 0x80 → isLDHU c)
    (hn : ∃ c ∈ v, 0x80 ≤ c) (h59 : (Punycode.encode v).length ≤ 59) :
    Decodes (Punycode.encode v) v := by
  have := length_le_encode (scalar_lt hs)
  exact decodes_iff.mp (decode_encode (by omega) (by omega) hl (encodable_scalar hs) hn (by omega))

theorem labelTo_ace {f : Nat} (f7 : f.testBit 7 = false) {l d : List Nat} (hs : ∀ c ∈ l, isScalar c)
    (hd : 0x2E ∉ l) (h : LabelTo D U f l d) : ∃ v, Denotes l v ∧ AceOf v d ∧ 0x2E ∉ d := by
  cases h with
  | ascii h1 h2 h3 =>
    have hx : ¬ xn <+: l := fun h => h2 ⟨f7, h⟩
    exact ⟨l, .other (.inr hx), .inl ⟨h1, hx, rfl⟩, hd⟩
  | alabel t u h1 h2 h3 h4 h5 h6 h7 =>
    have hlen := congrArg List.length h6
    simp only [List.length_map] at hlen
    have hc := Decodes.of h4 (encode_chars_LDHU h3 h6 h7) h3.nonascii (by omega)
    exact ⟨u, .alabel t u h2 h3, .inr ⟨hc, rfl⟩, ace_nodot hc⟩
  | ulabel h1 h2 h3 h4 =>
    have hc := Decodes.of hs (h3 f7) h1 h4
    exact ⟨l, .other (.inl h1), .inr ⟨hc, rfl⟩, ace_nodot hc⟩

theorem encode_ascii {v : List Nat} (h : ∀ c ∈ v, c < 0x80) :
    Punycode.encode v = v ++ if v = [] then [] else [0x2D] := by
  have hb : Punycode.basics v = v := by
    unfold Punycode.basics
    exact List.filter_eq_self.mpr fun c hc => by simpa using h c hc
  have hi : Punycode.insertions v = [] := Punycode.insertionsFrom_nil fun x hx => .inl (h x hx)
  unfold Punycode.encode Punycode.headPart
  rw [hb, hi]
  simp [Punycode.codes]

theorem asciiLower_LDHU {c d : Nat} (h : asciiLower c = asciiLower d) (hc : isLDHU c) : isLDHU d := by
  unfold asciiLower at h
  unfold isLDHU at hc ⊢
  split at h <;> split at h <;> omega

theorem norm_ascii (hU : U.Laws) {l : List Nat} (h : ∀ c ∈ l, c < 0x80) : Norm D U l l := by
  by_cases hq : QuickYes U D (looked l)
  · exact .inl ⟨hq, rfl⟩
  · exact .inr ⟨hq, hU.nfc_ascii l h⟩

theorem norm_scalar (hU : U.Laws) {l v : List Nat} (hs : ∀ c ∈ l, isScalar c) (h : Norm D U l v) :
    ∀ c ∈ v, isScalar c := by
  rcases h with ⟨_, rfl⟩ | ⟨_, h⟩
  · exact hs
  · exact hU.nfc_scalar l v hs h

/-- If a decodable text is the encoding of `v` up to case, then `v` is not ASCII. -/
theorem alike_nonascii {t u v : List Nat} (h : Decodes t u)
    (hm : t.map asciiLower = (Punycode.encode v).map asciiLower) : ∃ c ∈ v, 0x80 ≤ c := by
  refine Classical.byContradiction fun hn => ?_
  have ha : ∀ c ∈ v, c < 0x80 := fun c hc => by
    have : ¬ 0x80 ≤ c := fun h => hn ⟨c, hc, h⟩
    omega
  rw [encode_ascii ha] at hm
  have hd := decodes_iff.mpr h
  split at hm
  · next hv =>
    subst hv
    have : t = [] := by
      cases t with
      | nil => rfl
      | cons _ _ => simp at hm
    subst this
    cases hd
  · rw [List.map_append, List.map_eq_append_iff] at hm
    obtain ⟨a, b, rfl, _, hb⟩ := hm
    cases b with
    | nil => cases hb
    | cons x b =>
      cases b with
      | cons _ _ => simp at hb
      | nil =>
        have hx : x = 0x2D := by
          have : asciiLower x = 0x2D := by simpa [asciiLower] using hb
          unfold asciiLower at this
          split at this <;> omega
        subst hx
        rw [C72_trailing_hyphen] at hd
        cases hd

theorem labelToNfc_ace (hU : U.Laws) {f : Nat} (f7 : f.testBit 7 = false) {l d : List Nat}
    (hs : ∀ c ∈ l, isScalar c) (hd : 0x2E ∉ l) (h : LabelToNfc D U f l d) :
    ∃ w v, Denotes l w ∧ Norm D U w v ∧ AceOf v d ∧ 0x2E ∉ d := by
  cases h with
  | ascii h1 h2 h3 =>
    have hx : ¬ xn <+: l := fun h => h2 ⟨f7, h⟩
    exact ⟨l, l, .other (.inr hx), norm_ascii hU h1, .inl ⟨h1, hx, rfl⟩, hd⟩
  | alabel t u v h1 h2 h3 h4 h5 h6 h7 h8 =>
    have hlen := congrArg List.length h7
    simp only [List.length_map] at hlen
    have hc : Decodes (Punycode.encode v) v := by
      refine .of (norm_scalar hU h4 h5) ?_ (alike_nonascii h3 h7) (by omega)
      intro c hc hlt
      have hm : c ∈ Punycode.encode v := by
        rw [encode_eq_head, List.mem_append, headOf, List.mem_append]
        refine .inl (.inl ?_)
        unfold Punycode.basics
        simp [hc, hlt]
      have : asciiLower c ∈ t.map asciiLower := by
        rw [h7]; exact List.mem_map_of_mem hm
      obtain ⟨c', hc', he⟩ := List.mem_map.mp this
      exact asciiLower_LDHU he (h3.chars c' hc')
    exact ⟨u, v, .alabel t u h2 h3, h5, .inr ⟨hc, rfl⟩, ace_nodot hc⟩
  | ulabel v h1 h2 h3 h4 h5 =>
    obtain ⟨h6, h7⟩ := h4 f7
    have hc := Decodes.of (norm_scalar hU hs h2) h7 h6 h5
    exact ⟨l, v, .other (.inl h1), h2, .inr ⟨hc, rfl⟩, ace_nodot hc⟩

/-! ### Names -/

theorem each_choose {α β γ : Type} {R : α → γ → Prop} {P : α → β → Prop} {Q : β → γ → Prop}
    {as : List α} {cs : List γ} (h : Each R as cs)
    (hR : ∀ a ∈ as, ∀ c, R a c → ∃ b, P a b ∧ Q b c) : ∃ bs, Each P as bs ∧ Each Q bs cs := by
  induction h with
  | nil => exact ⟨[], .nil, .nil⟩
  | cons h _ ih =>
    obtain ⟨b, hp, hq⟩ := hR _ List.mem_cons_self _ h
    obtain ⟨bs, h1, h2⟩ := ih fun a ha => hR a (List.mem_cons_of_mem _ ha)
    exact ⟨b :: bs, .cons hp h1, .cons hq h2⟩

/-- A name that is looked up stands for some labels, and the result consists of the ASCII labels
for them. -/
theorem lookup_stands {E : Env} (W : World E D) {f : Nat} (f7 : f.testBit 7 = false)
    {u n : List Nat} (hs : ∀ c ∈ u, isScalar c) (h0 : 0 ∉ u) (h : LookupOk E f (utf8s u) n) :
    ∃ vs, StandsFor D E.U f u vs ∧ Each AceOf vs (splitDot n) := by
  have fin : ∀ {x vs ds}, Each (fun v d => AceOf v d ∧ 0x2E ∉ d) vs ds → ∀ {R : List Nat → List Nat → Prop} {ws},
      Each R (splitDot x) ws → ∀ {S : List Nat → List Nat → Prop}, Each S ws vs →
      Each AceOf vs (splitDot (joinDot ds)) := by
    intro x vs ds h R ws hR S hS
    rw [splitDot_joinDot]
    · exact h.imp fun h => h.1
    · rintro rfl
      cases h
      cases hS
      cases hx : splitDot x with
      | nil => exact splitDot_ne_nil x hx
      | cons _ _ => rw [hx] at hR; cases hR
    · intro d hd
      obtain ⟨v, _, h⟩ := each_mem_right h hd
      exact h.2
  by_cases hb : f.testBit 0 = true ∧ f.testBit 6 = true
  · obtain ⟨_, v, hv, he, ds, h1, rfl, _⟩ :=
      (C48_lookup_nfc W (zero_mem_utf8s h0) hb.1 hb.2).mp h
    rw [← utf8s_inj hs hv he] at h1
    obtain ⟨ws, h2, h3⟩ := each_choose (P := Denotes)
      (Q := fun w d => ∃ v, Norm D E.U w v ∧ AceOf v d ∧ 0x2E ∉ d) h1 fun l hl d h => by
        obtain ⟨w, v, h1, h2⟩ := labelToNfc_ace W.uni f7
          (fun c hc => hs c (mem_of_mem_splitDot hl hc)) (mem_splitDot_nodot hl) h
        exact ⟨w, h1, v, h2⟩
    obtain ⟨vs, h4, h5⟩ := each_choose h3 fun w _ d h => h
    refine ⟨vs, ⟨u, ws, ?_, h2, ?_⟩, fin h5 h2 h4⟩
    · unfold Processed; rw [if_pos hb.2]
    · rw [if_pos hb]; exact h4
  · obtain ⟨_, v, hv, he, x, ds, h1, h2, rfl, _⟩ :=
      (C48_lookup_spec W (zero_mem_utf8s h0) hb).mp h
    rw [← utf8s_inj hs hv he] at h1
    have hx : ∀ c ∈ x, isScalar c := by
      unfold Processed at h1
      split at h1
      · rw [h1]; exact hs
      · have hm := mapText_scalar W.data f hs
        unfold mapText at hm
        rw [(flag_bits f).2.2.1, (flag_bits f).2.2.2.2.1] at hm
        exact W.uni.nfc_scalar _ x hm h1.2.2.1
    obtain ⟨vs, h3, h4⟩ := each_choose (P := Denotes)
      (Q := fun v d => AceOf v d ∧ 0x2E ∉ d) h2 fun l hl d h =>
        labelTo_ace f7 (fun c hc => hx c (mem_of_mem_splitDot hl hc)) (mem_splitDot_nodot hl) h
    refine ⟨vs, ⟨x, vs, h1, h3, ?_⟩, fin h4 h3 (each_refl (R := Eq) fun _ _ => rfl)⟩
    rw [if_neg hb]

theorem Spec.StandsFor.unique {f : Nat} {u : List Nat} {vs ws : List (List Nat)}
    (h : StandsFor D U f u vs) (h' : StandsFor D U f u ws) : vs = ws := by
  obtain ⟨x, xs, h1, h2, h3⟩ := h
  obtain ⟨y, ys, h4, h5, h6⟩ := h'
  have hxy : x = y := by
    unfold Processed at h1 h4
    split at h1
    · rw [if_pos ‹_›] at h4
      rw [h1, h4]
    · rw [if_neg ‹_›] at h4
      have := h1.2.2.1.symm.trans h4.2.2.1
      injection this
  subst hxy
  have := each_unique (R := Denotes) (fun _ _ _ x y => x.unique y) h2 h5
  subst this
  split at h3
  · rw [if_pos ‹_›] at h6
    exact each_unique (R := Norm D U) (fun _ _ _ x y => x.unique y) h3 h6
  · rw [if_neg ‹_›] at h6
    rw [h3, h6]

/-- C79: a name that is looked up, with A-labels checked, stands for exactly one list of labels. -/
theorem C79_stands {E : Env} (W : World E D) {f : Nat} (f7 : f.testBit 7 = false)
    {u n : List Nat} (hs : ∀ c ∈ u, isScalar c) (h0 : 0 ∉ u) (h : LookupOk E f (utf8s u) n) :
    ∃ vs, StandsFor D E.U f u vs ∧ ∀ ws, StandsFor D E.U f u ws → ws = vs := by
  obtain ⟨vs, h1, _⟩ := lookup_stands W f7 hs h0 h
  exact ⟨vs, h1, fun ws h => h.unique h1⟩

/-- C79: no collisions.  Two names have the same result exactly if they stand for the same
labels. -/
theorem C79_no_collision {E : Env} (W : World E D) {f : Nat} (f7 : f.testBit 7 = false)
    {a b m n : List Nat} (ha : ∀ c ∈ a, isScalar c) (ha0 : 0 ∉ a) (hb : ∀ c ∈ b, isScalar c)
    (hb0 : 0 ∉ b) (h : LookupOk E f (utf8s a) m) (h' : LookupOk E f (utf8s b) n)
    {vs ws : List (List Nat)} (hv : StandsFor D E.U f a vs) (hw : StandsFor D E.U f b ws) :
    m = n ↔ vs = ws := by
  obtain ⟨vs', h1, h2⟩ := lookup_stands W f7 ha ha0 h
  obtain ⟨ws', h3, h4⟩ := lookup_stands W f7 hb hb0 h'
  rw [hv.unique h1, hw.unique h3, ← each_ace h2 h4]
  constructor
  · rintro rfl; rfl
  · intro he
    rw [← joinDot_splitDot m, he, joinDot_splitDot]

theorem each_pair {α β : Type} {R S : α → β → Prop} {as : List α} {bs cs : List β}
    (hRS : ∀ a ∈ as, ∀ b c, R a b → S a c → b = c) (h : Each R as bs) (h' : Each S as cs) :
    bs = cs := by
  induction h generalizing cs with
  | nil => cases h'; rfl
  | cons h _ ih =>
    cases h' with
    | cons g g' =>
      rw [hRS _ List.mem_cons_self _ _ h g, ih (fun a ha => hRS a (List.mem_cons_of_mem _ ha)) g']

/-- C79: after UTS #46 processing the result is shown as what the name stands for. -/
theorem C79_shown {E : Env} (W : World E D) {f : Nat} (f6 : f.testBit 6 = false)
    (f7 : f.testBit 7 = false) {u n v : List Nat} (hs : ∀ c ∈ u, isScalar c) (h0 : 0 ∉ u)
    (h : LookupOk E f (utf8s u) n) (hv : ToUniOk n v) {vs : List (List Nat)}
    (hu : StandsFor D E.U f u vs) : v = joinDot vs := by
  obtain ⟨vs', h1, h2⟩ := lookup_stands W f7 hs h0 h
  rw [hu.unique h1]
  obtain ⟨xs, h3, rfl, _⟩ := (C49_to_unicode_spec n v).mp hv
  have hch := result_chars W (zero_mem_utf8s h0) f6 f7 h
  refine congrArg joinDot (each_pair ?_ h3 (each_swap h2))
  intro d hd x y hx hy
  rcases hy with ⟨h4, h5, rfl⟩ | ⟨h4, rfl⟩
  · cases hx with
    | alabel h6 h7 =>
      exfalso
      apply h5
      have : ∀ c ∈ d, asciiLower c = c := by
        intro c hc
        obtain ⟨h8, h9⟩ := hch c (mem_of_mem_splitDot hd hc)
        have := (ascii_valid W.data h8 h9).2.2.1
        unfold asciiLower
        rw [if_neg this]
      unfold XnPrefix at h6
      rw [List.map_congr_left (g := id) fun c hc => this c (List.mem_of_mem_take hc),
        List.map_id] at h6
      exact ⟨d.drop 4, by unfold xn; rw [← h6, List.take_append_drop]⟩
    | plain h6 h7 h8 =>
      have hd' : ∀ c ∈ d, isScalar c := fun c hc => by
        have := h4 c hc
        unfold isScalar; omega
      refine utf8s_inj h7 hd' ?_
      rw [← h8, ascii_utf8s h4]
  · cases hx with
    | alabel h6 h7 => exact h7.unique h4
    | plain h6 => exact absurd rfl h6

/-- "fà.b", the A-label form, and "FÀ。B" with a combining accent have the same result, so they stand
for the same labels; "fa.b" does not. -/
example : ∃ vs, (∀ u ∈ [[0x66, 0xE0, 0x2E, 0x62],
      [0x78, 0x6E, 0x2D, 0x2D, 0x66, 0x2D, 0x73, 0x66, 0x61, 0x2E, 0x62],
      [0x46, 0x41, 0x300, 0x3002, 0x42]], StandsFor Sample.D Sample.U 0 u vs) ∧
    ¬ StandsFor Sample.D Sample.U 0 [0x66, 0x61, 0x2E, 0x62] vs := by
  have key : ∀ {u n : List Nat}, (∀ c ∈ u, isScalar c) → 0 ∉ u → LookupOk Sample.E 0 (utf8s u) n →
      ∃ vs, StandsFor Sample.D Sample.U 0 u vs := fun hs h0 h => by
    obtain ⟨vs, h, _⟩ := C79_stands World.sample (by decide) hs h0 h
    exact ⟨vs, h⟩
  have h1 : LookupOk Sample.E 0 (utf8s [0x66, 0xE0, 0x2E, 0x62])
      [0x78, 0x6E, 0x2D, 0x2D, 0x66, 0x2D, 0x73, 0x66, 0x61, 0x2E, 0x62] := by decide +kernel
  have h2 : LookupOk Sample.E 0
      (utf8s [0x78, 0x6E, 0x2D, 0x2D, 0x66, 0x2D, 0x73, 0x66, 0x61, 0x2E, 0x62])
      [0x78, 0x6E, 0x2D, 0x2D, 0x66, 0x2D, 0x73, 0x66, 0x61, 0x2E, 0x62] := by decide +kernel
  have h3 : LookupOk Sample.E 0 (utf8s [0x46, 0x41, 0x300, 0x3002, 0x42])
      [0x78, 0x6E, 0x2D, 0x2D, 0x66, 0x2D, 0x73, 0x66, 0x61, 0x2E, 0x62] := by decide +kernel
  have h4 : LookupOk Sample.E 0 (utf8s [0x66, 0x61, 0x2E, 0x62]) [0x66, 0x61, 0x2E, 0x62] := by
    decide +kernel
  obtain ⟨v1, g1⟩ := key (by decide) (by decide) h1
  obtain ⟨v2, g2⟩ := key (by decide) (by decide) h2
  obtain ⟨v3, g3⟩ := key (by decide) (by decide) h3
  have e2 := (C79_no_collision World.sample (by decide) (by decide) (by decide) (by decide)
    (by decide) h1 h2 g1 g2).mp rfl
  have e3 := (C79_no_collision World.sample (by decide) (by decide) (by decide) (by decide)
    (by decide) h1 h3 g1 g3).mp rfl
  refine ⟨v1, ?_, fun g4 => ?_⟩
  · intro u hu
    simp only [List.mem_cons, List.not_mem_nil, or_false] at hu
    rcases hu with rfl | rfl | rfl
    · exact g1
    · rw [e2]; exact g2
    · rw [e3]; exact g3
  · have := (C79_no_collision World.sample (by decide) (by decide) (by decide) (by decide)
      (by decide) h1 h4 g1 g4).mpr rfl
    revert this
    decide

/-- Without the check of A-labels there are results that stand for nothing: "xn--a-". -/
example : LookupOk Sample.E 192 [0x78, 0x6E, 0x2D, 0x2D, 0x61, 0x2D]
      [0x78, 0x6E, 0x2D, 0x2D, 0x61, 0x2D] ∧
    LookupErr Sample.E 64 [0x78, 0x6E, 0x2D, 0x2D, 0x61, 0x2D] .punycodeBadInput := by
  decide +kernel

end Idn2
