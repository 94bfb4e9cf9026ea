import Verif.Spec.Extension
import Verif.Props.Inverse
import Verif.Props.FlagBits

/-
UTS #46 processing extends IDNA2008: names as IDNA2008 wants them are looked up alike.
-/

namespace Idn2

open Spec

variable {D : Data} {U : Uni}

theorem idna2008_status (hD : D.Laws) {c : Nat} (h : Idna2008 D c) :
    D.status c = .valid ∨ D.status c = .deviation := hD.pvalid c h

theorem idna2008_ne_dot (hD : D.Laws) {c : Nat} (h : Idna2008 D c) : c ≠ 0x2E := by
  rintro rfl
  have := hD.dot.2
  rcases h with h | h | h <;> rw [h] at this <;> cases this

/-- Flags of nontransitional UTS #46 processing with A-label checks. -/
def Plain (g : Nat) : Prop := g.testBit 2 = false ∧ g.testBit 6 = false ∧ g.testBit 7 = false

theorem labelTests_64 : labelTests 64 = 0x4D5B := by decide

theorem labelTests_plain {g : Nat} (hg : Plain g) :
    labelTests g = if g.testBit 5 then 0x2D5B else 0x6D5B := by
  unfold labelTests
  rw [hg.1, hg.2.1]
  cases g.testBit 5 <;> rfl

theorem tr46Tests_plain {g : Nat} (hg : Plain g) :
    tr46Tests g = if g.testBit 5 then 0x200F else 0x600F := by
  unfold tr46Tests
  rw [hg.1]
  cases g.testBit 5 <;> rfl

theorem tr46TestsA_plain (g : Nat) :
    tr46TestsA g = if g.testBit 5 then 0x200F else 0x600F := by
  unfold tr46TestsA
  cases g.testBit 5 <;> rfl

/-- A label that passes the tests consists of allowed code points. -/
theorem free_chars {l : List Nat} {w : Nat} (hw : w = 0x2D5B ∨ w = 0x4D5B)
    (h : ∀ e, ¬ Fault D U w l e) : ∀ c ∈ l, Idna2008 D c := by
  have hb : w.testBit 4 = true ∧ w.testBit 10 = true ∧
      ¬ ((w.testBit 12 = true ∨ w.testBit 13 = true) ∧ w.testBit 14 = true) := by
    rcases hw with rfl | rfl <;> decide
  intro c hc
  cases hp : D.prop c with
  | pvalid => exact .inl hp
  | contextj => exact .inr (.inl hp)
  | contexto => exact .inr (.inr hp)
  | disallowed =>
    exact absurd (Fault.disallowed c hb.1 hc hp fun hn => hb.2.2 ⟨hn.1, hn.2.1⟩) (h _)
  | unassigned => exact absurd (Fault.unassigned c hb.2.1 hc hp) (h _)

theorem free_tr46 (hD : D.Laws) {l : List Nat} {w : Nat}
    (hw : w = 0x200F ∨ w = 0x600F) (hc : ∀ c ∈ l, Idna2008 D c) (hn : U.nfc l = some l)
    (hh : ¬ (l[2]? = some 0x2D ∧ l[3]? = some 0x2D)) (he : NoEdgeHyphen l)
    (hm : ∀ c, l.head? = some c → U.isM c = false) : ∀ e, ¬ Fault D U w l e := by
  have hv : ∀ c ∈ l, ∀ b, Tr46Valid D false b c := by
    intro c h b
    rcases idna2008_status hD (hc c h) with h | h
    · exact .inl h
    · exact .inr (.inl ⟨rfl, h⟩)
  have hb : w.testBit 4 = false ∧ w.testBit 5 = false ∧ w.testBit 6 = false ∧
      w.testBit 7 = false ∧ w.testBit 8 = false ∧ w.testBit 9 = false ∧ w.testBit 10 = false ∧
      w.testBit 11 = false ∧ w.testBit 12 = false := by
    rcases hw with rfl | rfl <;> decide
  obtain ⟨b4, b5, b6, b7, b8, b9, b10, b11, b12⟩ := hb
  intro e h
  cases h with
  | nfc _ h => rw [hn] at h; cases h
  | notNfc t _ h h' => rw [hn] at h; cases h; exact h' rfl
  | twoHyphen _ h h' => exact hh ⟨h, h'⟩
  | hyphenStartEnd _ h =>
    rcases h with h | h
    · exact he.1 h
    · exact he.2 h
  | leadingCombining c _ h h' => rw [hm c h] at h'; cases h'
  | disallowed c h => rw [b4] at h; cases h
  | contextjAny c h => rw [b5] at h; cases h
  | contextj _ c h => rw [b6] at h; cases h
  | contextjNoRule c h => rw [b6] at h; cases h
  | contextoAny c h => rw [b7] at h; cases h
  | contextoNoRule c h => rw [b8, b9] at h; rcases h with h | h <;> cases h
  | contexto _ c h => rw [b9] at h; cases h
  | unassigned c h => rw [b10] at h; cases h
  | bidi h => rw [b11] at h; cases h
  | dotInLabel _ h => exact idna2008_ne_dot hD (hc _ h) rfl
  | invalidTransitional c h => rw [b12] at h; cases h
  | invalidNontransitional c _ _ h h' => exact h' (hv c h _)

/-- The tests of the two modes differ for other code points only. -/
theorem free_iff (hD : D.Laws) {w w' : Nat} {l : List Nat} (hc : ∀ c ∈ l, Idna2008 D c)
    (hw : w = 0x2D5B ∨ w = 0x6D5B ∨ w = 0x4D5B) (hw' : w' = 0x2D5B ∨ w' = 0x6D5B ∨ w' = 0x4D5B)
    (hf : ∀ e, ¬ Fault D U w l e) : ∀ e, ¬ Fault D U w' l e := by
  have hv : ∀ c ∈ l, ∀ b, Tr46Valid D false b c := by
    intro c h b
    rcases idna2008_status hD (hc c h) with h | h
    · exact .inl h
    · exact .inr (.inl ⟨rfl, h⟩)
  have hb : ∀ k, k < 13 → w.testBit k = w'.testBit k := by
    rcases hw with rfl | rfl | rfl <;> rcases hw' with rfl | rfl | rfl <;> decide
  have b12 : w'.testBit 12 = false := by rcases hw' with rfl | rfl | rfl <;> decide
  intro e h
  cases h with
  | nfc h h' => exact hf _ (.nfc (by rw [hb _ (by decide)]; exact h) h')
  | notNfc t h h' h'' => exact hf _ (.notNfc t (by rw [hb _ (by decide)]; exact h) h' h'')
  | twoHyphen h h' h'' => exact hf _ (.twoHyphen (by rw [hb _ (by decide)]; exact h) h' h'')
  | hyphenStartEnd h h' => exact hf _ (.hyphenStartEnd (by rw [hb _ (by decide)]; exact h) h')
  | leadingCombining c h h' h'' =>
    exact hf _ (.leadingCombining c (by rw [hb _ (by decide)]; exact h) h' h'')
  | disallowed c h h' h'' =>
    have := hc c h'
    rcases this with h | h | h <;> rw [h''] at h <;> cases h
  | contextjAny c h h' h'' => exact hf _ (.contextjAny c (by rw [hb _ (by decide)]; exact h) h' h'')
  | contextj p c h h1 h2 h3 h4 =>
    exact hf _ (.contextj p c (by rw [hb _ (by decide)]; exact h) h1 h2 h3 h4)
  | contextjNoRule c h h1 h2 h3 h4 =>
    exact hf _ (.contextjNoRule c (by rw [hb _ (by decide)]; exact h) h1 h2 h3 h4)
  | contextoAny c h h' h'' => exact hf _ (.contextoAny c (by rw [hb _ (by decide)]; exact h) h' h'')
  | contextoNoRule c h h1 h2 h3 =>
    exact hf _ (.contextoNoRule c (by rw [hb 8 (by decide), hb 9 (by decide)]; exact h) h1 h2 h3)
  | contexto p c h h1 h2 h3 h4 =>
    exact hf _ (.contexto p c (by rw [hb _ (by decide)]; exact h) h1 h2 h3 h4)
  | unassigned c h h' h'' => exact hf _ (.unassigned c (by rw [hb _ (by decide)]; exact h) h' h'')
  | bidi h h' => exact hf _ (.bidi (by rw [hb _ (by decide)]; exact h) h')
  | dotInLabel _ h => exact absurd rfl (idna2008_ne_dot hD (hc _ h))
  | invalidTransitional c h => rw [b12] at h; cases h
  | invalidNontransitional c _ _ h h' => exact h' (hv c h _)

theorem xn_ascii {t v : List Nat} (h : Decodes t v) : ∀ c ∈ xn ++ t, c < 0x80 := by
  intro c hc
  rw [List.mem_append] at hc
  rcases hc with hc | hc
  · simp only [xn, List.mem_cons, List.not_mem_nil, or_false] at hc
    omega
  · have := h.chars c hc
    unfold isLDHU at this
    omega

/-- Conversion in IDNA2008 mode: the label is in normal form, UTS #46 accepts it and converts it
alike. -/
theorem label_extends (hD : D.Laws) (hU : U.Laws) {g : Nat} (hg : Plain g) {l d : List Nat}
    (hl : Label2008 D U l) (h : LabelTo D U 64 l d) :
    U.nfc l = some l ∧ Tr46Label D U g l ∧ LabelTo D U g l d := by
  have hw : tr46Tests g = 0x200F ∨ tr46Tests g = 0x600F := by
    rw [tr46Tests_plain hg]; split <;> simp
  have hwa : tr46TestsA g = 0x200F ∨ tr46TestsA g = 0x600F := by
    rw [tr46TestsA_plain]; split <;> simp
  have hwl : labelTests g = 0x2D5B ∨ labelTests g = 0x6D5B ∨ labelTests g = 0x4D5B := by
    rw [labelTests_plain hg]; split <;> simp
  cases h with
  | ascii ha hx h63 =>
    have hx' : ¬ xn <+: l := fun h => hx ⟨by decide, h⟩
    have hn := hU.nfc_ascii l ha
    exact ⟨hn, .ulabel hx' (free_tr46 hD hw hl.chars hn (hl.hyphens hx') hl.hyphen hl.mark),
      .ascii ha (fun h => hx' h.2) h63⟩
  | alabel t v h7 he hd hs hf hm h59 =>
    rw [labelTests_64] at hf
    have hc := free_chars (.inr rfl) hf
    have hn := fault_free_nfc (by decide) hf
    refine ⟨?_, .alabel t v he hd (free_tr46 hD hwa hc hn ?_ (hl.decoded t v he hd) ?_),
      .alabel t v hg.2.2 he hd hs (free_iff hD hc (.inr (.inr rfl)) hwl hf) hm h59⟩
    · rw [he]; exact hU.nfc_ascii _ (xn_ascii hd)
    · exact fun h => hf _ (.twoHyphen (by decide) h.1 h.2)
    · intro c h
      cases hi : U.isM c with
      | false => rfl
      | true => exact absurd (Fault.leadingCombining c (by decide) h hi) (hf _)
  | ulabel hna hf hb h59 =>
    rw [labelTests_64] at hf
    have hn := fault_free_nfc (by decide) hf
    have hh : ¬ (l[2]? = some 0x2D ∧ l[3]? = some 0x2D) :=
      fun h => hf _ (.twoHyphen (by decide) h.1 h.2)
    refine ⟨hn, .ulabel ?_ (free_tr46 hD hw hl.chars hn hh hl.hyphen hl.mark),
      .ulabel hna (free_iff hD hl.chars (.inr (.inr rfl)) hwl hf) (fun _ => hb (by decide)) h59⟩
    rintro ⟨t, rfl⟩
    exact hh ⟨rfl, rfl⟩

/-- Conversion after UTS #46 processing with STD3 rules. -/
theorem label_restricts (hD : D.Laws) {g : Nat} (hg : Plain g) (h5 : g.testBit 5 = true)
    {l d : List Nat} (hl : Label2008 D U l) (h : LabelTo D U g l d) : LabelTo D U 64 l d := by
  have hwl : labelTests g = 0x2D5B := by rw [labelTests_plain hg, if_pos h5]
  have h64 := labelTests_64
  cases h with
  | ascii ha hx h63 => exact .ascii ha (fun h => hx ⟨hg.2.2, h.2⟩) h63
  | alabel t v h7 he hd hs hf hm h59 =>
    rw [hwl] at hf
    refine .alabel t v (by decide) he hd hs ?_ hm h59
    rw [h64]
    exact free_iff hD (free_chars (.inl rfl) hf) (.inl rfl) (.inr (.inr rfl)) hf
  | ulabel hna hf hb h59 =>
    rw [hwl] at hf
    refine .ulabel hna ?_ (fun _ => hb hg.2.2) h59
    rw [h64]
    exact free_iff hD hl.chars (.inl rfl) (.inr (.inr rfl)) hf

theorem labelTo_length {g : Nat} {l d : List Nat} (hs : ∀ c ∈ l, isScalar c)
    (h : LabelTo D U g l d) : l.length ≤ d.length := by
  cases h with
  | ascii => exact Nat.le_refl _
  | alabel t v h7 he hd _ hf hm h59 =>
    have := congrArg List.length hm
    simp only [List.length_map] at this
    rw [he, List.length_append, List.length_append]
    omega
  | ulabel =>
    have := length_le_encode (u := l) fun x hx => by
      have := hs x hx
      unfold isScalar at this
      omega
    rw [List.length_append]
    omega

theorem exists_splitDot {u : List Nat} {c : Nat} (hc : c ∈ u) (hd : c ≠ 0x2E) :
    ∃ l ∈ splitDot u, c ∈ l := by
  induction u with
  | nil => cases hc
  | cons x r ih =>
    unfold splitDot
    rw [List.mem_cons] at hc
    split
    · rename_i hx
      rcases hc with rfl | hc
      · exact absurd hx hd
      · obtain ⟨l, hl, h⟩ := ih hc
        exact ⟨l, List.mem_cons_of_mem _ hl, h⟩
    · cases hr : splitDot r with
      | nil => exact absurd hr (splitDot_ne_nil r)
      | cons l ls =>
        rcases hc with rfl | hc
        · exact ⟨_, List.mem_cons_self, List.mem_cons_self⟩
        · obtain ⟨l', hl, h⟩ := ih hc
          rw [hr, List.mem_cons] at hl
          rcases hl with rfl | hl
          · exact ⟨_, List.mem_cons_self, List.mem_cons_of_mem _ h⟩
          · exact ⟨l', List.mem_cons_of_mem _ hl, h⟩

theorem emit_2008 (hD : D.Laws) {b : Bool} {u : List Nat}
    (h : ∀ l ∈ splitDot u, ∀ c ∈ l, Idna2008 D c) :
    (∀ c ∈ u, D.status c ≠ .disallowed) ∧ u.flatMap (emit D false b) = u := by
  have key : ∀ c ∈ u, D.status c = .valid ∨ D.status c = .deviation := by
    intro c hc
    by_cases hd : c = 0x2E
    · subst hd; exact .inl hD.dot.1
    · obtain ⟨l, hl, hcl⟩ := exists_splitDot hc hd
      exact idna2008_status hD (h l hl c hcl)
  refine ⟨fun c hc h => ?_, ?_⟩
  · rcases key c hc with h' | h' <;> rw [h] at h' <;> cases h'
  · clear h
    induction u with
    | nil => rfl
    | cons c r ih =>
      rw [List.flatMap_cons, ih fun x hx => key x (List.mem_cons_of_mem _ hx)]
      have : emit D false b c = [c] := by
        unfold emit
        rcases key c List.mem_cons_self with h | h <;> rw [h] <;> rfl
      rw [this]; rfl

theorem toAscii_extends (hD : D.Laws) (hU : U.Laws) {g : Nat} (hg : Plain g) {u n : List Nat}
    (hs : ∀ c ∈ u, isScalar c) (hl : ∀ l ∈ splitDot u, Label2008 D U l)
    (h : ToAscii D U 64 u n) : U.nfc u = some u ∧ ToAscii D U g u n := by
  obtain ⟨x, ds, hp, he, rfl, hlen⟩ := h
  have hx : x = u := by
    unfold Processed at hp
    rwa [if_pos (by decide)] at hp
  subst hx
  have he' : Each (fun l d => (U.nfc l = some l ∧ Tr46Label D U g l ∧ LabelTo D U g l d) ∧
      l.length ≤ d.length) (splitDot x) ds :=
    each_imp_mem he fun l hm d h => ⟨label_extends hD hU hg (hl l hm) h,
      labelTo_length (fun c hc => hs c (mem_of_mem_splitDot hm hc)) h⟩
  have hall : ∀ l ∈ splitDot x, U.nfc l = some l ∧ Tr46Label D U g l := fun l hm => by
    obtain ⟨d, _, h⟩ := each_mem_right (each_swap he') hm
    exact ⟨h.1.1, h.1.2.1⟩
  have hn : U.nfc x = some x := by
    have := nfc_joinDot hU fun l hm => (hall l hm).1
    rwa [joinDot_splitDot] at this
  have hle : x.length ≤ (joinDot ds).length := by
    have := joinDot_length_le (each_swap (Spec.Each.imp (fun h => h.2) he'))
    rwa [joinDot_splitDot] at this
  obtain ⟨h1, h2⟩ := emit_2008 (b := g.testBit 5) hD fun l hm => (hl l hm).chars
  refine ⟨hn, x, ds, ?_, Spec.Each.imp (fun h => h.1.2.2) he', rfl, hlen⟩
  unfold Processed
  rw [if_neg (by rw [hg.2.1]; decide), hg.1, h2]
  refine ⟨h1, ?_, hn, fun l hm => (hall l hm).2⟩
  split at hlen <;> omega

theorem toAscii_restricts (hD : D.Laws) {g : Nat} (hg : Plain g) (h5 : g.testBit 5 = true)
    {u n : List Nat} (hl : ∀ l ∈ splitDot u, Label2008 D U l) (hn : U.nfc u = some u)
    (h : ToAscii D U g u n) : ToAscii D U 64 u n := by
  obtain ⟨x, ds, hp, he, rfl, hlen⟩ := h
  obtain ⟨h1, h2⟩ := emit_2008 (b := g.testBit 5) hD fun l hm => (hl l hm).chars
  have hx : x = u := by
    unfold Processed at hp
    rw [if_neg (by rw [hg.2.1]; decide), hg.1, h2, hn] at hp
    injection hp.2.2.1 with h
    exact h.symm
  subst hx
  refine ⟨x, ds, ?_, each_imp_mem he fun l hm d h => label_restricts hD hg h5 (hl l hm) h, rfl,
    hlen⟩
  unfold Processed
  rw [if_pos (by decide)]

theorem zero_2008 (hD : D.Laws) {u : List Nat} (h : ∀ l ∈ splitDot u, Label2008 D U l) :
    0 ∉ u := by
  intro h0
  obtain ⟨l, hl, hc⟩ := exists_splitDot h0 (by decide)
  have h1 := (hD.other 0 (by decide) (by unfold isLowerLDH; decide) (by decide) (by decide)).2
  rcases (h l hl).chars 0 hc with h | h | h <;> rw [h1] at h <;> cases h

theorem lookupOk_toAscii {E : Env} (W : World E D) {g : Nat} {u n : List Nat}
    (hs : ∀ c ∈ u, isScalar c) (h0 : 0 ∉ u)
    (hb : ¬ (g.testBit 0 = true ∧ g.testBit 6 = true)) (hc : ¬ Conflict g) :
    LookupOk E g (utf8s u) n ↔ ToAscii D E.U g u n := by
  rw [C48_lookup_spec W (zero_mem_utf8s h0) hb]
  constructor
  · rintro ⟨_, v, hv, he, h⟩
    rwa [utf8s_inj hs hv he]
  · exact fun h => ⟨hc, u, hs, rfl, h⟩

/-- C75: names as IDNA2008 wants them.  If IDNA2008 lookup (IDN2_NO_TR46) gives a result, every
lookup with nontransitional UTS #46 processing gives the same result. -/
theorem C75_extension {E : Env} (W : World E D) {g : Nat} (hg : ¬ Conflict g)
    (h2 : g.testBit 2 = false) (h6 : g.testBit 6 = false) (h7 : g.testBit 7 = false)
    {u n : List Nat} (hs : ∀ c ∈ u, isScalar c) (hl : ∀ l ∈ splitDot u, Label2008 D E.U l)
    (h : LookupOk E 64 (utf8s u) n) : LookupOk E g (utf8s u) n := by
  have h0 := zero_2008 W.data hl
  rw [lookupOk_toAscii W hs h0 (by decide) (by decide)] at h
  rw [lookupOk_toAscii W hs h0 (by rw [h6]; simp) hg]
  exact (toAscii_extends W.data W.uni ⟨h2, h6, h7⟩ hs hl h).2

/-- C75: with STD3 rules the two modes agree on all such names in normal form; IDNA2008 lookup
refuses the others. -/
theorem C75_conservative {E : Env} (W : World E D) {g : Nat} (hg : ¬ Conflict g)
    (h2 : g.testBit 2 = false) (h5 : g.testBit 5 = true) (h6 : g.testBit 6 = false)
    (h7 : g.testBit 7 = false) {u n : List Nat} (hs : ∀ c ∈ u, isScalar c)
    (hl : ∀ l ∈ splitDot u, Label2008 D E.U l) :
    LookupOk E 64 (utf8s u) n ↔ E.U.nfc u = some u ∧ LookupOk E g (utf8s u) n := by
  have h0 := zero_2008 W.data hl
  rw [lookupOk_toAscii W hs h0 (by decide) (by decide),
    lookupOk_toAscii W hs h0 (by rw [h6]; simp) hg]
  exact ⟨toAscii_extends W.data W.uni ⟨h2, h6, h7⟩ hs hl,
    fun ⟨hn, h⟩ => toAscii_restricts W.data ⟨h2, h6, h7⟩ h5 hl hn h⟩

/-- The hypotheses are satisfied by "fä.b-c". -/
example : (∀ l ∈ splitDot [0x66, 0xE4, 0x2E, 0x62, 0x2D, 0x63], Label2008 Sample.D Sample.U l) ∧
    LookupOk Sample.E 64 (utf8s [0x66, 0xE4, 0x2E, 0x62, 0x2D, 0x63])
      [0x78, 0x6E, 0x2D, 0x2D, 0x66, 0x2D, 0x30, 0x66, 0x61, 0x2E, 0x62, 0x2D, 0x63] := by
  refine ⟨?_, by decide +kernel⟩
  have : splitDot [0x66, 0xE4, 0x2E, 0x62, 0x2D, 0x63] = [[0x66, 0xE4], [0x62, 0x2D, 0x63]] := by
    decide
  rw [this]
  intro l hl
  rw [List.mem_cons, List.mem_singleton] at hl
  rcases hl with rfl | rfl
  · exact ⟨by decide +kernel, by decide, by decide, by intro c h; cases h; decide,
      by intro t v h; cases h⟩
  · exact ⟨by decide +kernel, by decide, by decide, by intro c h; cases h; decide,
      by intro t v h; cases h⟩

/-- Edge hyphens: "-ä" is looked up in IDNA2008 mode only. -/
example : LookupOk Sample.E 64 (utf8s [0x2D, 0xE4])
      [0x78, 0x6E, 0x2D, 0x2D, 0x2D, 0x2D, 0x30, 0x66, 0x61] ∧
    LookupErr Sample.E 0 (utf8s [0x2D, 0xE4]) .hyphenStartEnd := by decide +kernel

/-- Hyphens in third and fourth position: "ab--c" is looked up in IDNA2008 mode only. -/
example : LookupOk Sample.E 64 [0x61, 0x62, 0x2D, 0x2D, 0x63] [0x61, 0x62, 0x2D, 0x2D, 0x63] ∧
    LookupErr Sample.E 0 [0x61, 0x62, 0x2D, 0x2D, 0x63] .twoHyphen := by decide +kernel

/-- Code points: "A" stays in IDNA2008 mode. -/
example : LookupOk Sample.E 64 [0x41] [0x41] ∧ LookupOk Sample.E 0 [0x41] [0x61] := by
  decide +kernel

/-- Without STD3 rules more A-labels are looked up: that of "a¨". -/
example : LookupErr Sample.E 64 [0x78, 0x6E, 0x2D, 0x2D, 0x61, 0x2D, 0x6C, 0x63, 0x61] .disallowed ∧
    LookupErr Sample.E 32 [0x78, 0x6E, 0x2D, 0x2D, 0x61, 0x2D, 0x6C, 0x63, 0x61] .invalidNontransitional ∧
    LookupOk Sample.E 0 [0x78, 0x6E, 0x2D, 0x2D, 0x61, 0x2D, 0x6C, 0x63, 0x61]
      [0x78, 0x6E, 0x2D, 0x2D, 0x61, 0x2D, 0x6C, 0x63, 0x61] := by
  decide +kernel

/-- Not in normal form: "à" as two code points is looked up after UTS #46 processing only. -/
example : LookupErr Sample.E 64 (utf8s [0x61, 0x300]) .notNfc ∧
    LookupOk Sample.E 32 (utf8s [0x61, 0x300]) [0x78, 0x6E, 0x2D, 0x2D, 0x30, 0x63, 0x61] := by
  decide +kernel

end Idn2
