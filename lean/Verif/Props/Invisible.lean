import Verif.Props.Casefold

/-
Property C114: the labels of looked-up names contain no invisible and no direction-changing characters
other than the joiners.
-/

namespace Idn2
open Spec

/-- The code points that NFKC_Casefold removes, according to the shipped DerivedNormalizationProps.txt.
They are those with the property Default_Ignorable_Code_Point: zero-width spaces, directional
formatting, variation selectors, fillers, tags. -/
def Shipped.Invisible (c : Nat) : Prop := casefold Shipped.fold c = []

theorem Shipped.mappings_ne_nil : map.all (fun r => match r.status, r.mapping with
    | .std3Mapped, [] => false
    | .mapped, [] => false
    | _, _ => true) = true := by decide +kernel

theorem mapping_ne_nil {c : Nat}
    (h : Shipped.D.status c = .std3Mapped ∨ Shipped.D.status c = .mapped) :
    Shipped.D.mapping c ≠ [] := by
  simp only [Shipped.D, dataOf] at h ⊢
  cases hf : Shipped.map.find? (fun r => decide (r.first ≤ c ∧ c ≤ r.last)) with
  | none => rw [hf] at h; rcases h with h | h <;> cases h
  | some r =>
    rw [hf] at h
    have hr := List.all_eq_true.mp Shipped.mappings_ne_nil r (List.mem_of_find?_eq_some hf)
    simp only [] at h ⊢
    intro h2
    rw [h2] at hr
    rcases h with h | h <;> rw [h] at hr <;> cases hr

/-- C114.  Sharp s, final sigma and characters with status disallowed_STD3_mapped are visible. -/
theorem C114_visible {c : Nat} (h : c = 0xDF ∨ c = 0x3C2 ∨ Shipped.D.status c = .std3Mapped) :
    ¬ Shipped.Invisible c := by
  have hk : (Shipped.D.status 0xDF = .deviation ∧ Shipped.D.mapping 0xDF = [0x73, 0x73]) ∧
      (Shipped.D.status 0x3C2 = .deviation ∧ Shipped.D.mapping 0x3C2 = [0x3C3]) := by decide +kernel
  unfold Shipped.Invisible
  rcases h with rfl | rfl | h
  · rw [← C110_mapping (by rw [hk.1.1]; decide) (by decide) (by decide)]
    unfold emit
    rw [hk.1.1, hk.1.2]
    simp
  · rw [← C110_mapping (by rw [hk.2.1]; decide) (by decide) (by decide)]
    unfold emit
    rw [hk.2.1, hk.2.2]
    simp
  · have hd := (World.shipped World.sample.uni).data
    have hnd : c ≠ 0x3002 ∧ c ≠ 0xFF61 := by
      constructor <;> rintro rfl
      · rw [(hd.dots 0x3002 (by decide)).1] at h; cases h
      · rw [(hd.dots 0xFF61 (by decide)).1] at h; cases h
    rw [← C110_mapping (by rw [h]; decide) hnd.1 hnd.2]
    have hm := mapping_ne_nil (.inl h)
    unfold emit
    rw [h]
    simpa using hm

theorem visible_of_status {c : Nat} (h : Shipped.D.status c = .valid ∨ Shipped.D.status c = .std3Valid) :
    ¬ Shipped.Invisible c := by
  unfold Shipped.Invisible
  rw [← C110_mapping (by rcases h with h | h <;> rw [h] <;> decide) (valid_nodots h).1 (valid_nodots h).2]
  unfold emit
  rcases h with h | h <;> rw [h] <;> simp

theorem joiner_of_deviation {c : Nat} (hd : c ∈ deviations) (hi : Shipped.Invisible c) :
    c = 0x200C ∨ c = 0x200D := by
  unfold deviations at hd
  simp only [List.mem_cons, List.not_mem_nil, or_false] at hd
  rcases hd with hd | hd | hd | hd
  · exact absurd hi (C114_visible (.inl hd))
  · exact absurd hi (C114_visible (.inr (.inl hd)))
  · exact .inl hd
  · exact .inr hd

/-- C114.  IDNA2008 allows no invisible characters but the joiners. -/
theorem C114_property {c : Nat} (h : Shipped.D.prop c = .pvalid ∨ Shipped.D.prop c = .contextj ∨
    Shipped.D.prop c = .contexto) (hi : Shipped.Invisible c) : c = 0x200C ∨ c = 0x200D := by
  rcases C110_stable h with hd | hc
  · exact joiner_of_deviation hd hi
  · unfold Shipped.Invisible at hi
    rw [hi] at hc
    cases hc

/-- C114.  The mapping of a name without disallowed characters leaves none behind but the joiners, and
these only in nontransitional processing. -/
theorem C114_mapped {tr std3 : Bool} {u : List Nat} (hd : ∀ c ∈ u, Shipped.D.status c ≠ .disallowed) :
    ∀ x ∈ u.flatMap (emit Shipped.D tr std3), Shipped.Invisible x →
      tr = false ∧ (x = 0x200C ∨ x = 0x200D) := by
  intro x hx hi
  obtain ⟨c, hc, hx⟩ := List.mem_flatMap.mp hx
  have key : (Shipped.D.status x = .valid ∨ Shipped.D.status x = .std3Valid) ∨
      (tr = false ∧ Shipped.D.status x = .deviation) := by
    have hk := hd c hc
    have hm := C81_closed.mapped c
    have h3 := C81_closed.std3 c
    unfold emit at hx
    cases hs : Shipped.D.status c <;> rw [hs] at hx hk hm h3 <;> simp only [] at hx
    · rw [List.mem_singleton.mp hx]; exact .inl (.inl hs)
    · exact .inl (.inl (hm (.inl rfl) x hx))
    · cases hx
    · split at hx
      · exact .inl (.inl (hm (.inr rfl) x hx))
      · rename_i ht
        rw [List.mem_singleton.mp hx]; exact .inr ⟨by simpa using ht, hs⟩
    · exact absurd rfl hk
    · split at hx
      · cases hx
      · exact .inl (h3 rfl x hx)
    · split at hx
      · cases hx
      · rw [List.mem_singleton.mp hx]; exact .inl (.inr hs)
  rcases key with h | ⟨ht, h⟩
  · exact absurd hi (visible_of_status h)
  · exact ⟨ht, joiner_of_deviation ((C42_deviations x).mp h) hi⟩

/-- C114.  Of the characters that are not disallowed, the invisible ones are those that the mapping
ignores, and the joiners. -/
theorem C114_status {c : Nat} (h : Shipped.D.status c ≠ .disallowed) :
    Shipped.Invisible c ↔ Shipped.D.status c = .ignored ∨ c = 0x200C ∨ c = 0x200D := by
  have hk : (Shipped.D.status 0x200C = .deviation ∧ Shipped.D.mapping 0x200C = []) ∧
      (Shipped.D.status 0x200D = .deviation ∧ Shipped.D.mapping 0x200D = []) := by decide +kernel
  have hnd : ∀ x ∈ [0x3002, 0xFF61], Shipped.D.status x = .mapped ∧ ¬ Shipped.Invisible x := by
    unfold Shipped.Invisible
    decide +kernel
  by_cases h1 : c = 0x3002 ∨ c = 0xFF61
  · obtain ⟨ha, hb⟩ := hnd c (by simpa using h1)
    refine ⟨fun hi => absurd hi hb, ?_⟩
    rintro (hi | rfl | rfl)
    · rw [ha] at hi; cases hi
    · simp at h1
    · simp at h1
  · have hm := C110_mapping h (fun e => h1 (.inl e)) (fun e => h1 (.inr e))
    constructor
    · intro hi
      unfold Shipped.Invisible at hi
      rw [hi] at hm
      cases hs : Shipped.D.status c
      · exact absurd hi (visible_of_status (.inl hs))
      · unfold emit at hm
        rw [hs] at hm
        exact absurd hm (mapping_ne_nil (.inr hs))
      · exact .inl rfl
      · exact .inr (joiner_of_deviation ((C42_deviations c).mp hs) hi)
      · exact absurd hs h
      · exact absurd hi (C114_visible (.inr (.inr hs)))
      · exact absurd hi (visible_of_status (.inr hs))
    · intro hi
      unfold Shipped.Invisible
      rw [← hm]
      unfold emit
      rcases hi with hi | rfl | rfl
      · rw [hi]
      · rw [hk.1.1, hk.1.2]; rfl
      · rw [hk.2.1, hk.2.2]; rfl

/-- C114.  Invisible characters that are not disallowed make no difference to lookup, wherever they
are, with the exception of the joiners. -/
theorem C114_removed {U : Uni} (h : U.Laws) {f : Nat} (f6 : f.testBit 6 = false) {p a q : List Nat}
    (hu : ∀ c ∈ p ++ a ++ q, isScalar c) (hu0 : 0 ∉ p ++ a ++ q)
    (ha : ∀ c ∈ a, Shipped.Invisible c ∧ Shipped.D.status c ≠ .disallowed ∧ c ≠ 0x200C ∧ c ≠ 0x200D) :
    (∀ n, LookupOk ⟨Shipped.T, U⟩ f (utf8s (p ++ a ++ q)) n ↔ LookupOk ⟨Shipped.T, U⟩ f (utf8s (p ++ q)) n) ∧
    ∀ e, LookupErr ⟨Shipped.T, U⟩ f (utf8s (p ++ a ++ q)) e ↔
      LookupErr ⟨Shipped.T, U⟩ f (utf8s (p ++ q)) e := by
  have hig : ∀ c ∈ a, Shipped.D.status c = .ignored := by
    intro c hc
    obtain ⟨h1, h2, h3, h4⟩ := ha c hc
    rcases (C114_status h2).mp h1 with h | h | h
    · exact h
    · exact absurd h h3
    · exact absurd h h4
  have hem : (p ++ a ++ q).flatMap (emit Shipped.D (f.testBit 2) (f.testBit 5)) =
      (p ++ q).flatMap (emit Shipped.D (f.testBit 2) (f.testBit 5)) := by
    have : a.flatMap (emit Shipped.D (f.testBit 2) (f.testBit 5)) = [] := by
      rw [List.flatMap_eq_nil_iff]
      intro c hc
      unfold emit
      rw [hig c hc]
    rw [List.flatMap_append, List.flatMap_append, List.flatMap_append, this, List.append_nil]
  have hsub : ∀ c ∈ p ++ q, c ∈ p ++ a ++ q := by
    intro c hc
    simp only [List.mem_append] at hc ⊢
    rcases hc with hc | hc
    · exact .inl (.inl hc)
    · exact .inr hc
  refine C33_mapped_form (World.shipped h) hu (fun c hc => hu c (hsub c hc)) hu0
    (fun h0 => hu0 (hsub 0 h0)) f6 ?_ (by rw [hem]) (by rw [hem])
  constructor
  · rintro ⟨c, hc, hd⟩
    simp only [List.mem_append] at hc
    rcases hc with (hc | hc) | hc
    · exact ⟨c, List.mem_append_left _ hc, hd⟩
    · exact absurd hd (ha c hc).2.1
    · exact ⟨c, List.mem_append_right _ hc, hd⟩
  · rintro ⟨c, hc, hd⟩
    exact ⟨c, hsub c hc, hd⟩

theorem visible_of_tr46 {tr std3 : Bool} {c : Nat} (h : Tr46Valid Shipped.D tr std3 c)
    (hi : Shipped.Invisible c) : c = 0x200C ∨ c = 0x200D := by
  rcases h with h | ⟨-, h⟩ | ⟨-, h | h⟩
  · exact absurd hi (visible_of_status (.inl h))
  · exact joiner_of_deviation ((C42_deviations c).mp h) hi
  · exact absurd hi (visible_of_status (.inr h))
  · exact absurd hi (C114_visible (.inr (.inr h)))

/-- C114, for UTS #46 processing with any flags: the labels that a name stands for contain no invisible
character but the joiners. -/
theorem C114_tr46 {U : Uni} {f : Nat} (f6 : f.testBit 6 = false) {u : List Nat} {vs : List (List Nat)}
    (hv : StandsFor Shipped.D U f u vs) :
    ∀ v ∈ vs, ∀ c ∈ v, Shipped.Invisible c → c = 0x200C ∨ c = 0x200D := by
  obtain ⟨x, ws, h1, h2, h3⟩ := hv
  rw [if_neg (by rw [f6]; simp)] at h3
  subst h3
  unfold Processed at h1
  rw [if_neg (by rw [f6]; simp)] at h1
  intro v hv c hc hi
  obtain ⟨l, hl, hden⟩ := each_mem_right h2 hv
  cases h1.2.2.2 l hl with
  | alabel t w hw hd hf =>
    have hwl := hden.unique (.alabel t w hw hd)
    subst hwl
    have hb : (tr46TestsA f).testBit 12 = false ∧ (tr46TestsA f).testBit 13 = true := by
      unfold tr46TestsA
      cases f.testBit 5 <;> decide
    exact visible_of_tr46 (Classical.byContradiction fun ht =>
      hf _ (.invalidNontransitional c hb.1 hb.2 hc ht)) hi
  | ulabel hx hf =>
    have hwl := hden.unique (.other (.inr hx))
    subst hwl
    cases f2 : f.testBit 2 with
    | false =>
      have hb : (tr46Tests f).testBit 12 = false ∧ (tr46Tests f).testBit 13 = true := by
        unfold tr46Tests
        rw [f2]
        cases f.testBit 5 <;> decide
      exact visible_of_tr46 (Classical.byContradiction fun ht =>
        hf _ (.invalidNontransitional c hb.1 hb.2 hc ht)) hi
    | true =>
      have hb : (tr46Tests f).testBit 12 = true := by
        unfold tr46Tests
        rw [f2]
        cases f.testBit 5 <;> decide
      exact visible_of_tr46 (Classical.byContradiction fun ht =>
        hf _ (.invalidTransitional c hb hc ht)) hi

/-- C114.  So the result of lookup after UTS #46 processing, shown by conversion to Unicode, contains no
invisible character but the joiners. -/
theorem C114_shown {U : Uni} (h : U.Laws) {f : Nat} (f6 : f.testBit 6 = false)
    (f7 : f.testBit 7 = false) {u n v : List Nat} (hs : ∀ c ∈ u, isScalar c) (h0 : 0 ∉ u)
    (ho : LookupOk ⟨Shipped.T, U⟩ f (utf8s u) n) (hv : ToUniOk n v) :
    ∀ c ∈ v, Shipped.Invisible c → c = 0x200C ∨ c = 0x200D := by
  obtain ⟨vs, hvs, -⟩ := C79_stands (World.shipped h) f7 hs h0 ho
  rw [C79_shown (World.shipped h) f6 f7 hs h0 ho hv hvs]
  intro c hc hi
  rcases mem_joinDot hc with rfl | ⟨w, hw, hcw⟩
  · exact absurd hi (by unfold Shipped.Invisible; decide +kernel)
  · exact C114_tr46 f6 hvs w hw c hcw hi

/-- C114.  A label outside ASCII that a name with a result stands for contains no invisible character
but the joiners (to which the rules of RFC 5892 apply, C27). -/
theorem C114_lookup {U : Uni} (h : U.Laws) {f : Nat} (f2 : f.testBit 2 = false)
    (f7 : f.testBit 7 = false) {u n : List Nat} (hs : ∀ c ∈ u, isScalar c) (h0 : 0 ∉ u)
    (ho : LookupOk ⟨Shipped.T, U⟩ f (utf8s u) n) {vs : List (List Nat)}
    (hv : StandsFor Shipped.D U f u vs) : ∀ v ∈ vs, (∃ c ∈ v, 0x80 ≤ c) →
      ∀ c ∈ v, Shipped.Invisible c → c = 0x200C ∨ c = 0x200D := by
  intro v hm hna c hc hi
  rcases (C110_lookup h f2 f7 hs h0 ho hv v hm hna).2 c hc with hd | hf | ⟨-, -, hst⟩
  · exact joiner_of_deviation hd hi
  · unfold Shipped.Invisible at hi
    rw [hi] at hf
    cases hf
  · exact absurd hi (C114_visible (.inr (.inr hst)))

/-- The characters with the property Bidi_Control (UAX #9, section 2). -/
def bidiControls : List Nat :=
  [0x61C, 0x200E, 0x200F, 0x202A, 0x202B, 0x202C, 0x202D, 0x202E, 0x2066, 0x2067, 0x2068, 0x2069]

/-- C114.  The bidirectional controls are among them. -/
theorem C114_bidi_controls : ∀ c ∈ bidiControls, Shipped.Invisible c := by
  unfold Shipped.Invisible
  decide +kernel

/-- So are the zero-width space and the soft hyphen; "a" is not. -/
example : (∀ c ∈ [0x200B, 0xAD], Shipped.Invisible c) ∧ ¬ Shipped.Invisible 0x61 := by
  unfold Shipped.Invisible
  decide +kernel

/-- "a", a soft hyphen and a zero-width space, "b" is looked up as "ab". -/
example {U : Uni} (h : U.Laws) (n : List Nat) :
    LookupOk ⟨Shipped.T, U⟩ 0 (utf8s ([0x61] ++ [0xAD, 0x200B] ++ [0x62])) n ↔
      LookupOk ⟨Shipped.T, U⟩ 0 (utf8s ([0x61] ++ [0x62])) n := by
  refine (C114_removed h (by decide) (by unfold isScalar; decide) (by decide) ?_).1 n
  unfold Shipped.Invisible
  decide +kernel

end Idn2
