import Verif.Spec.Uts46
import Verif.Spec.Codes
import Verif.Props.BidiName
import Verif.Props.Collision

/-
Property C97: lookup with UTS #46 processing is ToASCII of UTS #46.
-/

namespace Idn2
open Spec

variable {D : Data} {U : Uni}

/-! ### Mapping -/

theorem mapOne_eq {tr std3 : Bool} {c : Nat} (h : std3 = true → ¬ Std3 D c) :
    Uts46.mapOne D tr std3 c = emit D tr std3 c := by
  unfold Uts46.mapOne Uts46.status emit
  unfold Std3 at h
  cases hs : D.status c <;> cases std3 <;> simp_all

theorem status_disallowed {std3 : Bool} {c : Nat} :
    Uts46.status D std3 c ≠ .disallowed ↔
      D.status c ≠ .disallowed ∧ (std3 = true → ¬ Std3 D c) := by
  unfold Uts46.status Std3
  cases hs : D.status c <;> cases std3 <;> simp

theorem mapAll_eq {tr std3 : Bool} {u : List Nat} (h : std3 = true → ∀ c ∈ u, ¬ Std3 D c) :
    u.flatMap (Uts46.mapOne D tr std3) = u.flatMap (emit D tr std3) := by
  induction u with
  | nil => rfl
  | cons c r ih =>
    rw [List.flatMap_cons, List.flatMap_cons, mapOne_eq fun hs => h hs c List.mem_cons_self,
      ih fun hs x hx => h hs x (List.mem_cons_of_mem _ hx)]

/-! ### Punycode -/

theorem asciiLower_digitChar {d : Nat} (h : d < 36) :
    asciiLower (Punycode.digitChar d) = Punycode.digitChar d := by
  unfold asciiLower Punycode.digitChar
  split <;> rw [if_neg (by omega)]

theorem canonChar_lower {c d : Nat} (hd : d < 36) (h : asciiLower c = Punycode.digitChar d) :
    canonChar c = Punycode.digitChar d ∧ c ≠ 0x2D := by
  unfold asciiLower at h
  unfold canonChar
  unfold Punycode.digitChar at h ⊢
  split at h <;> split at h <;> split <;> (try split) <;> omega

theorem lower_forms {cs : List Nat} (hc : ∀ d ∈ cs, d < 36) {r : List Nat}
    (h : r.map asciiLower = cs.map Punycode.digitChar) :
    r.map canonChar = cs.map Punycode.digitChar ∧ ∀ c ∈ r, c ≠ 0x2D := by
  induction r generalizing cs with
  | nil =>
    cases cs with
    | nil => exact ⟨rfl, by simp⟩
    | cons _ _ => cases h
  | cons a r ih =>
    cases cs with
    | nil => cases h
    | cons d cs =>
      rw [List.map_cons, List.map_cons, List.cons.injEq] at h
      obtain ⟨h1, h2⟩ := canonChar_lower (hc d List.mem_cons_self) h.1
      obtain ⟨h3, h4⟩ := ih (fun x hx => hc x (List.mem_cons_of_mem _ hx)) h.2
      refine ⟨by rw [List.map_cons, List.map_cons, h1, h3], fun c hx => ?_⟩
      rcases List.mem_cons.mp hx with rfl | hx
      · exact h2
      · exact h4 c hx

theorem map_lower_LDHU {t s : List Nat} (h : t.map asciiLower = s.map asciiLower)
    (hs : ∀ c ∈ s, isLDHU c) : ∀ c ∈ t, isLDHU c := by
  induction t generalizing s with
  | nil => simp
  | cons a t ih =>
    cases s with
    | nil => cases h
    | cons b s =>
      rw [List.map_cons, List.map_cons, List.cons.injEq] at h
      intro c hc
      rcases List.mem_cons.mp hc with rfl | hc
      · exact asciiLower_LDHU h.1.symm (hs b List.mem_cons_self)
      · exact ih h.2 (fun x hx => hs x (List.mem_cons_of_mem _ hx)) c hc

/-- RFC 3492 decoding is what the library decodes. -/
theorem punycodes_decodes {t v : List Nat} (h : Uts46.Punycodes t v)
    (hl : ∀ c ∈ v, c < 0x80 → isLDHU c) (ht : t.length ≤ 59) : Decodes t v := by
  obtain ⟨hs, hn, ⟨r, rfl⟩, hd⟩ := h
  have hlen := congrArg List.length hd
  rw [List.length_map, List.length_map] at hlen
  have hle := length_le_encode (scalar_lt hs)
  have hcl := codes_lt (b := (Punycode.basics v).length) (Punycode.insertions v)
    (Punycode.init (Punycode.basics v).length)
  have hr : r.map asciiLower = (Punycode.codes (Punycode.basics v).length
      (Punycode.init (Punycode.basics v).length) (Punycode.insertions v)).map
        Punycode.digitChar := by
    have h1 : (Punycode.headPart v ++ r).map asciiLower =
        (Punycode.headPart v ++ (Punycode.codes (Punycode.basics v).length
      (Punycode.init (Punycode.basics v).length) (Punycode.insertions v)).map
        Punycode.digitChar).map asciiLower := hd
    rw [List.map_append, List.map_append] at h1
    have h2 := List.append_cancel_left h1
    rw [h2, List.map_map]
    exact List.map_congr_left fun d hd => asciiLower_digitChar (hcl d hd)
  obtain ⟨h1, h2⟩ := lower_forms hcl hr
  refine ⟨map_lower_LDHU hd (encode_LDHU hl), ?_, encodable_scalar hs, hn, by omega⟩
  have : Punycode.headPart v = headOf (Punycode.basics v) := rfl
  rw [this, canonPuny_head h2, h1, encode_eq_head]

theorem decodes_punycodes {t v : List Nat} (h : Decodes t v) (hs : ∀ c ∈ v, isScalar c)
    (hm : t.map asciiLower = (Punycode.encode v).map asciiLower) : Uts46.Punycodes t v := by
  obtain ⟨ds, h1, _⟩ := canon_split h.chars h.canon
  exact ⟨hs, h.nonascii, ⟨ds, h1.symm⟩, hm⟩

/-! ### Validity -/

theorem tr46Valid_status {tr std3 : Bool} {c : Nat}
    (h : Uts46.status D std3 c = .valid ∨ (tr = false ∧ Uts46.status D std3 c = .deviation)) :
    Tr46Valid D tr (!std3) c := by
  unfold Uts46.status at h
  unfold Tr46Valid
  cases hs : D.status c <;> cases std3 <;> cases tr <;> simp_all

theorem status_tr46Valid {tr std3 : Bool} {c : Nat} (h : Tr46Valid D tr (!std3) c)
    (hm : std3 = false → D.status c ≠ .std3Mapped) :
    Uts46.status D std3 c = .valid ∨ (tr = false ∧ Uts46.status D std3 c = .deviation) := by
  unfold Tr46Valid at h
  unfold Uts46.status
  rcases h with h | ⟨h, h'⟩ | ⟨h, h' | h'⟩
  · rw [h]; exact .inl rfl
  · rw [h']; exact .inr ⟨h, rfl⟩
  · have h5 : std3 = false := by simpa using h
    rw [h', h5]; exact .inl rfl
  · exact absurd h' (hm (by simpa using h))

/-- The bits of the tests that UTS #46 processing performs. -/
structure Bits46 (w : Nat) (tr std3 : Bool) : Prop where
  on : w.testBit 0 = true ∧ w.testBit 1 = true ∧ w.testBit 2 = true ∧ w.testBit 3 = true
  off : w.testBit 4 = false ∧ w.testBit 5 = false ∧ w.testBit 6 = false ∧ w.testBit 7 = false ∧
    w.testBit 8 = false ∧ w.testBit 9 = false ∧ w.testBit 10 = false ∧ w.testBit 11 = false
  mode : w.testBit 12 = tr ∧ w.testBit 13 = !tr
  std3 : w.testBit 14 = !std3

theorem bits46 (f : Nat) : Bits46 (tr46Tests f) (f.testBit 2) (f.testBit 5) := by
  unfold tr46Tests
  cases f.testBit 2 <;> cases f.testBit 5 <;> exact ⟨by decide, by decide, by decide, by decide⟩

theorem bits46A (f : Nat) : Bits46 (tr46TestsA f) false (f.testBit 5) := by
  unfold tr46TestsA
  cases f.testBit 5 <;> exact ⟨by decide, by decide, by decide, by decide⟩

theorem valid_free {w : Nat} {tr std3 : Bool} (hw : Bits46 w tr std3) {l : List Nat}
    (hl : Uts46.Valid D U tr std3 l) : ∀ e, ¬ Fault D U w l e := by
  obtain ⟨_, ⟨b4, b5, b6, b7, b8, b9, b10, b11⟩, ⟨b12, b13⟩, b14⟩ := hw
  intro e h
  cases h with
  | nfc _ h => rw [hl.nfc] at h; cases h
  | notNfc t _ h h' => rw [hl.nfc] at h; cases h; exact h' rfl
  | twoHyphen _ h h' => exact hl.hyphens ⟨h, h'⟩
  | hyphenStartEnd _ h =>
    rcases h with h | h
    · exact hl.edges.1 h
    · exact hl.edges.2 h
  | leadingCombining c _ h h' => rw [hl.mark c h] at h'; cases h'
  | disallowed c h => rw [b4] at h; cases h
  | contextjAny c h => rw [b5] at h; cases h
  | contextj _ c h => rw [b6] at h; cases h
  | contextjNoRule c h => rw [b6] at h; cases h
  | contextoAny c h => rw [b7] at h; cases h
  | contextoNoRule c h => rw [b8, b9] at h; rcases h with h | h <;> cases h
  | contexto _ c h => rw [b9] at h; cases h
  | unassigned c h => rw [b10] at h; cases h
  | bidi h => rw [b11] at h; cases h
  | dotInLabel _ h => exact hl.dot h
  | invalidTransitional c h h1 h2 =>
    rw [b12] at h; subst h
    rw [b14] at h2
    exact h2 (tr46Valid_status (hl.chars c h1))
  | invalidNontransitional c h _ h1 h2 =>
    rw [b12] at h; subst h
    rw [b14] at h2
    exact h2 (tr46Valid_status (hl.chars c h1))

/-- What the tests of UTS #46 leave open: the contextual rules, and characters that are mapped
unless STD3 rules are in use. -/
theorem free_valid {w : Nat} {tr std3 : Bool} (hw : Bits46 w tr std3) {l : List Nat}
    (hf : ∀ e, ¬ Fault D U w l e) (hm : std3 = false → ∀ c ∈ l, D.status c ≠ .std3Mapped)
    (hj : ∀ pos c, l[pos]? = some c → c = 0x200C ∨ c = 0x200D → ContextJ U l pos c) :
    Uts46.Valid D U tr std3 l := by
  obtain ⟨⟨b0, b1, b2, b3⟩, _, ⟨b12, b13⟩, b14⟩ := hw
  refine ⟨fault_free_nfc b0 hf, fun h => hf _ (.twoHyphen b1 h.1 h.2),
    ⟨fun h => hf _ (.hyphenStartEnd b2 (.inl h)), fun h => hf _ (.hyphenStartEnd b2 (.inr h))⟩,
    fun h => hf _ (.dotInLabel ?_ h), fun c h => ?_, fun c hc => ?_, hj⟩
  · rw [b12, b13]; cases tr <;> simp
  · cases hi : U.isM c with
    | false => rfl
    | true => exact absurd (Fault.leadingCombining c b3 h hi) (hf _)
  · refine status_tr46Valid (Classical.byContradiction fun h => ?_) fun h => hm h c hc
    rw [← b14] at h
    cases tr with
    | true => exact hf _ (.invalidTransitional c b12 hc h)
    | false => exact hf _ (.invalidNontransitional c b12 b13 hc h)

theorem bidiAccepted_of {vs : List (List Nat)} (h : BidiNameRule U vs) {v : List Nat}
    (hv : v ∈ vs) : BidiAccepted U v := by
  intro hr
  have hne : v ≠ [] := by
    rintro rfl
    obtain ⟨c, hc, _⟩ := hr
    cases hc
  have := C26_rfc_accepted U v (h ⟨v, hv, hr⟩ v hv hne)
  exact bidi_ok_iff_accepted.mp this hr

/-- A valid label of permitted code points passes all tests of lookup. -/
theorem valid_tests (hR : Ruled D) {f : Nat} (f6 : f.testBit 6 = false) {v : List Nat} {tr : Bool}
    (ht : f.testBit 2 = false → tr = false) (hv : Uts46.Valid D U tr (f.testBit 5) v)
    (hp : f.testBit 2 = false → ∀ c ∈ v, Uts46.Permitted D (f.testBit 5) c)
    (hb : BidiAccepted U v) : ∀ e, ¬ Fault D U (labelTests f) v e := by
  cases f2 : f.testBit 2 with
  | true =>
    have : labelTests f = 0 := by unfold labelTests; rw [if_pos f2]
    rw [this]
    intro e h
    cases h <;> simp_all
  | false =>
    have hp := hp f2
    have ht := ht f2
    subst ht
    have hw : ∃ w, labelTests f = w ∧ w.testBit 2 = false ∧ w.testBit 5 = false ∧
        w.testBit 7 = false ∧ w.testBit 9 = false ∧ w.testBit 12 = false ∧
        w.testBit 13 = true ∧ w.testBit 14 = !(f.testBit 5) := by
      refine ⟨_, rfl, ?_⟩
      unfold labelTests
      rw [f2, f6]
      cases f.testBit 5 <;> decide
    obtain ⟨w, hw, b2, b5, b7, b9, b12, b13, b14⟩ := hw
    rw [hw]
    intro e h
    cases h with
    | nfc _ h => rw [hv.nfc] at h; cases h
    | notNfc t _ h h' => rw [hv.nfc] at h; cases h; exact h' rfl
    | twoHyphen _ h h' => exact hv.hyphens ⟨h, h'⟩
    | hyphenStartEnd h => rw [b2] at h; cases h
    | leadingCombining c _ h h' => rw [hv.mark c h] at h'; cases h'
    | disallowed c h h1 h2 h3 =>
      rcases hp c h1 with h4 | ⟨h4, _, h5, _⟩
      · rcases h4 with h4 | h4 | h4 <;> rw [h2] at h4 <;> cases h4
      · exact h3 ⟨.inr b13, by rw [b14, h4]; rfl, .inl h5⟩
    | contextjAny c h => rw [b5] at h; cases h
    | contextj pos c _ h1 h2 h3 h4 => exact h4 (hv.joiners pos c h1 h3)
    | contextjNoRule c _ _ h h1 h2 =>
      rcases hR.contextj c h with h | h
      · exact h1 h
      · exact h2 h
    | contextoAny c h => rw [b7] at h; cases h
    | contextoNoRule c _ _ h h' => exact h' (hR.contexto c h)
    | contexto _ c h => rw [b9] at h; cases h
    | unassigned c _ h1 h2 =>
      rcases hp c h1 with h4 | ⟨_, h4, _⟩
      · rcases h4 with h4 | h4 | h4 <;> rw [h2] at h4 <;> cases h4
      · rw [h2] at h4; cases h4
    | bidi _ h => exact h hb
    | dotInLabel _ h => exact hv.dot h
    | invalidTransitional c h => rw [b12] at h; cases h
    | invalidNontransitional c _ _ h1 h2 =>
      rw [b14] at h2
      exact h2 (tr46Valid_status (hv.chars c h1))

theorem permitted_LDHU (hD : D.Laws) {std3 : Bool} {c : Nat} (h : Uts46.Permitted D std3 c)
    (hc : c < 0x80) : isLDHU c := by
  rcases h with h | ⟨_, _, _, h⟩
  · refine Classical.byContradiction fun hn => ?_
    have hl : ¬ isLowerLDH c := fun h => hn (by unfold isLowerLDH at h; unfold isLDHU; omega)
    have hu : ¬ (0x41 ≤ c ∧ c ≤ 0x5A) := fun h => hn (by unfold isLDHU; omega)
    have := (hD.other c hc hl (idna2008_ne_dot hD h) hu).2
    rcases h with h | h | h <;> rw [this] at h <;> cases h
  · exact h hc

/-! ### Completeness -/

theorem ace_ascii {v : List Nat} (h : ∀ c ∈ v, c < 0x80) : Uts46.ace v = v := by
  unfold Uts46.ace; rw [if_pos h]

theorem ace_nonascii {v : List Nat} (h : ∃ c ∈ v, 0x80 ≤ c) :
    Uts46.ace v = xn ++ Punycode.encode v := by
  unfold Uts46.ace
  rw [if_neg]
  intro h'
  obtain ⟨c, hc, hn⟩ := h
  have := h' c hc
  omega

theorem not_ascii {v : List Nat} (h : ¬ ∀ c ∈ v, c < 0x80) : ∃ c ∈ v, 0x80 ≤ c := by
  refine Classical.byContradiction fun hn => h fun c hc => ?_
  have : ¬ 0x80 ≤ c := fun h => hn ⟨c, hc, h⟩
  omega

theorem extra_LDHU (hD : D.Laws) {tr std3 : Bool} {vs : List (List Nat)}
    (hx : Uts46.Extra D tr std3 vs) {v : List Nat} (hv : v ∈ vs) (hn : ∃ c ∈ v, 0x80 ≤ c) :
    ∀ c ∈ v, c < 0x80 → isLDHU c := by
  intro c hc h
  have := hx v hv hn c hc
  split at this
  · exact this h
  · exact permitted_LDHU hD this h

theorem converted_to (hD : D.Laws) (hR : Ruled D) {f : Nat} (f6 : f.testBit 6 = false)
    (f7 : f.testBit 7 = false) {vs : List (List Nat)}
    (hx : Uts46.Extra D (f.testBit 2) (f.testBit 5) vs) (hb : BidiNameRule U vs)
    {l v : List Nat} (hv : v ∈ vs) (h63 : (Uts46.ace v).length ≤ 63)
    (h : Uts46.Converted D U (f.testBit 2) (f.testBit 5) l v) :
    Tr46Label D U f l ∧ LabelTo D U f l (Uts46.ace v) := by
  have hp : (∃ c ∈ v, 0x80 ≤ c) → f.testBit 2 = false →
      ∀ c ∈ v, Uts46.Permitted D (f.testBit 5) c := by
    intro hn f2 c hc
    have := hx v hv hn c hc
    rwa [if_neg (by rw [f2]; decide)] at this
  cases h with
  | alabel t _ h1 h2 h3 =>
    have hn := h2.nonascii
    rw [ace_nonascii hn] at h63 ⊢
    have hlen := congrArg List.length h2.digits
    rw [List.length_map, List.length_map] at hlen
    rw [List.length_append] at h63
    have hxn : xn.length = 4 := rfl
    have hd := punycodes_decodes h2 (extra_LDHU hD hx hv hn) (by omega)
    exact ⟨.alabel t v h1 hd (valid_free (bits46A f) h3),
      .alabel t v f7 h1 hd h2.scalar
        (valid_tests hR f6 (fun _ => rfl) h3 (hp hn) (bidiAccepted_of hb hv)) h2.digits (by omega)⟩
  | ulabel h1 h2 =>
    refine ⟨.ulabel h1 (valid_free (bits46 f) h2), ?_⟩
    by_cases ha : ∀ c ∈ l, c < 0x80
    · rw [ace_ascii ha] at h63 ⊢
      exact .ascii ha (fun h => h1 h.2) h63
    · have hn := not_ascii ha
      rw [ace_nonascii hn] at h63 ⊢
      rw [List.length_append] at h63
      have hxn : xn.length = 4 := rfl
      exact .ulabel hn (valid_tests hR f6 (fun h => h) h2 (hp hn) (bidiAccepted_of hb hv))
        (fun _ => extra_LDHU hD hx hv hn) (by omega)

theorem mem_noRoot {ds : List (List Nat)} {d : List Nat} (hd : d ∈ ds) :
    d = [] ∨ d ∈ Uts46.noRoot ds := by
  unfold Uts46.noRoot
  split
  · rename_i h
    obtain ⟨as, rfl⟩ := List.getLast?_eq_some_iff.mp h
    rw [List.dropLast_concat]
    simp at hd
    rcases hd with h | h
    · exact .inr h
    · exact .inl h
  · exact .inr hd

theorem joinDot_root {ds : List (List Nat)} (h : ds.getLast? = some []) (hn : ds ≠ [[]]) :
    (joinDot ds).length = (joinDot (Uts46.noRoot ds)).length + 1 := by
  obtain ⟨as, rfl⟩ := List.getLast?_eq_some_iff.mp h
  unfold Uts46.noRoot
  rw [if_pos h, List.dropLast_concat, joinDot_append (by rintro rfl; exact hn rfl) (by simp)]
  simp [joinDot]

theorem dnsLength_limit {ds : List (List Nat)} (h : Uts46.DnsLength ds) :
    (joinDot ds).length ≤ if ds.getLast? = some [] then 254 else 253 := by
  have h1 := h.name
  split
  · rename_i hl
    by_cases hn : ds = [[]]
    · subst hn; simp [joinDot]
    · rw [joinDot_root hl hn]; omega
  · rename_i hl
    unfold Uts46.noRoot at h1
    rw [if_neg hl] at h1
    exact h1.2

/-- C97, completeness: whatever ToASCII of UTS #46 gives for a name, lookup gives, provided the
labels have the code points that IDNA2008 wants and the mapped name has fewer than 255 code
points before it is normalised. -/
theorem C97_complete {E : Env} (W : World E D) (hR : Ruled D) {f : Nat} (hc : ¬ Conflict f)
    (f6 : f.testBit 6 = false) (f7 : f.testBit 7 = false) {u n : List Nat} {vs : List (List Nat)}
    (hs : ∀ c ∈ u, isScalar c) (h0 : 0 ∉ u)
    (h : Uts46.ToASCII D E.U (f.testBit 2) (f.testBit 5) u vs n)
    (hx : Uts46.Extra D (f.testBit 2) (f.testBit 5) vs)
    (hl : (u.flatMap (Uts46.mapOne D (f.testBit 2) (f.testBit 5))).length < 255) :
    LookupOk E f (utf8s u) n := by
  rw [lookupOk_toAscii W hs h0 (by rw [f6]; simp) hc]
  obtain ⟨⟨ha, ⟨x, hn, he⟩, hb⟩, rfl, hd⟩ := h
  have hm := mapAll_eq (D := D) (tr := f.testBit 2) (std3 := f.testBit 5) (u := u)
    fun h5 c hc => (status_disallowed.mp (ha c hc)).2 h5
  rw [hm] at hn hl
  have h63 : ∀ v ∈ vs, (Uts46.ace v).length ≤ 63 := by
    intro v hv
    rcases mem_noRoot (List.mem_map_of_mem (f := Uts46.ace) hv) with h | h
    · rw [h]; decide
    · exact (hd.label _ h).2
  have key : Each (fun l v => Tr46Label D E.U f l ∧ LabelTo D E.U f l (Uts46.ace v))
      (splitDot x) vs := by
    have := each_swap he
    exact each_swap (each_imp_mem this fun v hv l h =>
      converted_to W.data hR f6 f7 hx hb hv (h63 v hv) h)
  refine ⟨x, vs.map Uts46.ace, ?_, ?_, rfl, dnsLength_limit hd⟩
  · unfold Processed
    rw [if_neg (by rw [f6]; decide)]
    refine ⟨fun c hc => (status_disallowed.mp (ha c hc)).1, hl, hn, fun l hl => ?_⟩
    obtain ⟨v, _, h⟩ := each_mem_left key hl
    exact h.1
  · have := Spec.Each.imp (fun h => h.2) key
    exact each_swap (each_map_left (each_swap this))

/-- C97, completeness for names whose mapped form is normalised: no condition on the length
beside that of UTS #46. -/
theorem C97_complete_nfc {E : Env} (W : World E D) (hR : Ruled D) {f : Nat} (hc : ¬ Conflict f)
    (f6 : f.testBit 6 = false) (f7 : f.testBit 7 = false) {u n : List Nat} {vs : List (List Nat)}
    (hs : ∀ c ∈ u, isScalar c) (h0 : 0 ∉ u)
    (h : Uts46.ToASCII D E.U (f.testBit 2) (f.testBit 5) u vs n)
    (hx : Uts46.Extra D (f.testBit 2) (f.testBit 5) vs)
    (hn : E.U.nfc (u.flatMap (Uts46.mapOne D (f.testBit 2) (f.testBit 5))) =
      some (u.flatMap (Uts46.mapOne D (f.testBit 2) (f.testBit 5)))) :
    LookupOk E f (utf8s u) n := by
  refine C97_complete W hR hc f6 f7 hs h0 h hx ?_
  obtain ⟨⟨ha, ⟨x, hn', he⟩, hb⟩, rfl, hd⟩ := h
  rw [hn] at hn'
  injection hn' with hx'
  rw [hx']
  have hsx : ∀ c ∈ x, isScalar c := by
    have hm := mapAll_eq (D := D) (tr := f.testBit 2) (std3 := f.testBit 5) (u := u)
      fun h5 c hc => (status_disallowed.mp (ha c hc)).2 h5
    rw [← hx', hm]
    have := mapText_scalar W.data f hs
    unfold mapText at this
    rwa [(flag_bits f).2.2.1, (flag_bits f).2.2.2.2.1] at this
  have hle : ∀ l ∈ splitDot x, ∀ v, Uts46.Converted D E.U (f.testBit 2) (f.testBit 5) l v →
      l.length ≤ (Uts46.ace v).length := by
    intro l hl v h
    cases h with
    | alabel t _ h1 h2 _ =>
      have hlen := congrArg List.length h2.digits
      rw [List.length_map, List.length_map] at hlen
      rw [ace_nonascii h2.nonascii, h1, List.length_append, List.length_append]
      omega
    | ulabel =>
      by_cases ha : ∀ c ∈ l, c < 0x80
      · rw [ace_ascii ha]; exact Nat.le_refl _
      · rw [ace_nonascii (not_ascii ha), List.length_append]
        have := length_le_encode (scalar_lt fun c hc => hsx c (mem_of_mem_splitDot hl hc))
        omega
  have h1 := joinDot_length_le (each_swap (each_map_right (g := Uts46.ace)
    (each_imp_mem (S := fun l v => l.length ≤ (Uts46.ace v).length) he hle)))
  rw [joinDot_splitDot] at h1
  have h2 := dnsLength_limit hd
  split at h2 <;> omega

/-! ### Soundness -/

/-- What lookup has found out about the label `l` that stands for `v`. -/
inductive Looked (D : Data) (U : Uni) (f : Nat) (l v : List Nat) : Prop
  | alabel (t : List Nat) : l = xn ++ t → Uts46.Punycodes t v →
      (∀ e, ¬ Fault D U (tr46TestsA f) v e) → (∀ e, ¬ Fault D U (labelTests f) v e) →
      (∀ c ∈ v, c < 0x80 → isLDHU c) → Looked D U f l v
  | ulabel : ¬ xn <+: l → v = l → (∀ e, ¬ Fault D U (tr46Tests f) v e) →
      ((∃ c ∈ v, 0x80 ≤ c) → (∀ e, ¬ Fault D U (labelTests f) v e) ∧
        ∀ c ∈ v, c < 0x80 → isLDHU c) → Looked D U f l v

theorem label_looked {f : Nat} (f7 : f.testBit 7 = false) {l d : List Nat}
    (h : Tr46Label D U f l) (h' : LabelTo D U f l d) :
    ∃ v, Looked D U f l v ∧ d = Uts46.ace v ∧ d.length ≤ 63 := by
  cases h with
  | alabel t v h1 h2 h3 =>
    cases h' with
    | ascii _ h4 => exact absurd ⟨f7, ⟨t, h1.symm⟩⟩ h4
    | alabel t' v' _ h4 h5 h6 h7 h8 h9 =>
      have := List.append_cancel_left (h1.symm.trans h4)
      subst this
      have := h2.unique h5
      subst this
      have hlen := congrArg List.length h8
      rw [List.length_map, List.length_map] at hlen
      refine ⟨v, .alabel t h1 (decodes_punycodes h2 h6 h8) h3 h7 (encode_chars_LDHU h2 h8 h9), (ace_nonascii h2.nonascii).symm, ?_⟩
      rw [List.length_append]
      have hxn : xn.length = 4 := rfl
      omega
    | ulabel h4 => exact absurd (nonascii_xn h4 h1 h2) id
  | ulabel h1 h2 =>
    cases h' with
    | ascii h3 h4 h5 =>
      refine ⟨l, .ulabel h1 rfl h2 fun ⟨c, hc, hn⟩ => ?_,
        (ace_ascii h3).symm, h5⟩
      have := h3 c hc
      omega
    | alabel t' v' _ h4 => exact absurd ⟨t', h4.symm⟩ h1
    | ulabel h4 h5 h6 h7 =>
      refine ⟨l, .ulabel h1 rfl h2 fun _ => ⟨h5, h6 f7⟩,
        (ace_nonascii h4).symm, ?_⟩
      rw [List.length_append]
      have hxn : xn.length = 4 := rfl
      omega

theorem ace_eq_nil {v : List Nat} : Uts46.ace v = [] ↔ v = [] := by
  unfold Uts46.ace
  split
  · rfl
  · rename_i h
    constructor
    · intro h'; simp [xn] at h'
    · rintro rfl; exact absurd (by simp) h

theorem noRoot_map (vs : List (List Nat)) :
    Uts46.noRoot (vs.map Uts46.ace) = (Uts46.noRoot vs).map Uts46.ace := by
  unfold Uts46.noRoot
  have : (vs.map Uts46.ace).getLast? = some [] ↔ vs.getLast? = some [] := by
    rw [List.getLast?_map]
    cases vs.getLast? with
    | none => simp
    | some v => simp [ace_eq_nil]
  by_cases h : vs.getLast? = some []
  · rw [if_pos h, if_pos (this.mpr h), List.map_dropLast]
  · rw [if_neg h, if_neg (mt this.mp h)]

theorem mem_of_noRoot {ds : List (List Nat)} {d : List Nat} (h : d ∈ Uts46.noRoot ds) : d ∈ ds := by
  unfold Uts46.noRoot at h
  split at h
  · exact (List.dropLast_sublist ds).mem h
  · exact h

theorem joinDot_pos {ds : List (List Nat)} (hn : ds ≠ []) (h : ∀ d ∈ ds, 1 ≤ d.length) :
    1 ≤ (joinDot ds).length := by
  cases ds with
  | nil => exact absurd rfl hn
  | cons a r =>
    have := h a List.mem_cons_self
    cases r with
    | nil => exact this
    | cons b r => simp only [joinDot, List.length_append, List.length_cons]; omega

theorem each_map_eq {α β : Type} {R : α → β → Prop} {g : α → β} {as : List α} {bs : List β}
    (h : Each R as bs) (hg : ∀ a b, R a b → b = g a) : bs = as.map g := by
  induction h with
  | nil => rfl
  | cons h _ ih => rw [List.map_cons, ← ih, hg _ _ h]

/-- C97, soundness: under the side conditions a result of lookup is that of ToASCII of UTS #46,
and the labels have the code points that IDNA2008 wants. -/
theorem C97_sound_partial {E : Env} (W : World E D)
    (hJ : D.prop 0x200C = .contextj ∧ D.prop 0x200D = .contextj) {f : Nat}
    (f6 : f.testBit 6 = false) (f7 : f.testBit 7 = false) {u n : List Nat}
    (hs : ∀ c ∈ u, isScalar c) (h0 : 0 ∉ u) (h : LookupOk E f (utf8s u) n)
    (hin : f.testBit 5 = true → ∀ c ∈ u, ¬ Std3 D c)
    (hside : ∀ vs, Uts46.Names D E.U (f.testBit 2) (f.testBit 5) u vs →
      Uts46.Side D E.U (f.testBit 2) (f.testBit 5) vs) :
    ∃ vs, Uts46.ToASCII D E.U (f.testBit 2) (f.testBit 5) u vs n ∧
      Uts46.Extra D (f.testBit 2) (f.testBit 5) vs := by
  have hc : ¬ Conflict f := by
    have := (C48_lookup_spec W (zero_mem_utf8s h0) (by rw [f6]; simp)).mp h
    exact this.1
  rw [lookupOk_toAscii W hs h0 (by rw [f6]; simp) hc] at h
  obtain ⟨x, ds, h1, h2, rfl, hlen⟩ := h
  unfold Processed at h1
  rw [if_neg (by rw [f6]; decide)] at h1
  obtain ⟨p1, p2, p3, p4⟩ := h1
  obtain ⟨bs, k1, k2⟩ := each_choose (P := Looked D E.U f)
    (Q := fun v d => d = Uts46.ace v ∧ d.length ≤ 63) h2 fun l hl d h =>
      label_looked f7 (p4 l hl) h
  have hside := hside bs ⟨x, by rw [mapAll_eq hin]; exact p3, k1.imp fun h => by
    rcases h with ⟨t, a1, a2, _⟩ | ⟨a1, rfl, _⟩
    · exact .alabel t _ a1 a2
    · exact .ulabel a1⟩
  have hds : ds = bs.map Uts46.ace := each_map_eq k2 fun _ _ h => h.1
  have hjoin : ∀ v ∈ bs, ((∃ c ∈ v, 0x80 ≤ c) → ∀ e, ¬ Fault D E.U (labelTests f) v e) →
      ∀ pos c, v[pos]? = some c → c = 0x200C ∨ c = 0x200D → ContextJ E.U v pos c := by
    intro v hv hf pos c hp hcj
    cases f2 : f.testBit 2 with
    | true => exact hside.joiners f2 v hv pos c hp hcj
    | false =>
      have hm := List.mem_of_getElem? hp
      refine Classical.byContradiction fun hn =>
        hf ⟨c, hm, by omega⟩ _ (.contextj pos c ?_ hp ?_ hcj hn)
      · unfold labelTests
        rw [f2, f6]
        cases f.testBit 5 <;> decide
      · rcases hcj with rfl | rfl
        · exact hJ.1
        · exact hJ.2
  have hperm : ∀ v ∈ bs, (∀ e, ¬ Fault D E.U (labelTests f) v e) →
      (∀ c ∈ v, c < 0x80 → isLDHU c) → ∀ c ∈ v,
      if f.testBit 2 then c < 0x80 → isLDHU c else Uts46.Permitted D (f.testBit 5) c := by
    intro v hv hf hl c hc
    cases f2 : f.testBit 2 with
    | true => exact hl c hc
    | false =>
      have hw : ∃ w, labelTests f = w ∧ w.testBit 4 = true ∧ w.testBit 10 = true ∧
          w.testBit 14 = !(f.testBit 5) := by
        refine ⟨_, rfl, ?_⟩
        unfold labelTests
        rw [f2, f6]
        cases f.testBit 5 <;> decide
      obtain ⟨w, hw, b4, b10, b14⟩ := hw
      rw [hw] at hf
      cases hp : D.prop c with
      | pvalid => exact .inl (.inl hp)
      | contextj => exact .inl (.inr (.inl hp))
      | contexto => exact .inl (.inr (.inr hp))
      | unassigned => exact absurd (Fault.unassigned c b10 hc hp) (hf _)
      | disallowed =>
        refine .inr ?_
        have := Classical.byContradiction fun hn => hf _ (Fault.disallowed c b4 hc hp hn)
        obtain ⟨_, h14, h15⟩ := this
        rw [b14] at h14
        have h5 : f.testBit 5 = false := by simpa using h14
        refine ⟨h5, hp, ?_, hl c hc⟩
        rcases h15 with h | h
        · exact h
        · exact absurd h (hside.mapped h5 v hv c hc)
  refine ⟨bs, ⟨⟨fun c hc => status_disallowed.mpr ⟨p1 c hc, fun h5 => hin h5 c hc⟩,
    ⟨x, ?_, ?_⟩, hside.bidi⟩, by rw [hds], ?_⟩, ?_⟩
  · rw [mapAll_eq hin]; exact p3
  · refine each_swap (each_imp_mem (each_swap k1) fun v hv l h => ?_)
    rcases h with ⟨t, a1, a2, a3, a4, _⟩ | ⟨a1, a2, a3, a4⟩
    · exact .alabel t v a1 a2 (free_valid (bits46A f) a3 (fun h5 => hside.mapped h5 v hv)
        (hjoin v hv fun _ => a4))
    · subst a2
      exact .ulabel a1 (free_valid (bits46 f) a3 (fun h5 => hside.mapped h5 v hv)
        (hjoin v hv fun hn => (a4 hn).1))
  · have hl : ∀ d ∈ Uts46.noRoot (bs.map Uts46.ace), 1 ≤ d.length ∧ d.length ≤ 63 := by
      intro d hd
      constructor
      · rw [noRoot_map] at hd
        obtain ⟨v, hv, rfl⟩ := List.mem_map.mp hd
        have := mt ace_eq_nil.mp (hside.labels.2 v hv)
        exact List.length_pos_iff.mpr this
      · have := mem_of_noRoot hd
        rw [← hds] at this
        obtain ⟨v, _, h⟩ := each_mem_right k2 this
        exact h.2
    have hne : Uts46.noRoot (bs.map Uts46.ace) ≠ [] := by
      rw [noRoot_map]; simpa using hside.labels.1
    refine ⟨hl, joinDot_pos hne fun d hd => (hl d hd).1, ?_⟩
    rw [hds] at hlen
    split at hlen
    · rename_i hr
      rw [joinDot_root hr (by intro h; rw [h] at hne; exact hne rfl)] at hlen
      omega
    · rename_i hr
      unfold Uts46.noRoot
      rw [if_neg hr]
      exact hlen
  · intro v hv hn
    obtain ⟨l, _, h⟩ := each_mem_right k1 hv
    rcases h with ⟨t, a1, a2, a3, a4, a5⟩ | ⟨a1, a2, a3, a4⟩
    · exact hperm v hv a4 a5
    · exact hperm v hv (a4 hn).1 (a4 hn).2

end Idn2
