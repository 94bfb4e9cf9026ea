import Verif.Props.ConformNot
import Verif.Props.UniCompose
import Verif.Props.Stable

/-
Property C98: to-unicode is ToUnicode of UTS #46 on names that are mapped already; in particular
on the results of ToASCII.
-/

namespace Idn2
open Spec

variable {D : Data} {U : Uni}

theorem lower_hyphen {c : Nat} (h : asciiLower c = 0x2D) : c = 0x2D := by
  unfold asciiLower at h
  split at h <;> omega

/-- A label that begins with "xn--" in any case has hyphens in the third and fourth position. -/
theorem xnPrefix_hyphens {l : List Nat} (h : XnPrefix l) :
    l[2]? = some 0x2D ∧ l[3]? = some 0x2D := by
  unfold XnPrefix at h
  match l, h with
  | [], h | [_], h | [_, _], h | [_, _, _], h => simp at h
  | a :: b :: c :: d :: r, h =>
    simp at h
    exact ⟨by simp [lower_hyphen h.2.2.1], by simp [lower_hyphen h.2.2.2]⟩

theorem xnPrefix_of_xn {l : List Nat} (h : xn <+: l) : XnPrefix l := by
  obtain ⟨t, rfl⟩ := h
  rfl

/-- A label that is processed without error is shown as the same by to-unicode. -/
theorem converted_from {std3 : Bool} {l v x : List Nat} (hs : ∀ c ∈ l, isScalar c)
    (hA : xn <+: l → l.length ≤ 63 ∧ ∀ c ∈ l, isLDHU c)
    (h : Uts46.Converted D U false std3 l v) :
    LabelFrom (utf8s l) x ↔ x = v ∧ l.length ≤ 63 := by
  cases h with
  | alabel t v h1 h2 h3 =>
    obtain ⟨a1, a2⟩ := hA ⟨t, h1.symm⟩
    have hx := xnPrefix_of_xn ⟨t, h1.symm⟩
    have ht : ∀ c ∈ t, isLDHU c := fun c hc => a2 c (by rw [h1]; simp [hc])
    have h59 : t.length ≤ 59 := by rw [h1] at a1; simp [xn] at a1; omega
    have hd := punycodes_decodes h2 (punycodes_LDHU h2 ht) h59
    have hu : utf8s l = l := ascii_utf8s fun c hc => by have := a2 c hc; unfold isLDHU at this; omega
    have hdr : l.drop 4 = t := by rw [h1]; rfl
    rw [hu]
    constructor
    · intro h
      cases h with
      | alabel _ h => rw [hdr] at h; exact ⟨h.unique hd, a1⟩
      | plain h => exact absurd hx h
    · rintro ⟨rfl, _⟩
      exact .alabel _ hx (by rw [hdr]; exact hd)
  | ulabel h1 h2 =>
    have hx : ¬ XnPrefix (utf8s l) := fun h => h2.hyphens (xnPrefix_hyphens (xnPrefix_utf8s h))
    constructor
    · intro h
      cases h with
      | alabel h => exact absurd h hx
      | plain _ h3 h4 h5 =>
        have := utf8s_inj hs h3 h4
        subst this
        exact ⟨rfl, h5⟩
    · rintro ⟨rfl, h⟩
      exact .plain _ hx hs rfl h

/-- C98: on a name that is mapped and normalised, whose A-labels have the form of host names, and
that UTS #46 processes without error, to-unicode gives what ToUnicode of UTS #46 gives, unless
that is longer than 255, or a label is longer than 63. -/
theorem C98_agree {std3 : Bool} {u v w : List Nat} (hs : ∀ c ∈ u, isScalar c)
    (hm : Uts46.Mapped D U std3 u) (hA : Uts46.HostALabels u)
    (h : Uts46.ToUnicode D U std3 u w) :
    ToUniOk (utf8s u) v ↔ v = w ∧ w.length ≤ 255 ∧ ∀ l ∈ splitDot u, l.length ≤ 63 := by
  obtain ⟨vs, ⟨_, ⟨x, hx, he⟩, _⟩, rfl⟩ := h
  rw [hm] at hx
  injection hx with hx
  subst hx
  have hsl : ∀ l ∈ splitDot u, ∀ c ∈ l, isScalar c :=
    fun l hl c hc => hs c (mem_of_mem_splitDot hl hc)
  rw [C49_to_unicode_spec]
  unfold ToUnicode
  rw [splitDot_utf8s hs]
  simp only [each_map_iff]
  constructor
  · rintro ⟨xs, h1, rfl, h3⟩
    have key : ∀ {ls vs xs : List (List Nat)}, (∀ l ∈ ls, ∀ c ∈ l, isScalar c) →
        (∀ l ∈ ls, xn <+: l → l.length ≤ 63 ∧ ∀ c ∈ l, isLDHU c) →
        Each (Uts46.Converted D U false std3) ls vs → Each (fun l x => LabelFrom (utf8s l) x) ls xs →
        xs = vs ∧ ∀ l ∈ ls, l.length ≤ 63 := by
      intro ls vs xs k1 k2 k3 k4
      induction k3 generalizing xs with
      | nil => cases k4; exact ⟨rfl, by simp⟩
      | cons h _ ih =>
        cases k4 with
        | cons a b =>
          obtain ⟨rfl, e⟩ := (converted_from (k1 _ List.mem_cons_self) (k2 _ List.mem_cons_self) h).mp a
          obtain ⟨rfl, e'⟩ := ih (fun l hl => k1 l (List.mem_cons_of_mem _ hl))
            (fun l hl => k2 l (List.mem_cons_of_mem _ hl)) b
          refine ⟨rfl, fun l hl => ?_⟩
          rcases List.mem_cons.mp hl with rfl | hl
          · exact e
          · exact e' l hl
    obtain ⟨rfl, h4⟩ := key hsl hA he h1
    exact ⟨rfl, h3, h4⟩
  · rintro ⟨rfl, h2, h3⟩
    exact ⟨vs, each_imp_mem he fun l hl v h =>
      (converted_from (hsl l hl) (hA l hl) h).mpr ⟨rfl, h3 l hl⟩, rfl, h2⟩

/-! ### The results of ToASCII -/

theorem ascii_status (hD : D.Laws) {tr std3 : Bool} {c : Nat} (hc : c < 0x80)
    (h : Uts46.status D std3 c = .valid ∨ (tr = false ∧ Uts46.status D std3 c = .deviation)) :
    Uts46.status D std3 c = .valid := by
  rcases h with h | ⟨_, h⟩
  · exact h
  · exfalso
    unfold Uts46.status at h
    by_cases h1 : isLowerLDH c
    · rw [(hD.ldh c h1).1] at h; cases h
    · by_cases h2 : c = 0x2E
      · rw [h2, hD.dot.1] at h; cases h
      · by_cases h3 : 0x41 ≤ c ∧ c ≤ 0x5A
        · rw [(hD.upper c h3.1 h3.2).1] at h; cases h
        · rw [(hD.other c hc h1 h2 h3).1] at h
          cases std3 <;> cases h

theorem status_ldh (hD : D.Laws) {std3 : Bool} {c : Nat} (h : isLowerLDH c) :
    Uts46.status D std3 c = .valid := by
  unfold Uts46.status; rw [(hD.ldh c h).1]

/-- The characters of an A-label, or an ASCII label, of a valid label are valid. -/
theorem ace_status (hD : D.Laws) {tr std3 : Bool} {v : List Nat}
    (hv : Uts46.Valid D U tr std3 v) :
    ∀ c ∈ Uts46.ace v, c < 0x80 ∧ c ≠ 0x2E ∧ Uts46.status D std3 c = .valid := by
  intro c hc
  unfold Uts46.ace at hc
  split at hc
  · rename_i ha
    exact ⟨ha c hc, fun h => hv.dot (h ▸ hc), ascii_status hD (ha c hc) (hv.chars c hc)⟩
  · rw [List.mem_append] at hc
    have ldh : isLowerLDH c → c < 0x80 ∧ c ≠ 0x2E ∧ Uts46.status D std3 c = .valid := fun h =>
      ⟨by unfold isLowerLDH at h; omega, by unfold isLowerLDH at h; omega, status_ldh hD h⟩
    rcases hc with hc | hc
    · apply ldh
      simp [xn] at hc
      unfold isLowerLDH; omega
    · rcases encode_mem hc with ⟨h1, h2⟩ | h
      · exact ⟨h2, fun h => hv.dot (h ▸ h1), ascii_status hD h2 (hv.chars c h1)⟩
      · exact ldh h

theorem valid_nontransitional {tr std3 : Bool} {v : List Nat} (hv : Uts46.Valid D U tr std3 v) :
    Uts46.Valid D U false std3 v :=
  ⟨hv.nfc, hv.hyphens, hv.edges, hv.dot, hv.mark, fun c hc =>
    (hv.chars c hc).imp id fun h => ⟨rfl, h.2⟩, hv.joiners⟩

/-- The result of the conversion to ASCII labels is processed to the same labels. -/
theorem converted_ace {tr std3 : Bool} {v : List Nat} (hs : ∀ c ∈ v, isScalar c)
    (hv : Uts46.Valid D U tr std3 v) : Uts46.Converted D U false std3 (Uts46.ace v) v := by
  by_cases ha : ∀ c ∈ v, c < 0x80
  · rw [ace_ascii ha]
    exact .ulabel (fun h => hv.hyphens (xnPrefix_hyphens (xnPrefix_of_xn h))) (valid_nontransitional hv)
  · have hn := not_ascii ha
    rw [ace_nonascii hn]
    exact .alabel _ _ rfl ⟨hs, hn, ⟨_, rfl⟩, rfl⟩ (valid_nontransitional hv)

theorem mapOne_valid {std3 : Bool} {c : Nat} (h : Uts46.status D std3 c = .valid) :
    Uts46.mapOne D false std3 c = [c] := by
  unfold Uts46.mapOne; rw [h]

theorem processing_valid {tr std3 : Bool} {u : List Nat} {vs : List (List Nat)}
    (hD : D.Laws) (hU : U.Laws) (hs : ∀ c ∈ u, isScalar c)
    (h : Uts46.Processing D U tr std3 u vs) :
    vs ≠ [] ∧ ∀ v ∈ vs, (∀ c ∈ v, isScalar c) ∧ ∃ tr', Uts46.Valid D U tr' std3 v := by
  obtain ⟨_, ⟨x, hx, he⟩, _⟩ := h
  have hxs : ∀ c ∈ x, isScalar c := by
    refine hU.nfc_scalar _ _ (fun c hc => ?_) hx
    obtain ⟨d, hd, hc⟩ := List.mem_flatMap.mp hc
    unfold Uts46.mapOne at hc
    split at hc
    · exact (hD.mapping _ _ hc).2
    · cases hc
    · split at hc
      · exact (hD.mapping _ _ hc).2
      · rw [List.mem_singleton] at hc; exact hc ▸ hs d hd
    · rw [List.mem_singleton] at hc; exact hc ▸ hs d hd
  constructor
  · rintro rfl
    have := splitDot_ne_nil x
    generalize splitDot x = ls at he this
    cases he
    exact this rfl
  · intro v hv
    obtain ⟨l, hl, h⟩ := each_mem_right he hv
    cases h with
    | alabel t _ _ h2 h3 => exact ⟨h2.scalar, _, h3⟩
    | ulabel _ h => exact ⟨fun c hc => hxs c (mem_of_mem_splitDot hl hc), _, h⟩

/-- The conversion to ASCII of a processed name is mapped already, and is processed to the same
labels. -/
theorem processing_ace {tr std3 : Bool} {u : List Nat} {vs : List (List Nat)}
    (hD : D.Laws) (hU : U.Laws) (hs : ∀ c ∈ u, isScalar c)
    (h : Uts46.Processing D U tr std3 u vs) :
    splitDot (joinDot (vs.map Uts46.ace)) = vs.map Uts46.ace ∧
      (∀ c ∈ joinDot (vs.map Uts46.ace), c < 0x80) ∧
      Uts46.Mapped D U std3 (joinDot (vs.map Uts46.ace)) ∧
      Uts46.Processing D U false std3 (joinDot (vs.map Uts46.ace)) vs := by
  obtain ⟨hne, hv⟩ := processing_valid hD hU hs h
  have hc : ∀ c ∈ joinDot (vs.map Uts46.ace), c < 0x80 ∧ Uts46.status D std3 c = .valid := by
    intro c hc
    rcases mem_joinDot hc with rfl | ⟨d, hd, hc⟩
    · exact ⟨by decide, by unfold Uts46.status; rw [hD.dot.1]⟩
    · obtain ⟨v, hm, rfl⟩ := List.mem_map.mp hd
      obtain ⟨_, tr', h'⟩ := hv v hm
      have := ace_status hD h' c hc
      exact ⟨this.1, this.2.2⟩
  have hsp : splitDot (joinDot (vs.map Uts46.ace)) = vs.map Uts46.ace := by
    apply splitDot_joinDot (by simpa using hne)
    intro d hd h
    obtain ⟨v, hm, rfl⟩ := List.mem_map.mp hd
    obtain ⟨_, tr', h'⟩ := hv v hm
    exact (ace_status hD h' _ h).2.1 rfl
  have hmap : Uts46.Mapped D U std3 (joinDot (vs.map Uts46.ace)) := by
    unfold Uts46.Mapped
    rw [flatMap_self fun c h => mapOne_valid (hc c h).2]
    exact hU.nfc_ascii _ fun c h => (hc c h).1
  refine ⟨hsp, fun c h => (hc c h).1, hmap, fun c h => by rw [(hc c h).2]; simp, ⟨_, hmap, ?_⟩, h.bidi⟩
  rw [hsp, each_map_iff]
  have : ∀ {vs : List (List Nat)}, (∀ v ∈ vs, (∀ c ∈ v, isScalar c) ∧ ∃ tr', Uts46.Valid D U tr' std3 v) →
      Each (fun a b => Uts46.Converted D U false std3 (Uts46.ace a) b) vs vs := by
    intro vs hv
    induction vs with
    | nil => exact .nil
    | cons v vs ih =>
      obtain ⟨h1, tr', h2⟩ := hv v List.mem_cons_self
      exact .cons (converted_ace h1 h2) (ih fun x hx => hv x (List.mem_cons_of_mem _ hx))
  exact this hv

/-- C98: to-unicode of the result of ToASCII of UTS #46 is ToUnicode of UTS #46 of that result: the
labels that the name stands for.  The condition says that the labels that are not ASCII have no
ASCII characters but letters, digits, hyphens and underscores. -/
theorem C98_back {tr std3 : Bool} {u n : List Nat} {vs : List (List Nat)}
    (hD : D.Laws) (hU : U.Laws) (hs : ∀ c ∈ u, isScalar c)
    (h : Uts46.ToASCII D U tr std3 u vs n)
    (hl : ∀ v ∈ vs, (∃ c ∈ v, 0x80 ≤ c) → ∀ c ∈ v, c < 0x80 → isLDHU c) :
    Uts46.ToUnicode D U std3 n (joinDot vs) ∧ ToUniOk n (joinDot vs) := by
  obtain ⟨hp, rfl, hd⟩ := h
  obtain ⟨h1, h2, h3, h4⟩ := processing_ace hD hU hs hp
  obtain ⟨_, hv⟩ := processing_valid hD hU hs hp
  have hu : Uts46.ToUnicode D U std3 (joinDot (vs.map Uts46.ace)) (joinDot vs) := ⟨vs, h4, rfl⟩
  refine ⟨hu, ?_⟩
  have h63 : ∀ l ∈ vs.map Uts46.ace, l.length ≤ 63 := by
    intro l hl
    rcases mem_noRoot hl with rfl | h
    · decide
    · exact (hd.label l h).2
  have hA : Uts46.HostALabels (joinDot (vs.map Uts46.ace)) := by
    intro l hm hx
    rw [h1] at hm
    refine ⟨h63 l hm, fun c hc => ?_⟩
    obtain ⟨v, hvm, rfl⟩ := List.mem_map.mp hm
    obtain ⟨_, tr', h'⟩ := hv v hvm
    by_cases ha : ∀ c ∈ v, c < 0x80
    · rw [ace_ascii ha] at hx
      exact absurd (xnPrefix_hyphens (xnPrefix_of_xn hx)) h'.hyphens
    · have hn := not_ascii ha
      rw [ace_nonascii hn, List.mem_append] at hc
      rcases hc with hc | hc
      · simp [xn] at hc
        unfold isLDHU; omega
      · exact encode_LDHU (hl v hvm hn) c hc
  have hlen : (joinDot vs).length ≤ (joinDot (vs.map Uts46.ace)).length := by
    have : ∀ {vs : List (List Nat)}, (∀ v ∈ vs, ∀ c ∈ v, isScalar c) →
        (joinDot vs).length ≤ (joinDot (vs.map Uts46.ace)).length := by
      intro vs hv
      have one : ∀ v, (∀ c ∈ v, isScalar c) → v.length ≤ (Uts46.ace v).length := by
        intro v hv
        unfold Uts46.ace
        split
        · exact Nat.le_refl _
        · rw [List.length_append]
          have := length_le_encode (scalar_lt hv)
          omega
      induction vs with
      | nil => exact Nat.le_refl _
      | cons a r ih =>
        have h1 := one a (hv a List.mem_cons_self)
        have h2 := ih fun v h => hv v (List.mem_cons_of_mem _ h)
        cases r with
        | nil => exact h1
        | cons b r =>
          simp only [joinDot, List.map_cons, List.length_append, List.length_cons] at h2 ⊢
          omega
    exact this fun v hm => (hv v hm).1
  have hlim := dnsLength_limit hd
  have h255 : (joinDot vs).length ≤ 255 := by
    refine Nat.le_trans hlen (Nat.le_trans hlim ?_)
    split <;> decide
  have := (C98_agree (fun c hc => ?_) h3 hA hu).mpr ⟨rfl, h255, fun l hm => h63 l (h1 ▸ hm)⟩
  · rwa [ascii_utf8s h2] at this
  · have := h2 c hc
    unfold isScalar; omega

/-- C98: what lookup gives for a name is shown by to-unicode as UTS #46 says. -/
theorem C98_lookup_partial {E : Env} (W : World E D)
    (hJ : D.prop 0x200C = .contextj ∧ D.prop 0x200D = .contextj) {f : Nat}
    (f6 : f.testBit 6 = false) (f7 : f.testBit 7 = false) {u n : List Nat}
    (hs : ∀ c ∈ u, isScalar c) (h0 : 0 ∉ u) (h : LookupOk E f (utf8s u) n)
    (hin : f.testBit 5 = true → ∀ c ∈ u, ¬ Std3 D c)
    (hside : ∀ vs, Uts46.Names D E.U (f.testBit 2) (f.testBit 5) u vs →
      Uts46.Side D E.U (f.testBit 2) (f.testBit 5) vs) :
    ∃ vs, Uts46.Processing D E.U (f.testBit 2) (f.testBit 5) u vs ∧
      Uts46.ToUnicode D E.U (f.testBit 5) n (joinDot vs) ∧ ToUniOk n (joinDot vs) := by
  obtain ⟨vs, h1, h2⟩ := C97_sound_partial W hJ f6 f7 hs h0 h hin hside
  exact ⟨vs, h1.processing, C98_back W.data W.uni hs h1 fun v hv hn => extra_LDHU W.data h2 hv hn⟩

/-! ### Where they differ -/

/-- To-unicode does not map: "A" is shown as "A", by UTS #46 as "a". -/
theorem C98_violated_mapped :
    ToUniOk [0x41] [0x41] ∧
      ∀ v, Uts46.ToUnicode Sample.D Sample.U false [0x41] v ↔ v = [0x61] := by
  refine ⟨by decide +kernel, fun v => ⟨?_, ?_⟩⟩
  · rintro ⟨vs, ⟨_, ⟨x, hx, he⟩, _⟩, rfl⟩
    have hz : Sample.U.nfc ([0x41].flatMap (Uts46.mapOne Sample.D false false)) = some [0x61] := by
      decide +kernel
    have := hz.symm.trans hx
    injection this with this
    subst this
    rw [show splitDot [0x61] = [[0x61]] by decide] at he
    cases he with
    | cons a he =>
      cases he
      rw [converted_ulabel a (by decide)]
      rfl
  · rintro rfl
    refine ⟨[[0x61]], ⟨by decide +kernel, ⟨[0x61], by decide +kernel, ?_⟩,
      bidiName_ltr (by decide +kernel)⟩, rfl⟩
    rw [show splitDot [0x61] = [[0x61]] by decide]
    refine .cons (.ulabel (by decide) ⟨by decide +kernel, by decide, by decide, by decide, ?_, ?_, ?_⟩) .nil
    · intro c hc; cases hc; decide +kernel
    · decide +kernel
    · intro pos c hp hc
      have := List.mem_of_getElem? hp
      simp at this
      omega

/-- To-unicode does not validate: "-a" is shown, UTS #46 has an error. -/
theorem C98_violated_valid :
    ToUniOk [0x2D, 0x61] [0x2D, 0x61] ∧
      ∀ v, ¬ Uts46.ToUnicode Sample.D Sample.U false [0x2D, 0x61] v := by
  refine ⟨by decide +kernel, ?_⟩
  rintro v ⟨vs, ⟨_, ⟨x, hx, he⟩, _⟩, rfl⟩
  have hz : Sample.U.nfc ([0x2D, 0x61].flatMap (Uts46.mapOne Sample.D false false)) =
      some [0x2D, 0x61] := by decide +kernel
  have := hz.symm.trans hx
  injection this with this
  subst this
  rw [show splitDot [0x2D, 0x61] = [[0x2D, 0x61]] by decide] at he
  cases he with
  | cons a he =>
    cases a with
    | alabel t _ h => cases h
    | ulabel _ h => exact absurd rfl h.edges.1

theorem star_valid : Uts46.Valid Sample.D Sample.U false false [0x2A, 0xE4] := by
  refine ⟨by decide +kernel, by decide, by decide, by decide, ?_, by decide +kernel, ?_⟩
  · intro c hc; cases hc; decide +kernel
  · intro pos c hp hc
    have := List.mem_of_getElem? hp
    simp at this
    omega

theorem star_processing : Uts46.Processing Sample.D Sample.U false false [0x2A, 0xE4] [[0x2A, 0xE4]] := by
  refine ⟨by decide +kernel, ⟨[0x2A, 0xE4], by decide +kernel, ?_⟩, bidiName_ltr (by decide +kernel)⟩
  rw [show splitDot [0x2A, 0xE4] = [[0x2A, 0xE4]] by decide]
  exact .cons (.ulabel (by decide) star_valid) .nil

/-- To-unicode refuses A-labels with ASCII characters that no host name has, also without STD3
rules: the A-label of "*ä". -/
theorem C98_violated_star :
    Uts46.ToUnicode Sample.D Sample.U false (xn ++ Punycode.encode [0x2A, 0xE4]) [0x2A, 0xE4] ∧
      ∀ v, ¬ ToUniOk (xn ++ Punycode.encode [0x2A, 0xE4]) v := by
  have hp := processing_ace World.sample.data World.sample.uni (by decide) star_processing
  have ha : joinDot ([[0x2A, 0xE4]].map Uts46.ace) = xn ++ Punycode.encode [0x2A, 0xE4] :=
    ace_nonascii ⟨0xE4, by decide, by decide⟩
  rw [ha] at hp
  refine ⟨⟨_, hp.2.2.2, rfl⟩, fun v h => ?_⟩
  rw [C49_to_unicode_spec] at h
  obtain ⟨xs, he, _⟩ := h
  rw [hp.1] at he
  cases he with
  | cons a _ =>
    rw [ace_nonascii ⟨0xE4, by decide, by decide⟩] at a
    cases a with
    | alabel _ h =>
      have : 0x2A ∈ Punycode.encode [0x2A, 0xE4] := by
        rw [encode_eq_head]
        exact List.mem_append_left _ (by decide)
      exact absurd (h.chars 0x2A this) (by unfold isLDHU; omega)
    | plain h => exact h rfl

/-- To-unicode refuses labels of more than 63 characters, ToUnicode of UTS #46 does not. -/
theorem C98_violated_length :
    Uts46.ToUnicode Sample.D Sample.U false (List.replicate 64 0x61) (List.replicate 64 0x61) ∧
      ∀ v, ¬ ToUniOk (List.replicate 64 0x61) v := by
  have hv : Uts46.Valid Sample.D Sample.U false false (List.replicate 64 0x61) := by
    refine ⟨by decide +kernel, by decide +kernel, by decide +kernel, by decide, ?_, by decide +kernel, ?_⟩
    · intro c hc; cases hc; decide +kernel
    · intro pos c hp hc
      have := List.eq_of_mem_replicate (List.mem_of_getElem? hp)
      omega
  have hsp : splitDot (List.replicate 64 0x61) = [List.replicate 64 0x61] := by decide +kernel
  have hp : Uts46.Processing Sample.D Sample.U false false (List.replicate 64 0x61)
      [List.replicate 64 0x61] := by
    refine ⟨by decide +kernel, ⟨List.replicate 64 0x61, by decide +kernel, ?_⟩,
      bidiName_ltr (by decide +kernel)⟩
    rw [hsp]
    exact .cons (.ulabel (by decide) hv) .nil
  have hu : Uts46.ToUnicode Sample.D Sample.U false (List.replicate 64 0x61)
      (List.replicate 64 0x61) := ⟨_, hp, rfl⟩
  refine ⟨hu, fun v h => ?_⟩
  have h8 : utf8s (List.replicate 64 0x61) = List.replicate 64 0x61 := by decide +kernel
  rw [← h8] at h
  have := (C98_agree (by decide) (by unfold Uts46.Mapped; decide +kernel)
    (by intro l hl hx; rw [hsp] at hl; simp only [List.mem_singleton] at hl; subst hl
        exact absurd hx (by decide)) hu).mp h
  have := this.2.2 _ (by rw [hsp]; exact List.mem_singleton.mpr rfl)
  exact absurd this (by decide)

/-- "xn--zca" is shown as "ß", by UTS #46 and by the library. -/
example : Uts46.ToUnicode Sample.D Sample.U false (utf8s (xn ++ [0x7A, 0x63, 0x61])) [0xDF] ∧
    ToUniOk (utf8s (xn ++ [0x7A, 0x63, 0x61])) [0xDF] := by
  have hok : LookupOk Sample.E 0 (utf8s [0xDF]) (utf8s (xn ++ [0x7A, 0x63, 0x61])) := by decide +kernel
  obtain ⟨vs, h1, h2, h3⟩ := C98_lookup_partial World.sample (by decide +kernel) (f := 0) (by decide)
    (by decide) (by decide) (by decide) hok (by decide) (by
      rintro vs ⟨x, hx, he⟩
      have hz : Sample.E.U.nfc ([0xDF].flatMap (Uts46.mapOne Sample.D (Nat.testBit 0 2) (Nat.testBit 0 5))) =
          some [0xDF] := by decide +kernel
      have := hz.symm.trans hx
      injection this with this
      subst this
      rw [show splitDot [0xDF] = [[0xDF]] by decide] at he
      cases he with
      | cons a b =>
        cases b
        cases a with
        | alabel t _ h => cases h
        | ulabel =>
          exact ⟨by decide, bidiName_ltr (by decide +kernel), by decide +kernel,
            fun h => absurd h (by decide)⟩)
  have h4 : ToUniOk (utf8s (xn ++ [0x7A, 0x63, 0x61])) [0xDF] := by decide +kernel
  have : joinDot vs = [0xDF] := by
    have a := (ToUniOk_iff ..).mp h3
    have b := (ToUniOk_iff ..).mp h4
    rw [a] at b
    injection b
  rw [this] at h2
  exact ⟨h2, h4⟩

end Idn2
