import Verif.Props.Separators
import Verif.Props.Stable
import Verif.Proof.Uax15
import Verif.Spec.Text

/-
Property C106: where delimiters of URLs in a result come from.
-/

namespace Idn2
open Spec

variable {D : Data}

/-- What is no letter, digit or hyphen in a result comes from the processed name. -/
theorem labelTo_other {U : Uni} {f : Nat} {l d : List Nat} {c : Nat} (h : LabelTo D U f l d)
    (hc : c ∈ d) (hn : ¬ isLDHU c) : c ∈ l := by
  have hx : ∀ x ∈ xn, isLDHU x := by unfold isLDHU; decide
  cases h with
  | ascii => exact hc
  | alabel t u h1 h2 h3 h4 h5 h6 h7 =>
    rcases List.mem_append.mp hc with hc | hc
    · exact absurd (hx c hc) hn
    · refine absurd ?_ hn
      rcases encode_mem hc with h | h
      · exact encode_chars_LDHU h3 h6 h7 c h.1 h.2
      · unfold isLowerLDH at h
        unfold isLDHU
        omega
  | ulabel =>
    rcases List.mem_append.mp hc with hc | hc
    · exact absurd (hx c hc) hn
    · rcases encode_mem hc with h | h
      · exact h.1
      · refine absurd ?_ hn
        unfold isLowerLDH at h
        unfold isLDHU
        omega

/-- Normalisation does not bring in the character `d`. -/
def Uni.BringsIn (U : Uni) (d : Nat) : Prop := ∃ a b, d ∉ a ∧ U.nfc a = some b ∧ d ∈ b

/-- The data: delimiters are mapped from the characters of the list only, each of which is
disallowed under STD3 rules, and mapped to ASCII text otherwise. -/
structure DelimData (D : Data) : Prop where
  only : ∀ d ∈ genDelims, ∀ c, d ∈ D.mapping c → c ∈ delimSources d
  all : ∀ d ∈ genDelims, ∀ c ∈ delimSources d, D.status c = .std3Mapped ∧ d ∈ D.mapping c ∧
    ∀ x ∈ D.mapping c, x < 0x80 ∧ x ≠ 0x2D ∧ ¬ (0x41 ≤ x ∧ x ≤ 0x5A)

/-- The lines of the mapping table with a delimiter in the mapping are those of the list. -/
def delimCheck (rows : List MapRow) : Bool :=
  rows.all fun r => r.mapping.all fun x => !(genDelims.any fun d => Nat.beq d x) ||
    (Nat.beq r.first r.last && (delimSources x).contains r.first)

/-- The characters of the list, in order, as ranges. -/
def delimRanges : List (Nat × Nat) :=
  [0x2047, 0x2048, 0x2049, 0x2100, 0x2101, 0x2105, 0x2106, 0x2A74, 0xFE13, 0xFE16, 0xFE47, 0xFE48,
   0xFE55, 0xFE56, 0xFE5F, 0xFE6B, 0xFF03, 0xFF0F, 0xFF1A, 0xFF1F, 0xFF20, 0xFF3B, 0xFF3D].map
    fun c => (c, c)

/-- What a line about a character of the list says. -/
def delimRow (r : MapRow) (p : Nat × Nat) : Bool :=
  r.status == .std3Mapped &&
  genDelims.all (fun d => !((delimSources d).contains p.1) || r.mapping.contains d) &&
  r.mapping.all fun x => Nat.blt x 0x80 && !(Nat.beq x 0x2D) && !(Nat.ble 0x41 x && Nat.ble x 0x5A)

theorem Shipped.delimData : DelimData Shipped.D where
  only d hd c hc := by
    have h : delimCheck Shipped.map = true := by decide +kernel
    refine source_of_check (rows := Shipped.map) (csv := Shipped.csv) (qc := Shipped.qc) ?_ hc
    unfold delimCheck at h
    unfold sourceCheck
    rw [List.all_eq_true] at h ⊢
    intro r hr
    have h1 := h r hr
    rw [List.all_eq_true] at h1
    by_cases hm : d ∈ r.mapping
    · have h2 := h1 d hm
      have hany : (genDelims.any fun e => Nat.beq e d) = true :=
        List.any_eq_true.mpr ⟨d, hd, by rw [Nat.beq_eq]⟩
      rw [hany] at h2
      rw [show r.mapping.contains d = true by simpa using hm]
      exact h2
    · rw [show r.mapping.contains d = false by simpa using hm]
      rfl
  all d hd c hc := by
    have hF := Shipped.files_ok
    have hw : walk (fun r : MapRow => (r.first, r.last)) id delimRow 12000 Shipped.map delimRanges =
      true := by decide +kernel
    have hr : ∀ d ∈ genDelims, ∀ c ∈ delimSources d, (c, c) ∈ delimRanges := by decide +kernel
    have hso : delimRanges.Pairwise fun x y => x.2 < y.1 := by decide +kernel
    have hle : ∀ r ∈ delimRanges, r.1 ≤ 0x10FFFF := by decide +kernel
    have hm := hr d hd c hc
    obtain ⟨b, hb, hbc⟩ := hF.mapCover c (hle _ hm)
    have e := find_unique (fun r : MapRow => (r.first, r.last))
      (hF.rowsSorted.imp fun h => Or.inl h) hb (c := c) hbc
    simp only [] at e
    have e1 : Shipped.D.status c = b.status := by simp only [Shipped.D, dataOf, e]
    have e2 : Shipped.D.mapping c = b.mapping := by simp only [Shipped.D, dataOf, e]
    have := walk_ok _ _ _ _ _ _ hw hF.rowsSorted hso hb hm hbc ⟨Nat.le_refl c, Nat.le_refl c⟩
    simp only [delimRow, Bool.and_eq_true, beq_iff_eq, List.all_eq_true, Bool.or_eq_true,
      Bool.not_eq_true', List.contains_eq_mem, decide_eq_false_iff_not, decide_eq_true_eq,
      Bool.and_eq_false_iff, Nat.blt_eq] at this
    rw [e1, e2]
    refine ⟨this.1.1, ?_, fun x hx => ?_⟩
    · rcases this.1.2 d hd with h | h
      · exact absurd hc h
      · exact h
    · obtain ⟨⟨h1, h3⟩, h2⟩ := this.2 x hx
      refine ⟨h1, ?_, fun h => ?_⟩
      · rintro rfl; cases h3
      rcases h2 with h2 | h2
      · rw [Nat.ble_eq_true_of_le h.1] at h2; cases h2
      · rw [Nat.ble_eq_true_of_le h.2] at h2; cases h2

/-- C106, where the delimiters in a result come from: they are in the name, or the name has one of
the characters of the list. -/
theorem C106_sources {E : Env} (W : World E D) (hD : DelimData D) {d : Nat} (hd : d ∈ genDelims)
    (hU : ¬ E.U.BringsIn d) {f : Nat} (hb : ¬ (f.testBit 0 = true ∧ f.testBit 6 = true))
    {u n : List Nat} (hs : ∀ c ∈ u, isScalar c) (h0 : 0 ∉ u) (h : LookupOk E f (utf8s u) n)
    (hn : d ∈ n) :
    d ∈ u ∨ (f.testBit 5 = false ∧ f.testBit 6 = false ∧ ∃ c ∈ u, c ∈ delimSources d) := by
  have hne : ¬ isLDHU d ∧ d ≠ 0x2E := by
    have : ∀ d ∈ genDelims, ¬ isLDHU d ∧ d ≠ 0x2E := by unfold isLDHU; decide
    exact this d hd
  obtain ⟨_, v, hv, he, x, ds, h1, h2, rfl, _⟩ := (C48_lookup_spec W (zero_mem_utf8s h0) hb).mp h
  rw [← utf8s_inj hs hv he] at h1
  have hx : d ∈ x := by
    rcases mem_joinDot hn with h | ⟨m, hm, hc⟩
    · exact absurd h hne.2
    · obtain ⟨l, hl, h3⟩ := each_mem_right h2 hm
      exact mem_of_mem_splitDot hl (labelTo_other h3 hc hne.1)
  unfold Processed at h1
  split at h1
  · exact .inl (h1 ▸ hx)
  · rename_i h6
    rw [Bool.not_eq_true] at h6
    have hm : d ∈ u.flatMap (emit D (f.testBit 2) (f.testBit 5)) :=
      Classical.byContradiction fun hm => hU ⟨_, x, hm, h1.2.2.1, hx⟩
    obtain ⟨c, hc, he⟩ := List.mem_flatMap.mp hm
    by_cases hsrc : d ∈ D.mapping c
    · have hl := hD.only d hd c hsrc
      have hst := (hD.all d hd c hl).1
      unfold emit at he
      rw [hst] at he
      simp only at he
      split at he
      · cases he
      · rename_i h5
        exact .inr ⟨by simpa using h5, h6, c, hc, hl⟩
    · left
      have : d = c := by
        unfold emit at he
        split at he
        all_goals first
          | exact absurd he hsrc
          | (split at he <;> first | exact absurd he hsrc | (simp at he; done) | simpa using he)
          | (simp at he; done)
          | simpa using he
      exact this ▸ hc

/-- Without UTS #46 processing, no label that passes the tests of lookup has a delimiter. -/
theorem no_tr46_delim (hD : D.Laws) {U : Uni} {f : Nat} (f2 : f.testBit 2 = false)
    (f6 : f.testBit 6 = true) {d : Nat} (hd : d ∈ genDelims) {v : List Nat}
    (hf : ∀ e, ¬ Fault D U (labelTests f) v e) : d ∉ v := by
  intro hv
  have hk : ∀ d ∈ genDelims, d < 0x80 ∧ ¬ isLowerLDH d ∧ d ≠ 0x2E ∧ ¬ (0x41 ≤ d ∧ d ≤ 0x5A) := by
    unfold isLowerLDH; decide
  obtain ⟨h1, h2, h3, h4⟩ := hk d hd
  have hb : (labelTests f).testBit 4 = true ∧ (labelTests f).testBit 12 = false ∧
      (labelTests f).testBit 13 = false := by
    unfold labelTests
    rw [f2, f6]
    cases f.testBit 5 <;> decide
  refine hf _ (.disallowed d hb.1 hv (hD.other d h1 h2 h3 h4).2 ?_)
  rw [hb.2.1, hb.2.2]
  simp

/-- C106, without UTS #46 processing: the delimiters in a result are those of ASCII labels of the name,
with NFC_INPUT, too, and whatever the normaliser does. -/
theorem C106_no_tr46 {E : Env} (W : World E D) {d : Nat} (hd : d ∈ genDelims) {f : Nat}
    (f6 : f.testBit 6 = true) {u n : List Nat} (hs : ∀ c ∈ u, isScalar c) (h0 : 0 ∉ u)
    (h : LookupOk E f (utf8s u) n) (hn : d ∈ n) :
    ∃ l ∈ splitDot u, (∀ c ∈ l, c < 0x80) ∧ d ∈ l := by
  have hne : ¬ isLDHU d ∧ d ≠ 0x2E := by
    have : ∀ d ∈ genDelims, ¬ isLDHU d ∧ d ≠ 0x2E := by unfold isLDHU; decide
    exact this d hd
  have hx : ∀ x ∈ xn, isLDHU x := by unfold isLDHU; decide
  have henc : ∀ {v : List Nat}, d ∈ xn ++ Punycode.encode v → d ∈ v := by
    intro v hc
    rcases List.mem_append.mp hc with hc | hc
    · exact absurd (hx d hc) hne.1
    · rcases encode_mem hc with h | h
      · exact h.1
      · refine absurd ?_ hne.1
        unfold isLowerLDH at h
        unfold isLDHU
        omega
  have f2 : ¬ Conflict f → f.testBit 2 = false := by
    intro hc
    unfold Conflict at hc
    rw [f6] at hc
    revert hc
    cases f.testBit 2 <;> simp
  by_cases hb : f.testBit 0 = true ∧ f.testBit 6 = true
  · obtain ⟨hc, v, hv, he, ds, h2, rfl, _⟩ := (C48_lookup_nfc W (zero_mem_utf8s h0) hb.1 hb.2).mp h
    rw [← utf8s_inj hs hv he] at h2
    rcases mem_joinDot hn with h | ⟨m, hm, hdm⟩
    · exact absurd h hne.2
    · obtain ⟨l, hl, h3⟩ := each_mem_right h2 hm
      cases h3 with
      | ascii a1 => exact ⟨_, hl, a1, hdm⟩
      | alabel t u v a1 a2 a3 a4 a5 a6 =>
        exact absurd (henc hdm) (no_tr46_delim W.data (f2 hc) f6 hd a6)
      | ulabel v a1 a2 a3 => exact absurd (henc hdm) (no_tr46_delim W.data (f2 hc) f6 hd a3)
  · obtain ⟨hc, v, hv, he, x, ds, h1, h2, rfl, _⟩ := (C48_lookup_spec W (zero_mem_utf8s h0) hb).mp h
    rw [← utf8s_inj hs hv he] at h1
    unfold Processed at h1
    rw [if_pos f6] at h1
    subst h1
    rcases mem_joinDot hn with h | ⟨m, hm, hdm⟩
    · exact absurd h hne.2
    · obtain ⟨l, hl, h3⟩ := each_mem_right h2 hm
      cases h3 with
      | ascii a1 => exact ⟨_, hl, a1, hdm⟩
      | alabel t u a1 a2 a3 a4 a5 => exact absurd (henc hdm) (no_tr46_delim W.data (f2 hc) f6 hd a5)
      | ulabel a1 a2 => exact absurd (henc hdm) (no_tr46_delim W.data (f2 hc) f6 hd a2)

/-- C106, the part that holds: with STD3 rules there are none. -/
theorem C106_std3_partial {E : Env} (W : World E D) {d : Nat} (hd : d ∈ genDelims) {f : Nat}
    (f5 : f.testBit 5 = true) (f6 : f.testBit 6 = false) (f7 : f.testBit 7 = false) {s n : List Nat}
    (h0 : 0 ∉ s) (h : LookupOk E f s n) : d ∉ n := by
  intro hn
  have h1 := C34_std3_alphabet W h0 f5 f6 f7 h d hn
  have : ∀ d ∈ genDelims, ¬ (isLowerLDH d ∨ d = 0x2E) := by unfold isLowerLDH; decide
  exact this d hd h1

/-- C106, what happens without STD3 rules: a character of the list may as well be replaced by its
mapping, delimiters included, anywhere in the name. -/
theorem C106_split {E : Env} (W : World E D) (hD : DelimData D) {d : Nat} (hd : d ∈ genDelims)
    {c : Nat} (hc : c ∈ delimSources d) {f : Nat} (f5 : f.testBit 5 = false)
    (f6 : f.testBit 6 = false) {p q : List Nat} (hp : ∀ x ∈ p, isScalar x) (hq : ∀ x ∈ q, isScalar x)
    (hp0 : 0 ∉ p) (hq0 : 0 ∉ q) (n : List Nat) :
    LookupOk E f (utf8s (p ++ c :: q)) n ↔ LookupOk E f (utf8s (p ++ D.mapping c ++ q)) n := by
  obtain ⟨h1, h2, h3⟩ := hD.all d hd c hc
  have hcs : isScalar c ∧ c ≠ 0 := by
    have : ∀ d ∈ genDelims, ∀ c ∈ delimSources d, isScalar c ∧ c ≠ 0 := by unfold isScalar; decide
    exact this d hd c hc
  have hself : ∀ x ∈ D.mapping c, emit D (f.testBit 2) (f.testBit 5) x = [x] ∧
      D.status x ≠ .disallowed := by
    intro x hx
    obtain ⟨h4, _, h5⟩ := h3 x hx
    unfold emit
    by_cases hl : isLowerLDH x
    · rw [(W.data.ldh x hl).1]; simp
    · by_cases hdot : x = 0x2E
      · subst hdot
        rw [W.data.dot.1]; simp
      · rw [(W.data.other x h4 hl hdot h5).1, f5]; simp
  have hmap : ∀ l : List Nat, (∀ x ∈ l, emit D (f.testBit 2) (f.testBit 5) x = [x]) →
      l.flatMap (emit D (f.testBit 2) (f.testBit 5)) = l := by
    intro l hl
    induction l with
    | nil => rfl
    | cons a r ih =>
      rw [List.flatMap_cons, hl a List.mem_cons_self, ih fun x hx => hl x (List.mem_cons_of_mem _ hx)]
      rfl
  have hem : (p ++ c :: q).flatMap (emit D (f.testBit 2) (f.testBit 5)) =
      (p ++ D.mapping c ++ q).flatMap (emit D (f.testBit 2) (f.testBit 5)) := by
    rw [List.flatMap_append, List.flatMap_append, List.flatMap_append, List.flatMap_cons,
      hmap (D.mapping c) fun x hx => (hself x hx).1, List.append_assoc]
    congr 2
    unfold emit
    rw [h1, f5]
    rfl
  refine (C33_mapped_form W ?_ ?_ ?_ ?_ f6 ?_ ?_ ?_).1 n
  · intro x hx
    simp only [List.mem_append, List.mem_cons] at hx
    rcases hx with hx | rfl | hx
    · exact hp x hx
    · exact hcs.1
    · exact hq x hx
  · intro x hx
    simp only [List.mem_append] at hx
    rcases hx with (hx | hx) | hx
    · exact hp x hx
    · exact (W.data.mapping c x hx).2
    · exact hq x hx
  · simp only [List.mem_append, List.mem_cons]
    rintro (h | h | h)
    · exact hp0 h
    · exact hcs.2 h.symm
    · exact hq0 h
  · simp only [List.mem_append]
    rintro ((h | h) | h)
    · exact hp0 h
    · exact (W.data.mapping c 0 h).1 rfl
    · exact hq0 h
  · constructor
    · rintro ⟨x, hx, h⟩
      simp only [List.mem_append, List.mem_cons] at hx
      rcases hx with hx | rfl | hx
      · exact ⟨x, by simp [hx], h⟩
      · rw [h1] at h; cases h
      · exact ⟨x, by simp [hx], h⟩
    · rintro ⟨x, hx, h⟩
      simp only [List.mem_append] at hx
      rcases hx with (hx | hx) | hx
      · exact ⟨x, by simp [hx], h⟩
      · exact absurd h (hself x hx).2
      · exact ⟨x, by simp [hx], h⟩
  · rw [hem]
  · rw [hem]

/-- ASCII text without capitals and hyphens. -/
def Spec.PlainAscii (s : List Nat) : Prop :=
  ∀ c ∈ s, 0 < c ∧ c < 0x80 ∧ c ≠ 0x2D ∧ ¬ (0x41 ≤ c ∧ c ≤ 0x5A)

theorem plainAscii_fault {U : Uni} (hU : U.Laws) (hD : D.Laws)
    (hm : ∀ c, c < 0x80 → U.isM c = false) {l : List Nat} (hl : PlainAscii l) (hdot : 0x2E ∉ l) :
    ∀ e, ¬ Fault D U (tr46Tests 0) l e := by
  have ht : tr46Tests 0 = 2 ^ 0 + 2 ^ 1 + 2 ^ 2 + 2 ^ 3 + 2 ^ 13 + 2 ^ 14 := by decide
  have hn := hU.nfc_ascii l fun c hc => (hl c hc).2.1
  have hv : ∀ c ∈ l, Tr46Valid D false true c := by
    intro c hc
    obtain ⟨_, h1, _, h2⟩ := hl c hc
    by_cases h : isLowerLDH c
    · exact .inl (hD.ldh c h).1
    · exact .inr (.inr ⟨rfl, .inl (hD.other c h1 h (fun h => hdot (h ▸ hc)) h2).1⟩)
  rw [ht]
  intro e he
  cases he with
  | nfc _ h => rw [hn] at h; cases h
  | notNfc t _ h h' => rw [hn] at h; injection h with h; exact h' h.symm
  | twoHyphen _ h => exact (hl _ (List.mem_of_getElem? h)).2.2.1 rfl
  | hyphenStartEnd _ h =>
    rcases h with h | h
    · exact (hl _ (List.mem_of_head? h)).2.2.1 rfl
    · exact (hl _ (List.mem_of_getLast? h)).2.2.1 rfl
  | leadingCombining c _ h h' =>
    rw [hm c (hl c (List.mem_of_head? h)).2.1] at h'
    cases h'
  | disallowed c h => revert h; decide
  | contextjAny c h => revert h; decide
  | contextj _ c h => revert h; decide
  | contextjNoRule c h => revert h; decide
  | contextoAny c h => revert h; decide
  | contextoNoRule c h => revert h; decide
  | contexto _ c h => revert h; decide
  | unassigned c h => revert h; decide
  | bidi h => revert h; decide
  | dotInLabel _ h => exact hdot h
  | invalidTransitional c h => revert h; decide
  | invalidNontransitional c _ _ h h' => exact h' (hv c h)

/-- Such text is looked up as it is, with UTS #46 processing. -/
theorem plainAscii_lookup {E : Env} (W : World E D) (hm : ∀ c, c < 0x80 → E.U.isM c = false)
    {s : List Nat} (hp : PlainAscii s) (hl : ∀ l ∈ splitDot s, l.length ≤ 63)
    (hlen : s.length ≤ 253) : LookupOk E 0 (utf8s s) s := by
  have h0 : 0 ∉ s := fun h => absurd (hp 0 h).1 (by omega)
  have hpl : ∀ l ∈ splitDot s, PlainAscii l := fun l hl c hc => hp c (mem_of_mem_splitDot hl hc)
  have hem : s.flatMap (emit D (Nat.testBit 0 2) (Nat.testBit 0 5)) = s := by
    have : ∀ c ∈ s, emit D (Nat.testBit 0 2) (Nat.testBit 0 5) c = [c] := by
      intro c hc
      obtain ⟨_, h1, _, h2⟩ := hp c hc
      unfold emit
      by_cases h : isLowerLDH c
      · rw [(W.data.ldh c h).1]
      · by_cases hd : c = 0x2E
        · subst hd; rw [W.data.dot.1]
        · rw [(W.data.other c h1 h hd h2).1]; simp
    clear hl hlen h0 hpl hp
    induction s with
    | nil => rfl
    | cons a r ih =>
      rw [List.flatMap_cons, this a List.mem_cons_self,
        ih fun x hx => this x (List.mem_cons_of_mem _ hx)]
      rfl
  have hst : ∀ c ∈ s, D.status c ≠ .disallowed := by
    intro c hc
    obtain ⟨_, h1, _, h2⟩ := hp c hc
    by_cases h : isLowerLDH c
    · rw [(W.data.ldh c h).1]; simp
    · by_cases hd : c = 0x2E
      · subst hd; rw [W.data.dot.1]; simp
      · rw [(W.data.other c h1 h hd h2).1]; simp
  have hxn : ∀ l ∈ splitDot s, ¬ xn <+: l := by
    intro l hl' h
    exact (hpl l hl' 0x2D (h.subset (by decide))).2.2.1 rfl
  refine (C48_lookup_spec W (zero_mem_utf8s h0) (by decide)).mpr ⟨by decide, s, ?_, rfl, s, splitDot s,
    ?_, ?_, (joinDot_splitDot s).symm, ?_⟩
  · intro c hc
    have := (hp c hc).2.1
    left; omega
  · unfold Processed
    rw [if_neg (by decide), hem]
    refine ⟨hst, by omega, W.uni.nfc_ascii s fun c hc => (hp c hc).2.1, fun l hl' => ?_⟩
    exact .ulabel (hxn l hl') (plainAscii_fault W.uni W.data hm (hpl l hl') (mem_splitDot_nodot hl'))
  · have : ∀ ls : List (List Nat), (∀ l ∈ ls, l ∈ splitDot s) → Each (LabelTo D E.U 0) ls ls := by
      intro ls
      induction ls with
      | nil => intro _; exact .nil
      | cons l r ih =>
        intro h
        have hm := h l List.mem_cons_self
        exact .cons (.ascii (fun c hc => (hpl l hm c hc).2.1) (fun h => hxn l hm h.2) (hl l hm))
          (ih fun x hx => h x (List.mem_cons_of_mem _ hx))
    exact this _ fun _ h => h
  · split <;> omega

/-- C106 is violated: between any ASCII texts, each of the characters of the list is looked up, by
default, as its mapping, which has a delimiter.  The tables are those of the repository; the
normaliser is any with the laws of NFC for which ASCII characters are no combining marks. -/
theorem C106_violated {U : Uni} (h : U.Laws) (hm : ∀ c, c < 0x80 → U.isM c = false) {d c : Nat}
    (hd : d ∈ genDelims) (hc : c ∈ delimSources d) {p q : List Nat} (hp : PlainAscii p)
    (hq : PlainAscii q) (hl : ∀ l ∈ splitDot (p ++ Shipped.D.mapping c ++ q), l.length ≤ 63)
    (hlen : (p ++ Shipped.D.mapping c ++ q).length ≤ 253) :
    d ∈ p ++ Shipped.D.mapping c ++ q ∧
    LookupOk ⟨Shipped.T, U⟩ 0 (utf8s (p ++ c :: q)) (p ++ Shipped.D.mapping c ++ q) := by
  have hz : ∀ {s : List Nat}, PlainAscii s → (∀ c ∈ s, isScalar c) ∧ 0 ∉ s := by
    intro s hs
    refine ⟨fun c hc => ?_, fun h => absurd (hs 0 h).1 (by omega)⟩
    have := (hs c hc).2.1
    left; omega
  obtain ⟨_, h2, h3⟩ := Shipped.delimData.all d hd c hc
  refine ⟨by simp [h2], ?_⟩
  refine (C106_split (World.shipped h) Shipped.delimData hd hc (by decide) (by decide) (hz hp).1
    (hz hq).1 (hz hp).2 (hz hq).2 _).mpr ?_
  refine plainAscii_lookup (World.shipped h) hm ?_ hl hlen
  intro x hx
  simp only [List.mem_append] at hx
  rcases hx with (hx | hx) | hx
  · exact hp x hx
  · obtain ⟨h4, h6, h5⟩ := h3 x hx
    refine ⟨?_, h4, h6, h5⟩
    exact Nat.pos_of_ne_zero ((World.shipped h).data.mapping c x hx).1
  · exact hq x hx

/-- "evil.c℀.b" is looked up as "evil.ca/c.b": in a URL the host would be "evil.ca". -/
example : LookupOk ⟨Shipped.T, Sample.U⟩ 0 (utf8s (str "evil.c" ++ 0x2100 :: str ".b"))
    (str "evil.ca/c.b") := by
  have hm : Shipped.D.mapping 0x2100 = str "a/c" := by decide +kernel
  have := (C106_violated World.sample.uni (d := 0x2F) (c := 0x2100) (p := str "evil.c") (q := str ".b")
    (fun c h => decide_eq_false (by omega)) (by decide) (by decide) (by unfold PlainAscii; decide) (by unfold PlainAscii; decide)
    (by rw [hm]; decide) (by rw [hm]; decide)).2
  rw [hm] at this
  exact this

/-- Without UTS #46 processing "a℀" does not become a name with "/", normalised or not, whatever
normalisation is. -/
example {U : Uni} (hU : U.Laws) (n : List Nat) :
    ∀ f ∈ [64, 65], LookupOk ⟨Shipped.T, U⟩ f (utf8s [0x61, 0x2100]) n → 0x2F ∉ n := by
  intro f hf h hn
  have f6 : ∀ f ∈ [64, 65], f.testBit 6 = true := by decide
  obtain ⟨l, hl, h1, h2⟩ := C106_no_tr46 (World.shipped hU) (d := 0x2F) (by decide) (f6 f hf)
    (by unfold isScalar; decide) (by decide) h hn
  have : ∀ l ∈ splitDot [0x61, 0x2100], 0x2F ∉ l := by decide
  exact this l hl h2

/-- "bücher" does not become a name with "/". -/
example (n : List Nat) (h : LookupOk ⟨Shipped.T, Sample.U⟩ 0
    (utf8s [0x62, 0xFC, 0x63, 0x68, 0x65, 0x72]) n) : 0x2F ∉ n := by
  intro hn
  have hU : ¬ Sample.U.BringsIn 0x2F := by
    rintro ⟨a, b, h1, h2, h3⟩
    injection h2 with h2
    rw [← h2] at h3
    rcases Sample.mem_compose _ h3 with h | h
    · cases h
    · obtain ⟨x, hx, he⟩ := List.mem_map.mp h
      unfold Sample.decompose at he
      split at he
      · cases he
      · exact h1 (he ▸ hx)
  rcases C106_sources (World.shipped World.sample.uni) Shipped.delimData (by decide) hU (by decide)
    (by decide) (by decide) h hn with h | ⟨_, _, h⟩
  · revert h; decide
  · revert h; decide

/-- C106_sources asks that normalisation makes no delimiters.  It does not, if no decomposition of
another character and no composition gives them. -/
theorem C106_uax15 {X : Uax15} {d : Nat} (h1 : ∀ a b, X.comp a b ≠ some d)
    (h2 : ∀ x, d ∈ X.decomp x → x = d) {s : List Nat} (h : d ∉ s) : d ∉ X.nfc s := by
  have := Uax15.nfc_all (X := X) (P := fun x => x ≠ d)
    (fun a b c _ _ hd e => h1 a b (e ▸ hd))
    (fun a ha x hx e => ha (h2 a (e ▸ hx)))
    (s := s) (fun x hx e => h (e ▸ hx))
  exact fun hm => this d hm rfl

end Idn2
