import Verif.Spec.HostName
import Verif.Props.Delims

/-
Property C107: lookup with STD3 rules and host names.
-/

namespace Idn2
open Spec

variable {D : Data}

/-- A Punycode text ends with a letter or digit. -/
theorem encode_last {u : List Nat} (hu : ∀ c ∈ u, isScalar c) (h : ∃ c ∈ u, 0x80 ≤ c) :
    Punycode.encode u ≠ [] ∧ (Punycode.encode u).getLast? ≠ some 0x2D := by
  have hne := insertions_ne_nil (fun x hx => Nat.lt_succ_of_le (isScalar_le (hu x hx))) h
  rw [encode_eq_head]
  have hlt := codes_lt (b := (Punycode.basics u).length) (Punycode.insertions u)
    (Punycode.init (Punycode.basics u).length)
  have hc : Punycode.codes (Punycode.basics u).length
      (Punycode.init (Punycode.basics u).length) (Punycode.insertions u) ≠ [] := by
    cases hi : Punycode.insertions u with
    | nil => exact absurd hi hne
    | cons x xs =>
      unfold Punycode.codes
      intro hn
      have := (List.append_eq_nil_iff.mp hn).1
      rw [Punycode.digits] at this
      split at this <;> cases this
  generalize Punycode.codes _ _ _ = cs at hlt hc
  refine ⟨by simp [hc], fun hl => ?_⟩
  rw [List.getLast?_append, List.getLast?_map] at hl
  cases hg : cs.getLast? with
  | none => exact hc (List.getLast?_eq_none_iff.mp hg)
  | some d =>
    rw [hg] at hl
    have := hlt d (List.mem_of_getLast? hg)
    simp only [Option.map_some] at hl
    injection hl with hl
    unfold Punycode.digitChar at hl
    split at hl <;> omega

/-- C107.  With UTS #46 processing, STD3 rules and A-labels being checked, every label of a result is
empty or one of a host name.  If it has the reserved form, it is the A-label of some text that is
not ASCII and passes the tests. -/
theorem C107_host {E : Env} (W : World E D) {f : Nat} (f5 : f.testBit 5 = true)
    (f6 : f.testBit 6 = false) (f7 : f.testBit 7 = false) {s n : List Nat} (h0 : 0 ∉ s)
    (h : LookupOk E f s n) :
    ∀ l ∈ splitDot n, l = [] ∨ (HostLabel l ∧ (Reserved l → ∃ u, l = xn ++ Punycode.encode u ∧
      (∃ c ∈ u, 0x80 ≤ c) ∧ ∀ e, ¬ Fault D E.U (labelTests f) u e)) := by
  intro l hl
  have hch : ∀ c ∈ l, isLowerLDH c := by
    intro c hc
    rcases C34_std3_alphabet W h0 f5 f6 f7 h c (mem_of_mem_splitDot hl hc) with h | rfl
    · exact h
    · exact absurd hc (mem_splitDot_nodot hl)
  have h63 := (C07_lookup_limits W h0 h).1 l hl
  by_cases hne : l = []
  · exact .inl hne
  · have hpos : 1 ≤ l.length := by
      cases l with
      | nil => exact absurd rfl hne
      | cons a r => simp
    right
    rcases (result_labels W h0 f7 h).2 l hl with hp | ⟨u, hb, rfl⟩
    · have hf := hp.tr46 f6
      have b : (tr46Tests f).testBit 1 = true ∧ (tr46Tests f).testBit 2 = true := by
        unfold tr46Tests
        cases f.testBit 2 <;> cases f.testBit 5 <;> decide
      refine ⟨⟨⟨hpos, h63⟩, hch, fun h => hf _ (.hyphenStartEnd b.2 (.inl h)),
        fun h => hf _ (.hyphenStartEnd b.2 (.inr h))⟩, fun h => ?_⟩
      exact absurd (.twoHyphen b.1 h.1 h.2) (hf _)
    · obtain ⟨h1, h2⟩ := encode_last hb.scalar hb.nonascii
      refine ⟨⟨⟨hpos, h63⟩, hch, by simp [xn], ?_⟩, fun _ => ⟨u, rfl, hb.nonascii, hb.tests⟩⟩
      rw [List.getLast?_append]
      cases hg : (Punycode.encode u).getLast? with
      | none => exact absurd (List.getLast?_eq_none_iff.mp hg) h1
      | some d => rw [hg] at h2; simpa using h2

/-- A label of a host name without the reserved form passes the tests of UTS #46. -/
theorem hostLabel_fault {U : Uni} (hU : U.Laws) (hD : D.Laws)
    (hm : ∀ c, c < 0x80 → U.isM c = false) (f : Nat) {l : List Nat} (hl : HostLabel l)
    (hr : ¬ Reserved l) : ∀ e, ¬ Fault D U (tr46Tests f) l e := by
  have hlt : ∀ c ∈ l, c < 0x80 := fun c hc => by
    have := hl.chars c hc
    unfold isLowerLDH at this
    omega
  have hn := hU.nfc_ascii l hlt
  have hv : ∀ t a, ∀ c ∈ l, Tr46Valid D t a c := fun t a c hc => .inl (hD.ldh c (hl.chars c hc)).1
  have hp : ∀ c ∈ l, D.prop c = .pvalid := fun c hc => (hD.ldh c (hl.chars c hc)).2
  have hb : (tr46Tests f).testBit 11 = false := by
    unfold tr46Tests
    cases f.testBit 2 <;> cases f.testBit 5 <;> decide
  intro e he
  cases he with
  | nfc _ h => rw [hn] at h; cases h
  | notNfc t _ h h' => rw [hn] at h; injection h with h; exact h' h.symm
  | twoHyphen _ h h' => exact hr ⟨h, h'⟩
  | hyphenStartEnd _ h => exact h.elim hl.start hl.last
  | leadingCombining c _ h h' =>
    rw [hm c (hlt c (List.mem_of_head? h))] at h'
    cases h'
  | disallowed c _ h h' => rw [hp c h] at h'; cases h'
  | contextjAny c _ h h' => rw [hp c h] at h'; cases h'
  | contextj _ c _ h h' => rw [hp c (List.mem_of_getElem? h)] at h'; cases h'
  | contextjNoRule c _ h h' => rw [hp c h] at h'; cases h'
  | contextoAny c _ h h' => rw [hp c h] at h'; cases h'
  | contextoNoRule c _ h h' => rw [hp c h] at h'; cases h'
  | contexto _ c _ h h' => rw [hp c (List.mem_of_getElem? h)] at h'; cases h'
  | unassigned c _ h h' => rw [hp c h] at h'; cases h'
  | bidi h => rw [hb] at h; cases h
  | dotInLabel _ h => exact absurd (hl.chars _ h) (by unfold isLowerLDH; omega)
  | invalidTransitional c _ h h' => exact h' (hv _ _ c h)
  | invalidNontransitional c _ _ h h' => exact h' (hv _ _ c h)

theorem nil_fault {U : Uni} (hU : U.Laws) (f : Nat) : ∀ e, ¬ Fault D U (tr46Tests f) [] e := by
  have hn := hU.nfc_ascii [] (by simp)
  have hb : (tr46Tests f).testBit 11 = false := by
    unfold tr46Tests
    cases f.testBit 2 <;> cases f.testBit 5 <;> decide
  intro e he
  cases he <;> simp_all

/-- C107, the other way: with UTS #46 processing, whatever the other flags, a host name in any case
without labels of the reserved form is looked up as itself in lower case.  Empty labels are let
through. -/
theorem C107_pass {E : Env} (W : World E D) (hm : ∀ c, c < 0x80 → E.U.isM c = false) {f : Nat}
    (hf : ¬ Conflict f) (f6 : f.testBit 6 = false) {s : List Nat} (ha : ∀ c ∈ s, c < 0x80)
    (hl : ∀ l ∈ splitDot (s.map asciiLower), l = [] ∨ (HostLabel l ∧ ¬ Reserved l))
    (hlen : s.length ≤ if (splitDot (s.map asciiLower)).getLast? = some [] then 254 else 253) :
    LookupOk E f s (s.map asciiLower) := by
  have hmem : ∀ c ∈ s, isLowerLDH (asciiLower c) ∨ asciiLower c = 0x2E := by
    intro c hc
    by_cases hd : asciiLower c = 0x2E
    · exact .inr hd
    · have h1 : asciiLower c ∈ joinDot (splitDot (s.map asciiLower)) := by
        rw [joinDot_splitDot]; exact List.mem_map_of_mem hc
      rcases mem_joinDot h1 with h | ⟨l, h, h'⟩
      · exact .inr h
      · rcases hl l h with rfl | h2
        · cases h'
        · exact .inl (h2.1.chars _ h')
  have h0 : 0 ∉ s := fun h => by
    have := hmem 0 h
    unfold isLowerLDH asciiLower at this
    simp at this
  have hem : ∀ c ∈ s, emit D (f.testBit 2) (f.testBit 5) c = [asciiLower c] ∧
      D.status c ≠ .disallowed := by
    intro c hc
    unfold emit
    by_cases hu : 0x41 ≤ c ∧ c ≤ 0x5A
    · obtain ⟨h1, h2, _⟩ := W.data.upper c hu.1 hu.2
      rw [h1, asciiLower, if_pos hu]
      exact ⟨h2, by simp⟩
    · have := hmem c hc
      rw [asciiLower, if_neg hu] at this ⊢
      rcases this with h | h
      · rw [(W.data.ldh c h).1]; simp
      · rw [h, W.data.dot.1]; simp
  have hfl : s.flatMap (emit D (f.testBit 2) (f.testBit 5)) = s.map asciiLower := by
    clear hl hlen h0 ha hmem
    induction s with
    | nil => rfl
    | cons a r ih =>
      rw [List.flatMap_cons, (hem a List.mem_cons_self).1,
        ih fun x hx => hem x (List.mem_cons_of_mem _ hx)]
      rfl
  have hlow : ∀ c ∈ s.map asciiLower, c < 0x80 := by
    intro c hc
    obtain ⟨x, hx, rfl⟩ := List.mem_map.mp hc
    have := hmem x hx
    unfold isLowerLDH at this
    omega
  have hxn : ∀ l ∈ splitDot (s.map asciiLower), ¬ xn <+: l := by
    rintro l hl' ⟨t, rfl⟩
    rcases hl _ hl' with h | h
    · cases h
    · exact h.2 ⟨rfl, rfl⟩
  refine (C48_lookup_spec W h0 (by rw [f6]; simp)).mpr ⟨hf, s, ?_, (ascii_utf8s ha).symm,
    s.map asciiLower, splitDot (s.map asciiLower), ?_, ?_, (joinDot_splitDot _).symm, ?_⟩
  · intro c hc
    have := ha c hc
    left; omega
  · unfold Processed
    rw [if_neg (by rw [f6]; simp), hfl]
    refine ⟨fun c hc => (hem c hc).2, ?_, W.uni.nfc_ascii _ hlow, fun l hl' => ?_⟩
    · rw [List.length_map]; split at hlen <;> omega
    · refine .ulabel (hxn l hl') ?_
      rcases hl l hl' with rfl | h
      · exact nil_fault W.uni f
      · exact hostLabel_fault W.uni W.data hm f h.1 h.2
  · have : ∀ ls : List (List Nat), (∀ l ∈ ls, l ∈ splitDot (s.map asciiLower)) →
        Each (LabelTo D E.U f) ls ls := by
      intro ls
      induction ls with
      | nil => intro _; exact .nil
      | cons l r ih =>
        intro h
        have hm := h l List.mem_cons_self
        refine .cons (.ascii (fun c hc => hlow c (mem_of_mem_splitDot hm hc))
          (fun h => hxn l hm h.2) ?_) (ih fun x hx => h x (List.mem_cons_of_mem _ hx))
        rcases hl l hm with rfl | h
        · simp
        · exact h.1.length.2
    exact this _ fun _ h => h
  · rw [List.length_map]; exact hlen

/-- With STD3 rules the labels of "Fä-1.A" become one of reserved form and a plain one; a hyphen at
the end is refused. -/
example : LookupOk Sample.E 32 (utf8s [0x46, 0xE4, 0x2D, 0x31, 0x2E, 0x41]) (str "xn--f-1-qla.a") ∧
    LookupErr Sample.E 32 (str "a-.b") .hyphenStartEnd := by decide +kernel

/-- "WWW.Ex-1." is looked up as "www.ex-1.". -/
example : LookupOk Sample.E 0 (str "WWW.Ex-1.") (str "www.ex-1.") :=
  C107_pass World.sample (fun c h => decide_eq_false (by omega)) (by decide) (by decide)
    (by decide) (by
      intro l hl
      have : splitDot ((str "WWW.Ex-1.").map asciiLower) = [str "www", str "ex-1", []] := by decide
      rw [this] at hl
      simp only [List.mem_cons, List.not_mem_nil, or_false] at hl
      rcases hl with rfl | rfl | rfl
      · exact .inr ⟨⟨by decide, by unfold isLowerLDH; decide, by decide, by decide⟩, by unfold Reserved; decide⟩
      · exact .inr ⟨⟨by decide, by unfold isLowerLDH; decide, by decide, by decide⟩, by unfold Reserved; decide⟩
      · exact .inl rfl) (by decide)

end Idn2
