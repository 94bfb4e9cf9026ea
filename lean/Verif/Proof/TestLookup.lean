import Verif.Model.TestLookup
import Verif.Spec.IdnaTest
import Verif.Proof.GenText
import Verif.Proof.Cli
import Verif.Props.Entry

/-
The reader of tests/IdnaTest.txt in tests/test-lookup.c.
-/

namespace Idn2.TestLookup
open Spec Spec.IdnaTest

/-! ### Columns -/

theorem spaceByte_iff {b : Nat} : spaceByte b = true ↔ Space b := by
  unfold spaceByte Space
  simp only [Bool.or_eq_true, beq_iff_eq, Bool.and_eq_true, Nat.ble_eq]

theorem dropWhile_all {a x : List Nat} (ha : ∀ c ∈ a, Space c)
    (hx : ∀ c, x.head? = some c → ¬ Space c) : (a ++ x).dropWhile spaceByte = x := by
  induction a with
  | nil =>
    cases x with
    | nil => rfl
    | cons b r =>
      have : spaceByte b = false := by
        rw [← Bool.not_eq_true, spaceByte_iff]
        exact hx b rfl
      simp [this]
  | cons b r ih =>
    have : spaceByte b = true := spaceByte_iff.mpr (ha b List.mem_cons_self)
    rw [List.cons_append, List.dropWhile, this]
    exact ih fun c hc => ha c (List.mem_cons_of_mem _ hc)

theorem trimField_eq {f x : List Nat} (h : Trimmed f x) : trimField f = x := by
  obtain ⟨a, b, rfl, ha, hb, h1, h2⟩ := h
  unfold trimField
  cases hx : x with
  | nil =>
    have hs : ∀ c ∈ a ++ [] ++ b, Space c := by
      intro c hc
      simp only [List.append_nil, List.mem_append] at hc
      exact hc.elim (ha c) (hb c)
    have := dropWhile_all (x := []) hs (by simp)
    rw [List.append_nil (a ++ [] ++ b)] at this
    rw [this]
    rfl
  | cons y r =>
    rw [← hx]
    have e1 : (a ++ x ++ b).dropWhile spaceByte = x ++ b := by
      rw [List.append_assoc]
      refine dropWhile_all ha ?_
      intro c hc
      apply h1 c
      rw [hx] at hc ⊢
      simpa using hc
    rw [e1, List.reverse_append, dropWhile_all (fun c hc => hb c (List.mem_reverse.mp hc)),
      List.reverse_reverse]
    intro c hc
    rw [List.head?_reverse] at hc
    exact h2 c hc

theorem cutField_semi {f r : List Nat} (h1 : 0x3B ∉ f) (h2 : 0x23 ∉ f) :
    cutField (f ++ 0x3B :: r) = (f, r) := by
  induction f with
  | nil => simp [cutField]
  | cons b f ih =>
    simp only [List.mem_cons, not_or] at h1 h2
    rw [List.cons_append, cutField, if_neg (fun h => h1.1 h.symm), if_neg (fun h => h2.1 h.symm),
      ih h1.2 h2.2]

theorem cutField_end {f r : List Nat} (h1 : 0x3B ∉ f) (h2 : 0x23 ∉ f)
    (hr : r = [] ∨ r.head? = some 0x23) : cutField (f ++ r) = (f, []) := by
  induction f with
  | nil =>
    rcases hr with rfl | hr
    · rfl
    · cases r with
      | nil => rfl
      | cons b r => cases hr; simp [cutField]
  | cons b f ih =>
    simp only [List.mem_cons, not_or] at h1 h2
    rw [List.cons_append, cutField, if_neg (fun h => h1.1 h.symm), if_neg (fun h => h2.1 h.symm),
      ih h1.2 h2.2]

/-- A line of which some columns have been read. -/
def Rest (line : List Nat) (cols : List (List Nat)) : Prop :=
  Columns line cols ∨ (line = [] ∧ cols = [])

theorem nextField_eq (line : List Nat) :
    nextField line = (trimField (cutField line).1, (cutField line).2) := by
  cases line with
  | nil => rfl
  | cons b r => rfl

theorem nextField_rest {line : List Nat} {cols : List (List Nat)} (h : Rest line cols) :
    (nextField line).1 = column cols 0 ∧ Rest (nextField line).2 cols.tail := by
  rw [nextField_eq]
  rcases h with ⟨fields, comment, rfl, hne, hc, hf, he⟩ | ⟨rfl, rfl⟩
  · cases he with
    | nil => exact absurd rfl hne
    | cons h1 h2 =>
      rename_i f x fs xs
      obtain ⟨g1, g2⟩ := hf f List.mem_cons_self
      cases h2 with
      | nil =>
        show (trimField (cutField (f ++ comment)).1 = _) ∧ Rest (cutField (f ++ comment)).2 _
        rw [cutField_end g1 g2 hc]
        exact ⟨trimField_eq h1, .inr ⟨rfl, rfl⟩⟩
      | cons h3 h4 =>
        rename_i f' x' fs xs
        have e : semicolons (f :: f' :: fs) ++ comment = f ++ 0x3B :: (semicolons (f' :: fs) ++ comment) := by
          show (f ++ 0x3B :: semicolons (f' :: fs)) ++ comment = _
          simp
        rw [e, cutField_semi g1 g2]
        refine ⟨trimField_eq h1, .inl ⟨f' :: fs, comment, rfl, by simp, hc, ?_, .cons h3 h4⟩⟩
        exact fun g hg => hf g (List.mem_cons_of_mem _ hg)
  · exact ⟨rfl, .inr ⟨rfl, rfl⟩⟩

theorem column_tail (cols : List (List Nat)) (k : Nat) : column cols.tail k = column cols (k + 1) := by
  cases cols <;> simp [column]

theorem trimmed_left {a f x : List Nat} (ha : ∀ c ∈ a, Space c) (h : Trimmed (a ++ f) x) :
    Trimmed f x := by
  obtain ⟨p, q, e, hp, hq, h1, h2⟩ := h
  rcases List.append_eq_append_iff.mp (e.trans (List.append_assoc _ _ _)) with
    ⟨m, rfl, rfl⟩ | ⟨m, rfl, e2⟩
  · exact ⟨m, q, (List.append_assoc _ _ _).symm, fun c hc => hp c (List.mem_append_right _ hc), hq, h1, h2⟩
  · cases x with
    | nil =>
      refine ⟨f, [], by simp, ?_, by simp, h1, h2⟩
      intro c hc
      apply hq c
      rw [List.nil_append] at e2
      rw [e2]
      exact List.mem_append_right _ hc
    | cons y x =>
      cases m with
      | nil =>
        refine ⟨[], q, ?_, by simp, hq, h1, h2⟩
        simpa using e2.symm
      | cons z m =>
        simp only [List.cons_append, List.cons.injEq] at e2
        exact absurd (e2.1 ▸ ha z (by simp)) (h1 y rfl)

theorem trimmed_right {b f x : List Nat} (hb : ∀ c ∈ b, Space c) (h : Trimmed f x) :
    Trimmed (f ++ b) x := by
  obtain ⟨p, q, rfl, hp, hq, h1, h2⟩ := h
  refine ⟨p, q ++ b, by simp, hp, ?_, h1, h2⟩
  intro c hc
  rcases List.mem_append.mp hc with hc | hc
  · exact hq c hc
  · exact hb c hc

theorem columns_newline {line : List Nat} {cols : List (List Nat)} (h : Columns line cols) :
    Columns (line ++ [10]) cols := by
  obtain ⟨fields, comment, rfl, hne, hc, hf, he⟩ := h
  rcases hc with rfl | hc
  · rw [List.append_nil]
    have key : ∀ fields cols, Each Trimmed fields cols → fields ≠ [] →
        (∀ f ∈ fields, 0x3B ∉ f ∧ 0x23 ∉ f) →
        ∃ gs, semicolons fields ++ [10] = semicolons gs ∧ gs ≠ [] ∧
          (∀ f ∈ gs, 0x3B ∉ f ∧ 0x23 ∉ f) ∧ Each Trimmed gs cols := by
      intro fields cols he
      induction he with
      | nil => intro h; exact absurd rfl h
      | cons h1 h2 ih =>
        rename_i f x fs xs
        intro _ hf
        cases h2 with
        | nil =>
          refine ⟨[f ++ [10]], rfl, by simp, ?_, .cons (trimmed_right (by simp [Space]) h1) .nil⟩
          intro g hg
          rw [List.mem_singleton] at hg
          subst hg
          have := hf f List.mem_cons_self
          simpa using this
        | cons h3 h4 =>
          rename_i f' x' fs xs
          obtain ⟨gs, e, hn, hg, hE⟩ := ih (by simp) fun g hg => hf g (List.mem_cons_of_mem _ hg)
          refine ⟨f :: gs, ?_, by simp, ?_, .cons h1 hE⟩
          · cases gs with
            | nil => exact absurd rfl hn
            | cons g gs =>
              rw [semicolons, semicolons, ← e]; simp
          · intro g hg'
            rcases List.mem_cons.mp hg' with rfl | hg'
            · exact hf g List.mem_cons_self
            · exact hg g hg'
    obtain ⟨gs, e, h1, h2, h3⟩ := key fields cols he hne hf
    exact ⟨gs, [], by rw [e]; simp, h1, .inl rfl, h2, h3⟩
  · refine ⟨fields, comment ++ [10], by simp, hne, .inr ?_, hf, he⟩
    cases comment with
    | nil => cases hc
    | cons => exact hc

theorem columns_left {a line : List Nat} {cols : List (List Nat)} (ha : ∀ c ∈ a, Space c)
    (h : Columns (a ++ line) cols) : Columns line cols := by
  have hs : ∀ c, Space c → c ≠ 0x3B ∧ c ≠ 0x23 := by unfold Space; omega
  induction a with
  | nil => exact h
  | cons b a ih =>
    apply ih fun c hc => ha c (List.mem_cons_of_mem _ hc)
    obtain ⟨fields, comment, e, hne, hc, hf, he⟩ := h
    have hb := ha b List.mem_cons_self
    obtain ⟨n1, n2⟩ := hs b hb
    cases he with
    | nil => exact absurd rfl hne
    | cons h1 h2 =>
      rename_i f x fs xs
      cases f with
      | nil =>
        exfalso
        cases fs with
        | nil =>
          rw [show semicolons [[]] ++ comment = comment from rfl] at e
          rcases hc with rfl | hc
          · cases e
          · rw [← e] at hc
            cases hc
            exact n2 rfl
        | cons f' fs =>
          have : (b :: a) ++ line = 0x3B :: (semicolons (f' :: fs) ++ comment) := e
          rw [List.cons_append, List.cons.injEq] at this
          exact n1 this.1
      | cons c f =>
        have e' : (b :: a) ++ line = c :: (semicolons (f :: fs) ++ comment) := by
          cases fs <;> exact e
        simp only [List.cons_append, List.cons.injEq] at e'
        obtain ⟨rfl, e'⟩ := e'
        refine ⟨f :: fs, comment, e', by simp, hc, ?_, .cons (trimmed_left (a := [b]) ?_ h1) h2⟩
        · intro g hg
          rcases List.mem_cons.mp hg with rfl | hg
          · have := hf (b :: g) List.mem_cons_self
            simp only [List.mem_cons, not_or] at this
            exact ⟨this.1.2, this.2.2⟩
          · exact hf g (List.mem_cons_of_mem _ hg)
        · intro c hc
          rw [List.mem_singleton] at hc
          exact hc ▸ hb

/-! ### Escapes -/

theorem digit_hexDigit : ∀ d, d < 16 → digit (hexDigit d) = d := by decide

theorem quad_escape {c : Nat} (h : c < 0x10000) :
    quad (hexDigit (c / 4096)) (hexDigit (c / 256 % 16)) (hexDigit (c / 16 % 16))
      (hexDigit (c % 16)) = c := by
  unfold quad
  rw [digit_hexDigit _ (by omega), digit_hexDigit _ (by omega), digit_hexDigit _ (by omega),
    digit_hexDigit _ (by omega)]
  unfold u32
  omega

theorem decodeLoop_plain {c : Nat} {s : List Nat} (h : c ≠ 0x5C ∨ s.head? ≠ some 0x75)
    (hs : c = 0x5C → s ≠ []) :
    decodeLoop (c :: s) = (do let x ← decodeLoop s; pure (c :: x)) := by
  by_cases hc : c = 0x5C
  · cases s with
    | nil => exact absurd rfl (hs hc)
    | cons u r =>
      have : u ≠ 0x75 := by
        rintro rfl
        rcases h with h | h
        · exact h hc
        · exact h rfl
      rw [decodeLoop.eq_def]
      simp only [if_pos hc, if_neg this]
  · rw [decodeLoop.eq_def]
    simp only [if_neg hc]

theorem decodeLoop_escape {c : Nat} {s : List Nat} (h : c < 0x10000) (hh : ¬ High c) :
    decodeLoop (escape c ++ s) = (do let x ← decodeLoop s; pure (c :: x)) := by
  unfold escape High at *
  simp only [List.cons_append, List.nil_append]
  rw [decodeLoop]
  simp only [if_true, quad_escape h, if_neg hh]

theorem decodeLoop_two {c l : Nat} {s : List Nat} (hc : High c) (hl : l < 0x10000) :
    decodeLoop (escape c ++ escape l ++ s) = (do
      let x ← decodeLoop s
      pure ((if 0xDC00 ≤ l ∧ l ≤ 0xDFFF then 0x10000 + (c - 0xD800) * 0x400 + (l - 0xDC00) else c) ::
        x)) := by
  unfold escape
  simp only [List.cons_append, List.nil_append]
  rw [decodeLoop]
  unfold High at hc
  simp only [if_true, quad_escape (show c < 0x10000 by omega), if_pos hc, quad_escape hl]
  split <;> rfl

theorem decodeLoop_high {c d : Nat} {s : List Nat} (hc : High c)
    (h : d ≠ 0x5C ∨ s.head? ≠ some 0x75) (hs : d = 0x5C → s ≠ []) :
    decodeLoop (escape c ++ d :: s) = (do let x ← decodeLoop s; pure (c :: x)) := by
  unfold escape
  simp only [List.cons_append, List.nil_append]
  rw [decodeLoop]
  unfold High at hc
  simp only [if_true, quad_escape (show c < 0x10000 by omega), if_pos hc]
  split
  · next hd =>
    cases s with
    | nil => exact absurd rfl (hs hd)
    | cons u r =>
      have : u ≠ 0x75 := by
        rintro rfl
        rcases h with h | h
        · exact h hd
        · exact h rfl
      simp only [if_neg this]
  · rfl

theorem high_High {c : Nat} (h1 : 0x10000 ≤ c) (h2 : c ≤ 0x10FFFF) : High (high c) := by
  unfold High high; omega

theorem low_Low {c : Nat} : Low (low c) := by
  unfold Low low; omega

theorem high_not_scalar {c : Nat} (h : High c) : ¬ isScalar c := by
  unfold High at h; unfold isScalar; omega

theorem head_snoc {s : List Nat} (h : s.head? ≠ some 0x75) : (s ++ [0]).head? ≠ some 0x75 := by
  cases s with
  | nil => simp
  | cons => exact h

theorem decodeLoop_written {s t : List Nat} (h : Written s t) :
    ∃ arr, decodeLoop (s ++ [0]) = .val arr ∧ ((∀ c ∈ t, isScalar c) → arr = t ++ [0]) ∧
      ((¬ ∀ c ∈ t, isScalar c) → ¬ ∀ c ∈ arr, isScalar c) := by
  induction hn : s.length using Nat.strongRecOn generalizing s t with
  | _ n ih =>
    cases h with
    | nil => exact ⟨[0], by decide, fun _ => rfl, by simp⟩
    | plain c s t hc h =>
      obtain ⟨arr, e, h1, h2⟩ := ih s.length (by simp at hn; omega) h rfl
      refine ⟨c :: arr, ?_, ?_, ?_⟩
      · rw [List.cons_append, decodeLoop_plain (hc.imp id head_snoc) (by simp), e]; rfl
      · intro ha
        rw [h1 fun x hx => ha x (List.mem_cons_of_mem _ hx)]; rfl
      · intro hna ha
        apply hna
        intro x hx
        rcases List.mem_cons.mp hx with rfl | hx
        · exact ha x List.mem_cons_self
        · refine Classical.byContradiction fun hx' => ?_
          exact h2 (fun hh => hx' (hh x hx)) fun y hy => ha y (List.mem_cons_of_mem _ hy)
    | escape c s t hc hh h =>
      obtain ⟨arr, e, h1, h2⟩ := ih s.length (by simp [IdnaTest.escape] at hn; omega) h rfl
      refine ⟨c :: arr, ?_, ?_, ?_⟩
      · rw [List.append_assoc, decodeLoop_escape hc hh, e]; rfl
      · intro ha
        rw [h1 fun x hx => ha x (List.mem_cons_of_mem _ hx)]; rfl
      · intro hna ha
        apply hna
        intro x hx
        rcases List.mem_cons.mp hx with rfl | hx
        · exact ha x List.mem_cons_self
        · refine Classical.byContradiction fun hx' => ?_
          exact h2 (fun hh => hx' (hh x hx)) fun y hy => ha y (List.mem_cons_of_mem _ hy)
    | pair c s t hc1 hc2 h =>
      obtain ⟨arr, e, h1, h2⟩ := ih s.length (by simp [IdnaTest.escape] at hn; omega) h rfl
      have hl := low_Low (c := c)
      refine ⟨c :: arr, ?_, ?_, ?_⟩
      · have hlow : low c < 0x10000 := by unfold Low at hl; omega
        rw [List.append_assoc, List.append_assoc, ← List.append_assoc (IdnaTest.escape (high c)),
          decodeLoop_two (high_High hc1 hc2) hlow, e, if_pos (show 0xDC00 ≤ low c ∧ low c ≤ 0xDFFF from hl)]
        show Out.val (_ :: arr) = _
        have : 0x10000 + (high c - 0xD800) * 0x400 + (low c - 0xDC00) = c := by
          unfold high low
          omega
        rw [this]
      · intro ha
        rw [h1 fun x hx => ha x (List.mem_cons_of_mem _ hx)]; rfl
      · intro hna ha
        apply hna
        intro x hx
        rcases List.mem_cons.mp hx with rfl | hx
        · exact ha x List.mem_cons_self
        · refine Classical.byContradiction fun hx' => ?_
          exact h2 (fun hh => hx' (hh x hx)) fun y hy => ha y (List.mem_cons_of_mem _ hy)
    | lone c s t hc hl h =>
      have fin : ∀ s' t', Written s' t' → s'.length < n →
          decodeLoop (IdnaTest.escape c ++ (s ++ [0])) =
            (do let x ← decodeLoop (s' ++ [0]); pure (c :: x)) →
          ∃ arr, decodeLoop (IdnaTest.escape c ++ s ++ [0]) = .val arr ∧
            ((∀ x ∈ c :: t, isScalar x) → arr = c :: t ++ [0]) ∧
            ((¬ ∀ x ∈ c :: t, isScalar x) → ¬ ∀ x ∈ arr, isScalar x) := by
        intro s' t' h' hlen e'
        obtain ⟨arr, e, -, -⟩ := ih s'.length hlen h' rfl
        refine ⟨c :: arr, ?_, ?_, ?_⟩
        · rw [List.append_assoc, e', e]; rfl
        · intro ha
          exact absurd (ha c List.mem_cons_self) (high_not_scalar hc)
        · intro _ ha
          exact high_not_scalar hc (ha c List.mem_cons_self)
      simp [IdnaTest.escape] at hn
      cases h with
      | nil =>
        refine ⟨[c], ?_, fun ha => absurd (ha c List.mem_cons_self) (high_not_scalar hc),
          fun _ ha => high_not_scalar hc (ha c List.mem_cons_self)⟩
        rw [List.append_nil, decodeLoop_high hc (.inl (by decide)) (by decide)]
        rfl
      | plain d s t hd h =>
        refine fin s t h (by simp at hn; omega) ?_
        exact decodeLoop_high hc (hd.imp id head_snoc) (by simp)
      | escape d s t hd hh h =>
        refine fin s t h (by simp [IdnaTest.escape] at hn; omega) ?_
        rw [List.append_assoc, ← List.append_assoc (IdnaTest.escape c), decodeLoop_two hc hd,
          if_neg]
        intro hL
        exact hl d hL (List.prefix_append _ _)
      | pair d s t hd1 hd2 h =>
        have hL := low_Low (c := d)
        have hH := high_High hd1 hd2
        refine fin (IdnaTest.escape (low d) ++ s) (low d :: t) (.escape _ _ _ ?_ ?_ h) ?_ ?_
        · unfold Low at hL; omega
        · unfold Low at hL; unfold High; omega
        · simp [IdnaTest.escape] at hn ⊢; omega
        · rw [List.append_assoc (IdnaTest.escape (high d)), List.append_assoc (IdnaTest.escape (high d)),
            ← List.append_assoc (IdnaTest.escape c), decodeLoop_two hc (by unfold High at hH; omega),
            if_neg]
          unfold High at hH; omega
      | lone d s t hd hl' h =>
        refine fin s t h (by simp [IdnaTest.escape] at hn; omega) ?_
        rw [List.append_assoc, ← List.append_assoc (IdnaTest.escape c),
          decodeLoop_two hc (by unfold High at hd; omega), if_neg]
        unfold High at hd; omega

theorem decodeIdnaTest_written {s t : List Nat} (hs : ∀ c ∈ s, isScalar c) (h : Written s t)
    (h0 : 0 ∉ t) :
    decodeIdnaTest (utf8s s) = .val (if ∀ c ∈ t, isScalar c then some (utf8s t) else none) := by
  unfold decodeIdnaTest
  rw [u8Decode_some_iff.mpr ⟨hs, rfl⟩]
  obtain ⟨arr, e, h1, h2⟩ := decodeLoop_written h
  simp only [e]
  show (match u8Encode arr with | none => _ | some dst => _) = _
  by_cases ht : ∀ c ∈ t, isScalar c
  · rw [if_pos ht, h1 ht]
    have hz : ∀ c ∈ t ++ [0], isScalar c := by
      intro c hc
      rcases List.mem_append.mp hc with hc | hc
      · exact ht c hc
      · rw [List.mem_singleton] at hc; subst hc; decide
    rw [u8Encode_utf8s hz]
    have : utf8s (t ++ [0]) = utf8s t ++ [0] := by
      unfold utf8s; rw [List.flatMap_append]; rfl
    simp only [this, cstr_snoc (zero_mem_utf8s h0)]
    rfl
  · rw [if_neg ht, u8Encode_none (h2 ht)]
    rfl

end Idn2.TestLookup
