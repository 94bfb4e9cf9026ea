import Verif.Model.GenText
import Verif.Spec.Text
import Verif.Proof.Gen

/-
Reading the text of the data files.
-/

namespace Idn2
open Spec

/-! ### Lines -/

theorem fgets_line {l : List Nat} (k : Nat) (r : List Nat) (h : 10 ∉ l) (hk : l.length + 1 ≤ k) :
    fgets k (l ++ 10 :: r) = (l ++ [10], r) := by
  induction l generalizing k with
  | nil =>
    cases k with
    | zero => simp at hk
    | succ k => simp [fgets]
  | cons b l ih =>
    cases k with
    | zero => simp at hk
    | succ k =>
      have hb : b ≠ 10 := by rintro rfl; simp at h
      have := ih k (by simp at h; exact h.2) (by simp at hk; omega)
      simp [fgets, hb, this]

theorem fgets_last {l : List Nat} (k : Nat) (h : 10 ∉ l) (hk : l.length ≤ k) :
    fgets k l = (l, []) := by
  induction l generalizing k with
  | nil => cases k <;> simp [fgets]
  | cons b l ih =>
    cases k with
    | zero => simp at hk
    | succ k =>
      have hb : b ≠ 10 := by rintro rfl; simp at h
      have := ih k (by simp at h; exact h.2) (by simp at hk; omega)
      simp [fgets, hb, this]

theorem fgetsAll_ne {text : List Nat} (h : text ≠ []) :
    fgetsAll text = (fgets 1023 text).1 :: fgetsAll (fgets 1023 text).2 := by
  cases text with
  | nil => exact absurd rfl h
  | cons b r => rw [fgetsAll]

theorem fgetsAll_nil : fgetsAll [] = [] := by rw [fgetsAll]

theorem lines_fgets {ls : List (List Nat)} {text : List Nat} (h : Lines ls text) :
    fgetsAll text = ls := by
  obtain ⟨rfl, h1, h2, h3⟩ := h
  induction ls with
  | nil => exact fgetsAll_nil
  | cons l ls ih =>
    cases ls with
    | nil =>
      simp only [List.flatten_cons, List.flatten_nil, List.append_nil]
      obtain ⟨hne, h4⟩ := h2 l (by simp)
      have hlen := h3 l (by simp)
      rw [fgetsAll_ne hne]
      rcases h4 with h4 | ⟨b, rfl, hb⟩
      · rw [fgets_last 1023 h4 hlen, fgetsAll_nil]
      · have := fgets_line 1023 [] hb (by simpa using hlen)
        rw [this, fgetsAll_nil]
    | cons l' ls =>
      obtain ⟨b, rfl, hb⟩ := h1 l (by simp)
      have hlen := h3 (b ++ [10]) (by simp)
      have e : (((b ++ [10]) :: l' :: ls).flatten) = b ++ 10 :: (l' :: ls).flatten := by simp
      rw [e, fgetsAll_ne (by simp), fgets_line 1023 _ hb (by simpa using hlen)]
      rw [ih (fun x hx => h1 x (by simp [hx])) (fun x hx => h2 x (by simpa using hx))
        (fun x hx => h3 x (by simp only [List.mem_cons] at hx ⊢; exact Or.inr hx))]

theorem stripEol_eq (s : List Nat) : stripEol s s.length = s := by
  cases h : s.length with
  | zero => rfl
  | succ n =>
    have : (s ++ [0])[n + 1]? = some 0 := by rw [← h]; simp
    simp [stripEol, this]

theorem lineStr_eq {s : List Nat} (h : 0 ∉ s) : lineStr s = s := by
  unfold lineStr
  induction s with
  | nil => rfl
  | cons b s ih =>
    have hb : b ≠ 0 := by rintro rfl; simp at h
    simp [hb, ih (by simp at h; exact h.2)]

/-! ### White space -/

/-- White space including the line feed. -/
def Spaces (w : List Nat) : Prop := ∀ b ∈ w, spaceByte b = true

theorem spaceByte_lt {b : Nat} (h : spaceByte b = true) : b < 128 := by
  simp only [spaceByte, Bool.or_eq_true, beq_iff_eq, Bool.and_eq_true, Nat.ble_eq] at h; omega

theorem blank_spaces {w : List Nat} (h : Blank w) : Spaces w := by
  intro b hb
  simp only [spaceByte, Bool.or_eq_true, beq_iff_eq, Bool.and_eq_true, Nat.ble_eq]
  have := h b hb
  omega

theorem spaces_nil : Spaces [] := by intro b hb; cases hb

theorem spaces_append {v w : List Nat} (h1 : Spaces v) (h2 : Spaces w) : Spaces (v ++ w) := by
  intro b hb
  rcases List.mem_append.mp hb with h | h
  · exact h1 b h
  · exact h2 b h

/-- The first byte, if any, is ASCII and not white space. -/
def HeadOk (t : List Nat) : Prop := ∀ b ∈ t.head?, b < 128 ∧ spaceByte b = false

theorem skipSpace_spaces {w t : List Nat} (hw : Spaces w) (ht : HeadOk t) :
    skipSpace (w ++ t) = .ok t := by
  induction w with
  | nil =>
    cases t with
    | nil => rfl
    | cons b r =>
      obtain ⟨h1, h2⟩ := ht b rfl
      simp [skipSpace, h2, Nat.not_le.mpr h1]
  | cons b w ih =>
    have h1 := hw b (by simp)
    have h2 := spaceByte_lt h1
    simp only [List.cons_append, skipSpace, h1, if_true]
    rw [if_neg (by omega), ih (fun x hx => hw x (by simp [hx]))]

theorem dropWhile_spaces {w t : List Nat} (hw : Spaces w) (ht : ∀ b ∈ t.head?, spaceByte b = false) :
    (w ++ t).dropWhile spaceByte = t := by
  induction w with
  | nil =>
    cases t with
    | nil => rfl
    | cons b r => simp [ht b rfl]
  | cons b w ih =>
    simp [hw b (by simp), ih (fun x hx => hw x (by simp [hx]))]

/-! ### Fields -/

/-- No separator inside. -/
def NoSep (t : List Nat) : Prop := ∀ b ∈ t, b ≠ 0x3B ∧ b ≠ 0x23

theorem cutField_semi {t : List Nat} (h : NoSep t) (r : List Nat) :
    cutField (t ++ 0x3B :: r) = (t, r) := by
  induction t with
  | nil => simp [cutField]
  | cons b t ih =>
    obtain ⟨h1, h2⟩ := h b (by simp)
    simp [cutField, h1, h2, ih (fun x hx => h x (by simp [hx]))]

theorem cutField_hash {t : List Nat} (h : NoSep t) (r : List Nat) :
    cutField (t ++ 0x23 :: r) = (t, []) := by
  induction t with
  | nil => simp [cutField]
  | cons b t ih =>
    obtain ⟨h1, h2⟩ := h b (by simp)
    simp [cutField, h1, h2, ih (fun x hx => h x (by simp [hx]))]

theorem cutField_end {t : List Nat} (h : NoSep t) : cutField t = (t, []) := by
  induction t with
  | nil => simp [cutField]
  | cons b t ih =>
    obtain ⟨h1, h2⟩ := h b (by simp)
    simp [cutField, h1, h2, ih (fun x hx => h x (by simp [hx]))]

theorem spaces_noSep {w : List Nat} (h : Spaces w) : NoSep w := by
  intro b hb
  have := h b hb
  simp only [spaceByte, Bool.or_eq_true, beq_iff_eq, Bool.and_eq_true, Nat.ble_eq] at this
  omega

theorem noSep_append {v w : List Nat} (h1 : NoSep v) (h2 : NoSep w) : NoSep (v ++ w) := by
  intro b hb
  rcases List.mem_append.mp hb with h | h
  · exact h1 b h
  · exact h2 b h

/-- Text of a field without the white space around it. -/
structure Core (t : List Nat) : Prop where
  head : HeadOk t
  last : HeadOk t.reverse
  noSep : NoSep t

theorem core_nil : Core [] :=
  ⟨(by intro b h; cases h), (by intro b h; cases h), (by intro b h; cases h)⟩

theorem trim {w t w' : List Nat} (hw : Spaces w) (ht : Core t) (hw' : Spaces w') :
    (do let s ← skipSpace (w ++ t ++ w'); let u ← skipSpace s.reverse; pure u.reverse) =
      GRes.ok t := by
  cases t with
  | nil =>
    have : skipSpace (w ++ [] ++ w') = .ok [] := by
      have := skipSpace_spaces (t := []) (spaces_append hw hw') (by intro b h; cases h)
      simpa using this
    rw [this]; rfl
  | cons b r =>
    have h1 : skipSpace (w ++ (b :: r) ++ w') = .ok ((b :: r) ++ w') := by
      rw [List.append_assoc]
      exact skipSpace_spaces hw (by intro x hx; exact ht.head x (by simpa using hx))
    have h2 : skipSpace ((b :: r) ++ w').reverse = .ok (b :: r).reverse := by
      rw [List.reverse_append]
      exact skipSpace_spaces (by intro x hx; exact hw' x (by simpa using hx)) ht.last
    rw [h1, GRes.bind_ok, h2, GRes.bind_ok, GRes.pure_eq, List.reverse_reverse]

theorem nextField_of {line f rest t : List Nat} (hne : line ≠ []) (hc : cutField line = (f, rest))
    {w w' : List Nat} (hf : f = w ++ t ++ w') (hw : Spaces w) (ht : Core t) (hw' : Spaces w') :
    nextField line = .ok (some t, rest) := by
  cases line with
  | nil => exact absurd rfl hne
  | cons b r =>
    have h := trim hw ht hw'
    rw [← hf] at h
    unfold nextField
    simp only [hc]
    cases h1 : skipSpace f with
    | ok s =>
      rw [h1, GRes.bind_ok] at h
      rw [GRes.bind_ok]
      cases h2 : skipSpace s.reverse with
      | ok u =>
        rw [h2, GRes.bind_ok] at h
        rw [GRes.bind_ok]
        simp only [GRes.pure_eq, GRes.ok.injEq] at h ⊢
        rw [h]
      | complaint => rw [h2] at h; cases h
      | ub => rw [h2] at h; cases h
    | complaint => rw [h1] at h; cases h
    | ub => rw [h1] at h; cases h

/-- A field followed by a semicolon. -/
theorem nextField_semi {w t w' r : List Nat} (hw : Spaces w) (ht : Core t) (hw' : Spaces w') :
    nextField (w ++ t ++ w' ++ 0x3B :: r) = .ok (some t, r) :=
  nextField_of (by simp) (cutField_semi (noSep_append (noSep_append (spaces_noSep hw) ht.noSep)
    (spaces_noSep hw')) r) rfl hw ht hw'

theorem lineEnd_spaces {e : List Nat} (h : e = [] ∨ e = [10]) : Spaces e := by
  rcases h with rfl | rfl
  · exact spaces_nil
  · intro b hb; simp at hb; subst hb; rfl

theorem str_hash : str "#" = [0x23] := by decide
theorem str_semi : str ";" = [0x3B] := by decide

/-- A field at the end of the line. -/
theorem nextField_lineEnd {w t w' e : List Nat} (hw : Spaces w) (ht : Core t) (hw' : Spaces w')
    (he : LineEnd e) (hne : w ++ t ++ w' ≠ []) :
    nextField (w ++ t ++ w' ++ e) = .ok (some t, []) := by
  have hn := noSep_append (noSep_append (spaces_noSep hw) ht.noSep) (spaces_noSep hw')
  obtain ⟨c, n, rfl, hc, hn'⟩ := he
  rcases hc with rfl | ⟨r, rfl, _, _⟩
  · have hs := lineEnd_spaces hn'
    rw [List.nil_append]
    refine nextField_of (w := w) (w' := w' ++ n) ?_
      (cutField_end (noSep_append hn (spaces_noSep hs))) (by simp) hw ht (spaces_append hw' hs)
    intro h; exact hne (List.append_eq_nil_iff.mp h).1
  · rw [str_hash]
    have e : w ++ t ++ w' ++ ([0x23] ++ r ++ n) = w ++ t ++ w' ++ 0x23 :: (r ++ n) := by simp
    rw [e]
    exact nextField_of (by simp) (cutField_hash hn _) rfl hw ht hw'

theorem nextField_nil : nextField [] = .ok (none, []) := rfl

/-! ### Numbers -/

theorem hexVal_of {b d : Nat} (h : HexDigit b d) : hexVal b = some d := by
  unfold HexDigit at h
  unfold hexVal
  split
  · congr 1; omega
  · split
    · congr 1; omega
    · split
      · congr 1; omega
      · omega

theorem scanDigits_hex {t : List Nat} {v : Nat} (h : Hex t v) (r : List Nat) :
    scanDigits (t ++ r) 0 = scanDigits r v := by
  induction h generalizing r with
  | one h => simp [scanDigits, hexVal_of h]
  | snoc _ h ih => rw [List.append_assoc, ih]; simp [scanDigits, hexVal_of h]

/-- No hexadecimal digit (and no `x`) at the beginning. -/
def NumEnd (r : List Nat) : Prop := ∀ b ∈ r.head?, hexVal b = none ∧ b ≠ 0x78 ∧ b ≠ 0x58

theorem scanDigits_end {r : List Nat} (h : NumEnd r) (v : Nat) : scanDigits r v = (v, r) := by
  cases r with
  | nil => rfl
  | cons b r => simp [scanDigits, (h b rfl).1]

theorem hex_chars {t : List Nat} {v : Nat} (h : Hex t v) : ∀ b ∈ t, ∃ d, HexDigit b d := by
  induction h with
  | one h => intro b hb; simp at hb; subst hb; exact ⟨_, h⟩
  | snoc _ h ih =>
    intro b hb
    rcases List.mem_append.mp hb with hb | hb
    · exact ih b hb
    · simp at hb; subst hb; exact ⟨_, h⟩

theorem hex_ne {t : List Nat} {v : Nat} (h : Hex t v) : t ≠ [] := by
  cases h <;> simp

theorem hexDigit_byte {b d : Nat} (h : HexDigit b d) :
    (48 ≤ b ∧ b ≤ 57) ∨ (65 ≤ b ∧ b ≤ 70) ∨ (97 ≤ b ∧ b ≤ 102) := by
  unfold HexDigit at h; omega

theorem hexDigit_facts {b d : Nat} (h : HexDigit b d) :
    b < 128 ∧ spaceByte b = false ∧ b ≠ 0x3B ∧ b ≠ 0x23 ∧ b ≠ 43 ∧ b ≠ 45 ∧ b ≠ 0x78 ∧ b ≠ 0x58 ∧
      b ≠ 10 ∧ b ≠ 0 ∧ b ≠ 0x2C := by
  have := hexDigit_byte h
  have hs : spaceByte b = false := by
    rw [← Bool.not_eq_true]
    simp only [spaceByte, Bool.or_eq_true, beq_iff_eq, Bool.and_eq_true, Nat.ble_eq]
    omega
  refine ⟨?_, hs, ?_, ?_, ?_, ?_, ?_, ?_, ?_, ?_, ?_⟩ <;> omega

theorem scanX_hex {w t r : List Nat} {v : Nat} (hw : Spaces w) (h : Hex32 t v) (hr : NumEnd r) :
    scanX (w ++ t ++ r) = .ok (some (v, r)) := by
  obtain ⟨h, hv⟩ := h
  have hd := scanDigits_hex h r
  rw [scanDigits_end hr] at hd
  cases t with
  | nil => exact absurd rfl (hex_ne h)
  | cons b t =>
    obtain ⟨d, hb⟩ := hex_chars h b (by simp)
    have hf := hexDigit_facts hb
    have hdw : (w ++ (b :: t) ++ r).dropWhile spaceByte = b :: (t ++ r) := by
      rw [List.append_assoc]
      exact dropWhile_spaces hw (by intro x hx; simp at hx; subst hx; exact hf.2.1)
    unfold scanX
    rw [hdw]
    simp only
    have hx : ¬ (b = 48 ∧ ((t ++ r).head? = some 0x78 ∨ (t ++ r).head? = some 0x58)) := by
      rintro ⟨_, hx⟩
      cases t with
      | nil =>
        rcases hx with hx | hx
        · exact (hr _ hx).2.1 rfl
        · exact (hr _ hx).2.2 rfl
      | cons c t =>
        obtain ⟨d', hc⟩ := hex_chars h c (by simp)
        have hf' := hexDigit_facts hc
        simp only [List.cons_append, List.head?_cons, Option.some.injEq] at hx
        rcases hx with hx | hx
        · exact hf'.2.2.2.2.2.2.1 hx
        · exact hf'.2.2.2.2.2.2.2.1 hx
    rw [if_neg (by omega), if_neg hx, hexVal_of hb]
    simp only
    have hd' : scanDigits (b :: (t ++ r)) 0 = (v, r) := hd
    rw [hd', if_neg (by simpa using hv)]

theorem numEnd_nil : NumEnd [] := by intro b h; cases h

theorem scanX_nil : scanX [] = .ok none := rfl

theorem str_dots : str ".." = [0x2E, 0x2E] := by decide

theorem scanRange_of {t : List Nat} {a b : Nat} (h : RangeText t a b) :
    scanRange t = .ok (some (a, b)) := by
  cases h with
  | single h =>
    have := scanX_hex (w := []) (r := []) spaces_nil h numEnd_nil
    simp only [List.nil_append, List.append_nil] at this
    unfold scanRange
    rw [this]; rfl
  | @range t u _ _ h h' =>
    rw [str_dots]
    have h1 := scanX_hex (w := []) (r := 0x2E :: 0x2E :: u) spaces_nil h
      (by intro b hb; simp at hb; subst hb; decide)
    have h2 := scanX_hex (w := []) (r := []) spaces_nil h' numEnd_nil
    simp only [List.nil_append, List.append_nil] at h1 h2
    have e : t ++ [0x2E, 0x2E] ++ u = t ++ 0x2E :: 0x2E :: u := by simp
    unfold scanRange
    rw [e, h1, GRes.bind_ok]
    simp only
    rw [h2]; rfl

theorem numbers_ne {t l : List Nat} (h : NumbersText t l) : t ≠ [] := by
  cases h with
  | one h => exact hex_ne h.1
  | cons h => intro he; simp at he; exact hex_ne h.1 he.1

theorem numEnd_spaces {w u : List Nat} (hw : Spaces w) (hne : w ≠ []) : NumEnd (w ++ u) := by
  intro b hb
  cases w with
  | nil => exact absurd rfl hne
  | cons c w =>
    simp only [List.cons_append, List.head?_cons, Option.mem_some_iff] at hb
    subst hb
    have h := hw c (by simp)
    simp only [spaceByte, Bool.or_eq_true, beq_iff_eq, Bool.and_eq_true, Nat.ble_eq] at h
    refine ⟨?_, by omega, by omega⟩
    unfold hexVal
    rw [if_neg (by omega), if_neg (by omega), if_neg (by omega)]

theorem scanNumbers_of {t l : List Nat} (h : NumbersText t l) :
    ∀ (w : List Nat) (k : Nat), Spaces w → t.length < k → scanNumbers k (w ++ t) = .ok l := by
  induction h with
  | @one t a h =>
    intro w k hw hk
    cases k with
    | zero => omega
    | succ k =>
      have h1 := scanX_hex (r := []) hw h numEnd_nil
      rw [List.append_nil] at h1
      unfold scanNumbers
      rw [h1, GRes.bind_ok]
      simp only
      cases k with
      | zero =>
        have := List.length_pos_iff.mpr (hex_ne h.1)
        omega
      | succ k =>
        unfold scanNumbers
        rw [scanX_nil]; rfl
  | @cons t v u a l h hv hne hu ih =>
    intro w k hw hk
    cases k with
    | zero => omega
    | succ k =>
      have h1 := scanX_hex (r := v ++ u) hw h (numEnd_spaces (blank_spaces hv) hne)
      have e : w ++ (t ++ v ++ u) = w ++ t ++ (v ++ u) := by simp
      unfold scanNumbers
      rw [e, h1, GRes.bind_ok]
      simp only
      have := List.length_pos_iff.mpr (hex_ne h.1)
      rw [ih v k (blank_spaces hv) (by simp at hk; omega)]
      rfl

/-! ### Cores -/

theorem core_of_chars {t : List Nat}
    (h : ∀ b ∈ t, b < 128 ∧ spaceByte b = false ∧ b ≠ 0x3B ∧ b ≠ 0x23) : Core t := by
  refine ⟨?_, ?_, fun b hb => (h b hb).2.2⟩
  · intro b hb
    have := h b (List.mem_of_mem_head? hb)
    exact ⟨this.1, this.2.1⟩
  · intro b hb
    have := h b (by simpa using List.mem_of_mem_head? hb)
    exact ⟨this.1, this.2.1⟩

theorem hex_facts {t : List Nat} {v : Nat} (h : Hex t v) :
    ∀ b ∈ t, b < 128 ∧ spaceByte b = false ∧ b ≠ 0x3B ∧ b ≠ 0x23 ∧ b ≠ 43 ∧ b ≠ 45 ∧ b ≠ 0x78 ∧
      b ≠ 0x58 ∧ b ≠ 10 ∧ b ≠ 0 ∧ b ≠ 0x2C := by
  intro b hb
  obtain ⟨d, hd⟩ := hex_chars h b hb
  exact hexDigit_facts hd

theorem range_facts {t : List Nat} {a b : Nat} (h : RangeText t a b) :
    t ≠ [] ∧ ∀ x ∈ t, x < 128 ∧ spaceByte x = false ∧ x ≠ 0x3B ∧ x ≠ 0x23 ∧ x ≠ 0 := by
  cases h with
  | single h => exact ⟨hex_ne h.1, fun x hx => by have := hex_facts h.1 x hx; grind⟩
  | @range t u _ _ h h' =>
    refine ⟨by simp [hex_ne h.1], ?_⟩
    intro x hx
    rw [str_dots] at hx
    simp only [List.mem_append, List.mem_cons, List.not_mem_nil, or_false, or_self] at hx
    rcases hx with (hx | rfl) | hx
    · have := hex_facts h.1 x hx; grind
    · decide
    · have := hex_facts h'.1 x hx; grind

theorem core_range {t : List Nat} {a b : Nat} (h : RangeText t a b) : Core t :=
  core_of_chars fun x hx => by have := (range_facts h).2 x hx; grind

theorem numbers_core {t l : List Nat} (h : NumbersText t l) : Core t := by
  have main : (∀ b ∈ t.head?, b < 128 ∧ spaceByte b = false) ∧
      (∀ b ∈ t.getLast?, b < 128 ∧ spaceByte b = false) ∧ (∀ b ∈ t, b ≠ 0x3B ∧ b ≠ 0x23) := by
    induction h with
    | @one t a h =>
      refine ⟨fun b hb => ?_, fun b hb => ?_, fun b hb => ?_⟩
      · have := hex_facts h.1 b (List.mem_of_mem_head? hb); grind
      · have := hex_facts h.1 b (List.mem_of_mem_getLast? hb); grind
      · have := hex_facts h.1 b hb; grind
    | @cons t w u a l h hw hne hu ih =>
      refine ⟨fun b hb => ?_, fun b hb => ?_, fun b hb => ?_⟩
      · have hb' : b ∈ t.head? := by
          cases t with
          | nil => exact absurd rfl (hex_ne h.1)
          | cons c t => simpa using hb
        have := hex_facts h.1 b (List.mem_of_mem_head? hb'); grind
      · refine ih.2.1 b ?_
        have hu' := numbers_ne hu
        cases u with
        | nil => exact absurd rfl hu'
        | cons c u =>
          rw [List.getLast?_append, List.getLast?_cons] at hb
          rw [List.getLast?_cons]
          simpa using hb
      · simp only [List.mem_append] at hb
        rcases hb with (hb | hb) | hb
        · have := hex_facts h.1 b hb; grind
        · exact spaces_noSep (blank_spaces hw) b hb
        · exact ih.2.2 b hb
  refine ⟨main.1, ?_, main.2.2⟩
  intro b hb
  exact main.2.1 b (by simpa using hb)

theorem statusOf_name (s : Status) : statusOf (str (statusName s)) = some s := by
  cases s <;> decide

theorem statusName_chars (s : Status) :
    str (statusName s) ≠ [] ∧
    ∀ b ∈ str (statusName s), b < 128 ∧ spaceByte b = false ∧ b ≠ 0x3B ∧ b ≠ 0x23 ∧ b ≠ 0 := by
  cases s <;> decide

/-! ### A line without content -/

theorem lineEnd_noZero {e : List Nat} (h : LineEnd e) : 0 ∉ e := by
  obtain ⟨c, n, rfl, hc, hn⟩ := h
  have h1 : 0 ∉ c := by
    rcases hc with rfl | ⟨r, rfl, _, h0⟩
    · simp
    · rw [str_hash]; simp [h0]
  have h2 : 0 ∉ n := by rcases hn with rfl | rfl <;> simp
  simp [h1, h2]

theorem fieldsEnd_noZero {e : List Nat} (h : FieldsEnd e) : 0 ∉ e := by
  rcases h with h | ⟨r, n, rfl, hr, hn⟩
  · exact lineEnd_noZero h
  · have h2 := lineEnd_noZero hn
    have h1 : 0 ∉ r := fun h => (hr 0 h).2.1 rfl
    rw [str_semi]; simp [h1, h2]

theorem spaces_noZero {w : List Nat} (h : Spaces w) : 0 ∉ w := fun h0 => by
  have := h 0 h0; revert this; decide

theorem scanLine_skip {σ : Type} (scan : σ → List Nat → GRes σ) (st : σ) {l : List Nat}
    (h : SkipLine l) : scanLine scan st l = .ok st := by
  obtain ⟨w, e, rfl, hw, he⟩ := h
  have hz : 0 ∉ w ++ e := by
    have h1 := spaces_noZero (blank_spaces hw)
    have h2 := lineEnd_noZero he
    simp [h1, h2]
  unfold scanLine
  rw [lineStr_eq hz, stripEol_eq]
  obtain ⟨c, n, rfl, hc, hn⟩ := he
  rcases hc with rfl | ⟨r, rfl, _, _⟩
  · have := skipSpace_spaces (t := []) (spaces_append (blank_spaces hw) (lineEnd_spaces hn))
      (by intro b h; cases h)
    rw [List.append_nil] at this
    rw [List.nil_append, this]; rfl
  · rw [str_hash]
    have := skipSpace_spaces (t := 0x23 :: (r ++ n)) (blank_spaces hw)
      (by intro b h; simp at h; subst h; decide)
    have e : w ++ ([0x23] ++ r ++ n) = w ++ 0x23 :: (r ++ n) := by simp
    rw [e, this, GRes.bind_ok]; rfl

/-- A line with content reaches the scanning function without its leading white space. -/
theorem scanLine_row {σ : Type} (scan : σ → List Nat → GRes σ) (st : σ) {w t : List Nat}
    (hw : Spaces w) (hz : 0 ∉ w ++ t) (hne : t ≠ []) (hh : HeadOk t) (hc : t.head? ≠ some 0x23) :
    scanLine scan st (w ++ t) = scan st t := by
  unfold scanLine
  rw [lineStr_eq hz, stripEol_eq, skipSpace_spaces hw hh, GRes.bind_ok]
  cases t with
  | nil => exact absurd rfl hne
  | cons b r =>
    simp only
    rw [if_neg (by simpa using hc)]

/-! ### IdnaMappingTable.txt -/

theorem nextField_fieldsEnd {w t w' e : List Nat} (hw : Spaces w) (ht : Core t) (hw' : Spaces w')
    (he : FieldsEnd e) (hne : w ++ t ++ w' ++ e ≠ []) :
    ∃ rest, nextField (w ++ t ++ w' ++ e) = .ok (some t, rest) := by
  rcases he with he | ⟨r, n, rfl, _, _⟩
  · by_cases h0 : w ++ t ++ w' = []
    · obtain ⟨c, n, rfl, hc, hn⟩ := he
      obtain ⟨h1, h2⟩ := List.append_eq_nil_iff.mp h0
      obtain ⟨h3, h4⟩ := List.append_eq_nil_iff.mp h1
      subst h2 h3 h4
      rcases hc with rfl | ⟨r, rfl, _, _⟩
      · simp only [List.nil_append] at hne ⊢
        exact ⟨_, nextField_of hne (cutField_end (spaces_noSep (lineEnd_spaces hn)))
          (w := []) (w' := n) (by simp) spaces_nil core_nil (lineEnd_spaces hn)⟩
      · rw [str_hash]
        simp only [List.nil_append, List.append_assoc, List.cons_append]
        exact ⟨_, nextField_of (by simp) (cutField_hash (t := []) (by intro b h; cases h) _)
          (w := []) (w' := []) rfl spaces_nil core_nil spaces_nil⟩
    · exact ⟨_, nextField_lineEnd hw ht hw' he h0⟩
  · rw [str_semi]
    have e : w ++ t ++ w' ++ ([0x3B] ++ r ++ n) = w ++ t ++ w' ++ 0x3B :: (r ++ n) := by simp
    rw [e]
    exact ⟨_, nextField_semi hw ht hw'⟩

/-- The status field and the mapping field. -/
theorem mapping_fields {m : List Nat} {row : MapRow} (hm : MappingText m row.mapping)
    (hr : row.hasMapping) {w2 w3 : List Nat} (hw2 : Blank w2) (hw3 : Blank w3) :
    ∃ l2 mp rest, nextField (w2 ++ str (statusName row.status) ++ w3 ++ m) =
        .ok (some (str (statusName row.status)), l2) ∧
      nextField l2 = .ok (mp, rest) ∧ scanMapping row.first row.status mp = .ok row.mapping := by
  obtain ⟨hsn, hsc⟩ := statusName_chars row.status
  have hcore : Core (str (statusName row.status)) := core_of_chars fun b hb => by
    have := hsc b hb; grind
  have hmiss : row.mapping = [] → ∀ mp, (mp = none ∨ mp = some []) →
      scanMapping row.first row.status mp = .ok row.mapping := by
    intro h0 mp hmp
    have hc : ¬ ((row.status = .mapped ∨ row.status = .std3Mapped ∨ row.status = .deviation) ∧
        row.first ≠ 0x200C ∧ row.first ≠ 0x200D) := by
      rintro ⟨h1, h2, h3⟩
      rcases hr h0 h1 with h | h
      · exact h2 h
      · exact h3 h
    rcases hmp with rfl | rfl <;> · unfold scanMapping; simp only; rw [if_neg hc, h0]
  generalize hml : row.mapping = ml at hm
  cases hm with
  | absent he =>
    refine ⟨[], none, [], ?_, nextField_nil, by
      have := hmiss hml none (Or.inl rfl)
      rw [hml] at this
      exact this⟩
    exact nextField_lineEnd (blank_spaces hw2) hcore (blank_spaces hw3) he (by simp [hsn])
  | @empty w e hw he =>
    have h1 := nextField_semi (r := w ++ e) (blank_spaces hw2) hcore (blank_spaces hw3)
    rw [str_semi]
    have ee : w2 ++ str (statusName row.status) ++ w3 ++ ([0x3B] ++ w ++ e) =
      w2 ++ str (statusName row.status) ++ w3 ++ 0x3B :: (w ++ e) := by simp
    rw [ee]
    by_cases h0 : w ++ e = []
    · rw [h0] at h1
      rw [h0]
      refine ⟨[], none, [], h1, nextField_nil, ?_⟩
      have := hmiss hml none (Or.inl rfl)
      rw [hml] at this
      exact this
    · obtain ⟨rest, h2⟩ := nextField_fieldsEnd (w := w) (t := []) (w' := []) (blank_spaces hw)
        core_nil spaces_nil he (by simpa using h0)
      simp only [List.append_nil] at h2
      refine ⟨_, _, rest, h1, h2, ?_⟩
      have := hmiss hml (some []) (Or.inr rfl)
      rw [hml] at this
      exact this
  | @listed w n w' e _ hw hn hw' he =>
    have h1 := nextField_semi (r := w ++ n ++ w' ++ e) (blank_spaces hw2) hcore (blank_spaces hw3)
    rw [str_semi]
    have ee : w2 ++ str (statusName row.status) ++ w3 ++ ([0x3B] ++ w ++ n ++ w' ++ e) =
      w2 ++ str (statusName row.status) ++ w3 ++ 0x3B :: (w ++ n ++ w' ++ e) := by simp
    rw [ee]
    have hnn := numbers_ne hn
    obtain ⟨rest, h2⟩ := nextField_fieldsEnd (blank_spaces hw) (numbers_core hn) (blank_spaces hw')
      he (by simp [hnn])
    refine ⟨_, _, rest, h1, h2, ?_⟩
    have h3 := scanNumbers_of hn [] (n.length + 1) spaces_nil (by omega)
    rw [List.nil_append] at h3
    cases n with
    | nil => exact absurd rfl hnn
    | cons b n => exact h3

theorem mapping_noZero {m l : List Nat} (h : MappingText m l) : 0 ∉ m := by
  have hnum : ∀ {t l : List Nat}, NumbersText t l → 0 ∉ t := by
    intro t l h
    induction h with
    | one h => exact fun h0 => (hex_facts h.1 0 h0).2.2.2.2.2.2.2.2.2.1 rfl
    | cons h hw _ _ ih =>
      simp only [List.mem_append, not_or]
      exact ⟨⟨fun h0 => (hex_facts h.1 0 h0).2.2.2.2.2.2.2.2.2.1 rfl,
        spaces_noZero (blank_spaces hw)⟩, ih⟩
  cases h with
  | absent he => exact lineEnd_noZero he
  | empty hw he =>
    rw [str_semi]
    simp [spaces_noZero (blank_spaces hw), fieldsEnd_noZero he]
  | listed hw hn hw' he =>
    rw [str_semi]
    simp [spaces_noZero (blank_spaces hw), spaces_noZero (blank_spaces hw'), hnum hn,
      fieldsEnd_noZero he]

/-- A line of IdnaMappingTable.txt is read as what it says. -/
theorem read_IdnaMappings_of {row : MapRow} {l : List Nat} (h : MapLine row l) (hr : row.hasMapping)
    (st : GenState) :
    scanLine read_IdnaMappings_line st l = read_IdnaMappings st row := by
  cases h with
  | @intro w0 r w1 w2 w3 m h0 hrng h1 h2 h3 hm =>
    obtain ⟨l2, mp, rest, e2, e3, e4⟩ := mapping_fields hm hr h2 h3
    obtain ⟨hrn, hrc⟩ := range_facts hrng
    obtain ⟨hsn, hsc⟩ := statusName_chars row.status
    have ee : w0 ++ r ++ w1 ++ str ";" ++ w2 ++ str (statusName row.status) ++ w3 ++ m =
        w0 ++ (r ++ w1 ++ 0x3B :: (w2 ++ str (statusName row.status) ++ w3 ++ m)) := by
      rw [str_semi]; simp
    have hz : 0 ∉ w0 ++ (r ++ w1 ++ 0x3B :: (w2 ++ str (statusName row.status) ++ w3 ++ m)) := by
      have a1 := spaces_noZero (blank_spaces h0)
      have a2 := spaces_noZero (blank_spaces h1)
      have a3 := spaces_noZero (blank_spaces h2)
      have a4 := spaces_noZero (blank_spaces h3)
      have a5 := mapping_noZero hm
      have a6 : 0 ∉ r := fun h => (hrc 0 h).2.2.2.2 rfl
      have a7 : 0 ∉ str (statusName row.status) := fun h => (hsc 0 h).2.2.2.2 rfl
      simp [a1, a2, a3, a4, a5, a6, a7]
    rw [ee, scanLine_row _ st (blank_spaces h0) hz (by simp [hrn])]
    · have e1 := nextField_semi (w := []) (r := w2 ++ str (statusName row.status) ++ w3 ++ m)
        spaces_nil (core_range hrng) (blank_spaces h1)
      rw [List.nil_append] at e1
      unfold read_IdnaMappings_line
      rw [e1, GRes.bind_ok]
      simp only
      rw [e2, GRes.bind_ok]
      simp only
      rw [e3, GRes.bind_ok]
      simp only
      rw [scanRange_of hrng, GRes.bind_ok]
      simp only
      by_cases c1 : row.first > row.last
      · rw [if_pos c1]; unfold read_IdnaMappings; rw [if_pos c1]
      · rw [if_neg c1]
        by_cases c2 : outOfOrder row.first st.map = true
        · rw [if_pos c2]; unfold read_IdnaMappings; rw [if_neg c1, if_pos c2]
        · rw [if_neg c2, statusOf_name]
          simp only
          rw [e4, GRes.bind_ok]
    · intro b hb
      cases r with
      | nil => exact absurd rfl hrn
      | cons c r =>
        simp at hb; subst hb
        have := hrc c (by simp); exact ⟨this.1, this.2.1⟩
    · cases r with
      | nil => exact absurd rfl hrn
      | cons c r =>
        simp only [List.cons_append, List.head?_cons, ne_eq, Option.some.injEq]
        exact (hrc c (by simp)).2.2.2.1

/-- The text of IdnaMappingTable.txt is read as the lines it consists of. -/
theorem scan_map_file {rows : List MapRow} {text : List Nat} (h : MapFile rows text)
    (hr : ∀ r ∈ rows, r.hasMapping) (st : GenState) :
    scanFile read_IdnaMappings_line st text = scanMappings st rows := by
  obtain ⟨ls, hl, hc⟩ := h
  unfold scanFile
  rw [lines_fgets hl]
  clear hl
  induction hc generalizing st with
  | nil => rfl
  | skip hs _ ih => unfold scanLines; rw [scanLine_skip _ _ hs, GRes.bind_ok]; exact ih hr st
  | @row l ls r rows hs _ ih =>
    unfold scanLines scanMappings
    rw [read_IdnaMappings_of hs (hr r (by simp))]
    cases read_IdnaMappings st r with
    | complaint => rfl
    | ub => rfl
    | ok st' => exact ih (fun x hx => hr x (by simp [hx])) st'

/-! ### DerivedNormalizationProps.txt -/

theorem str_nfcqc : str "NFC_QC" = [0x4E, 0x46, 0x43, 0x5F, 0x51, 0x43] := by decide

/-- What `read_NFCQC` does with a line that says `row`. -/
def qcStep (st : List QcRow) (row : QcRow) : GRes (List QcRow) :=
  if row.first > row.last then .complaint
  else if st.length + 1 ≥ 140 then .complaint else .ok (row :: st)

theorem qcName_chars (check : Nat) : qcName check ≠ [] ∧
    ∀ b ∈ qcName check, b < 128 ∧ spaceByte b = false ∧ b ≠ 0x3B ∧ b ≠ 0x23 ∧ b ≠ 0 := by
  unfold qcName
  split <;> decide

theorem read_NFCQC_of {row : QcRow} {l : List Nat} (h : QcLine row l) (st : List QcRow) :
    scanLine read_NFCQC st l = qcStep st row := by
  cases h with
  | @intro w0 r w1 w2 w3 w4 w5 e h0 hrng h1 h2 h3 h4 h5 he hck =>
    obtain ⟨hrn, hrc⟩ := range_facts hrng
    obtain ⟨hqn, hqc⟩ := qcName_chars row.check
    have hname : ∀ b ∈ str "NFC_QC", b < 128 ∧ spaceByte b = false ∧ b ≠ 0x3B ∧ b ≠ 0x23 ∧ b ≠ 0 := by
      decide
    have ee : w0 ++ r ++ w1 ++ str ";" ++ w2 ++ str "NFC_QC" ++ w3 ++ str ";" ++ w4 ++
        qcName row.check ++ w5 ++ e =
        w0 ++ (r ++ w1 ++ 0x3B :: (w2 ++ str "NFC_QC" ++ w3 ++ 0x3B :: (w4 ++
        qcName row.check ++ w5 ++ e))) := by
      rw [str_semi]; simp
    have hz : 0 ∉ w0 ++ (r ++ w1 ++ 0x3B :: (w2 ++ str "NFC_QC" ++ w3 ++ 0x3B :: (w4 ++
        qcName row.check ++ w5 ++ e))) := by
      have a1 := spaces_noZero (blank_spaces h0)
      have a2 := spaces_noZero (blank_spaces h1)
      have a3 := spaces_noZero (blank_spaces h2)
      have a4 := spaces_noZero (blank_spaces h3)
      have a5 := spaces_noZero (blank_spaces h4)
      have a6 := spaces_noZero (blank_spaces h5)
      have a7 := fieldsEnd_noZero he
      have a8 : 0 ∉ r := fun h => (hrc 0 h).2.2.2.2 rfl
      have a9 : 0 ∉ str "NFC_QC" := by decide
      have a10 : 0 ∉ qcName row.check := fun h => (hqc 0 h).2.2.2.2 rfl
      simp [a1, a2, a3, a4, a5, a6, a7, a8, a9, a10]
    rw [ee, scanLine_row _ st (blank_spaces h0) hz (by simp [hrn])]
    · have e1 := nextField_semi (w := []) (r := w2 ++ str "NFC_QC" ++ w3 ++ 0x3B :: (w4 ++
        qcName row.check ++ w5 ++ e)) spaces_nil (core_range hrng) (blank_spaces h1)
      rw [List.nil_append] at e1
      have e2 := nextField_semi (r := w4 ++ qcName row.check ++ w5 ++ e) (blank_spaces h2)
        (core_of_chars (t := str "NFC_QC") fun b hb => by have := hname b hb; grind)
        (blank_spaces h3)
      obtain ⟨rest, e3⟩ := nextField_fieldsEnd (blank_spaces h4)
        (core_of_chars (t := qcName row.check) fun b hb => by have := hqc b hb; grind)
        (blank_spaces h5) he (by simp [hqn])
      unfold read_NFCQC
      rw [e1, GRes.bind_ok]
      simp only
      rw [e2, GRes.bind_ok]
      simp only
      rw [e3, GRes.bind_ok]
      simp only
      rw [if_neg (by rw [str_nfcqc]; simp), scanRange_of hrng, GRes.bind_ok]
      simp only
      unfold qcStep
      by_cases c1 : row.first > row.last
      · rw [if_pos c1, if_pos c1]
      · rw [if_neg c1, if_neg c1]
        obtain ⟨first, last, check⟩ := row
        simp only at hck ⊢
        rcases hck with rfl | rfl
        · have : (qcName 1).head? = some 0x4E := by decide
          rw [if_pos this]; rfl
        · have : (qcName 2).head? = some 0x4D := by decide
          rw [this, if_neg (by decide), if_pos rfl]; rfl
    · intro b hb
      cases r with
      | nil => exact absurd rfl hrn
      | cons c r =>
        simp at hb; subst hb
        have := hrc c (by simp); exact ⟨this.1, this.2.1⟩
    · cases r with
      | nil => exact absurd rfl hrn
      | cons c r =>
        simp only [List.cons_append, List.head?_cons, ne_eq, Option.some.injEq]
        exact (hrc c (by simp)).2.2.2.1

theorem skipSpace_ascii {s : List Nat} (h : ∀ b ∈ s, b < 128) :
    ∃ t, skipSpace s = .ok t ∧ ∀ b ∈ t, b < 128 := by
  induction s with
  | nil => exact ⟨[], rfl, h⟩
  | cons b s ih =>
    unfold skipSpace
    rw [if_neg (by have := h b (by simp); omega)]
    split
    · exact ih fun x hx => h x (by simp [hx])
    · exact ⟨_, rfl, h⟩

theorem nextField_ascii {l : List Nat} (h : ∀ b ∈ (cutField l).1, b < 128) :
    ∃ x, nextField l = .ok x := by
  cases l with
  | nil => exact ⟨_, rfl⟩
  | cons b r =>
    obtain ⟨t, h1, h2⟩ := skipSpace_ascii h
    obtain ⟨u, h3, _⟩ := skipSpace_ascii (s := t.reverse) (by simpa using h2)
    unfold nextField
    simp only
    rw [h1, GRes.bind_ok, h3, GRes.bind_ok]
    exact ⟨_, rfl⟩

theorem cutField_lineEnd {r e : List Nat} (hr : ∀ b ∈ r, b < 128) (he : LineEnd e) :
    ∀ b ∈ (cutField (r ++ e)).1, b < 128 := by
  induction r with
  | nil =>
    obtain ⟨c, n, rfl, hc, hn⟩ := he
    rcases hc with rfl | ⟨r, rfl, _, _⟩
    · rcases hn with rfl | rfl <;> decide
    · rw [str_hash]; simp [cutField]
  | cons b r ih =>
    rw [List.cons_append]
    unfold cutField
    split
    · simp
    · split
      · simp
      · intro x hx
        rcases List.mem_cons.mp hx with rfl | hx
        · exact hr x (by simp)
        · exact ih (fun y hy => hr y (by simp [hy])) x hx

theorem read_NFCQC_other {l : List Nat} (h : OtherLine l) (st : List QcRow) :
    scanLine read_NFCQC st l = .ok st := by
  cases h with
  | @intro w0 r w1 w2 p w3 e a b h0 hrng h1 h2 h3 he hp hne =>
    obtain ⟨hrn, hrc⟩ := range_facts hrng
    have hpc : ∀ x ∈ p, x < 128 ∧ spaceByte x = false ∧ x ≠ 0x3B ∧ x ≠ 0x23 ∧ x ≠ 0 := by
      intro x hx
      have := hp x hx
      refine ⟨by omega, ?_, by omega, by omega, by omega⟩
      rw [← Bool.not_eq_true]
      simp only [spaceByte, Bool.or_eq_true, beq_iff_eq, Bool.and_eq_true, Nat.ble_eq]
      omega
    have hcore : Core p := core_of_chars fun b hb => by have := hpc b hb; grind
    have ee : w0 ++ r ++ w1 ++ str ";" ++ w2 ++ p ++ w3 ++ e =
        w0 ++ (r ++ w1 ++ 0x3B :: (w2 ++ p ++ w3 ++ e)) := by
      rw [str_semi]; simp
    have hz : 0 ∉ w0 ++ (r ++ w1 ++ 0x3B :: (w2 ++ p ++ w3 ++ e)) := by
      have a1 := spaces_noZero (blank_spaces h0)
      have a2 := spaces_noZero (blank_spaces h1)
      have a3 := spaces_noZero (blank_spaces h2)
      have a4 := spaces_noZero (blank_spaces h3)
      have a7 := fieldsEnd_noZero he
      have a8 : 0 ∉ r := fun h => (hrc 0 h).2.2.2.2 rfl
      have a9 : 0 ∉ p := fun h => (hpc 0 h).2.2.2.2 rfl
      simp [a1, a2, a3, a4, a7, a8, a9]
    -- the second and the third field
    have hf : ∃ ty l2 x, nextField (w2 ++ p ++ w3 ++ e) = .ok (ty, l2) ∧ nextField l2 = .ok x ∧
        ty ≠ some (str "NFC_QC") := by
      by_cases hnil : w2 ++ p ++ w3 ++ e = []
      · rw [hnil]; exact ⟨none, [], _, rfl, rfl, by simp⟩
      · rcases he with he | ⟨q, n, rfl, hq, hn⟩
        · by_cases hn2 : w2 ++ p ++ w3 = []
          · obtain ⟨hx, hw3⟩ := List.append_eq_nil_iff.mp hn2
            obtain ⟨hw2, hp0⟩ := List.append_eq_nil_iff.mp hx
            subst hw2 hp0 hw3
            simp only [List.nil_append] at hnil ⊢
            obtain ⟨c, n, rfl, hc, hn⟩ := he
            rcases hc with rfl | ⟨q, rfl, _, _⟩
            · simp only [List.nil_append] at hnil ⊢
              exact ⟨_, _, _, nextField_of hnil (cutField_end (spaces_noSep (lineEnd_spaces hn)))
                (w := []) (w' := n) (by simp) spaces_nil core_nil (lineEnd_spaces hn), rfl, by
                  rw [str_nfcqc]; simp⟩
            · rw [str_hash]
              simp only [List.nil_append, List.append_assoc, List.cons_append]
              exact ⟨_, _, _, nextField_of (by simp)
                (cutField_hash (t := []) (by intro b h; cases h) _)
                (w := []) (w' := []) rfl spaces_nil core_nil spaces_nil, rfl, by
                  rw [str_nfcqc]; simp⟩
          · exact ⟨_, _, _, nextField_lineEnd (blank_spaces h2) hcore (blank_spaces h3) he hn2, rfl,
              by simpa using hne⟩
        · rw [str_semi]
          have e3 : w2 ++ p ++ w3 ++ ([0x3B] ++ q ++ n) = w2 ++ p ++ w3 ++ 0x3B :: (q ++ n) := by simp
          rw [e3]
          obtain ⟨x, hx⟩ := nextField_ascii (cutField_lineEnd (fun b hb => (hq b hb).2.2) hn)
          exact ⟨_, _, x, nextField_semi (blank_spaces h2) hcore (blank_spaces h3), hx,
            by simpa using hne⟩
    obtain ⟨ty, l2, ⟨x1, x2⟩, e2, e3, e4⟩ := hf
    rw [ee, scanLine_row _ st (blank_spaces h0) hz (by simp [hrn])]
    · have e1 := nextField_semi (w := []) (r := w2 ++ p ++ w3 ++ e) spaces_nil (core_range hrng)
        (blank_spaces h1)
      rw [List.nil_append] at e1
      unfold read_NFCQC
      rw [e1, GRes.bind_ok]
      simp only
      rw [e2, GRes.bind_ok]
      simp only
      rw [e3, GRes.bind_ok]
      simp only
      rw [if_pos (by rw [← str_nfcqc]; exact e4)]
      rfl
    · intro b hb
      cases r with
      | nil => exact absurd rfl hrn
      | cons c r =>
        simp at hb; subst hb
        have := hrc c (by simp); exact ⟨this.1, this.2.1⟩
    · cases r with
      | nil => exact absurd rfl hrn
      | cons c r =>
        simp only [List.cons_append, List.head?_cons, ne_eq, Option.some.injEq]
        exact (hrc c (by simp)).2.2.2.1

/-- Read all of the lines. -/
def qcSteps (st : List QcRow) : List QcRow → GRes (List QcRow)
  | [] => .ok st
  | r :: rows => do
    let st ← qcStep st r
    qcSteps st rows

theorem qcSteps_eq (st : List QcRow) (rows : List QcRow) (hst : st.length < 140) :
    qcSteps st rows = if (∀ r ∈ rows, r.first ≤ r.last) ∧ st.length + rows.length < 140 then
      .ok (rows.reverse ++ st) else .complaint := by
  induction rows generalizing st with
  | nil => simp [qcSteps, hst]
  | cons r rows ih =>
    unfold qcSteps qcStep
    by_cases c1 : r.first > r.last
    · rw [if_pos c1, if_neg]; · rfl
      rintro ⟨h, _⟩
      have := h r (by simp); omega
    · rw [if_neg c1]
      by_cases c2 : st.length + 1 ≥ 140
      · rw [if_pos c2, if_neg]; · rfl
        rintro ⟨_, h⟩
        simp at h; omega
      · rw [if_neg c2, GRes.bind_ok, ih (r :: st) (by simp; omega)]
        have : ((∀ x ∈ rows, x.first ≤ x.last) ∧ (r :: st).length + rows.length < 140) ↔
            ((∀ x ∈ r :: rows, x.first ≤ x.last) ∧ st.length + (r :: rows).length < 140) := by
          simp only [List.length_cons, List.mem_cons, forall_eq_or_imp]
          constructor
          · rintro ⟨h1, h2⟩; exact ⟨⟨by omega, h1⟩, by omega⟩
          · rintro ⟨⟨_, h1⟩, h2⟩; exact ⟨h1, by omega⟩
        simp only [this, List.reverse_cons, List.append_assoc, List.singleton_append]

theorem scan_qc_file {rows : List QcRow} {text : List Nat} (h : QcFile rows text) :
    scanFile read_NFCQC [] text =
      if (∀ r ∈ rows, r.first ≤ r.last) ∧ rows.length < 140 then .ok rows.reverse
      else .complaint := by
  obtain ⟨ls, hl, hc⟩ := h
  have main : ∀ st, scanLines read_NFCQC st ls = qcSteps st rows := by
    clear hl
    induction hc with
    | nil => intro st; rfl
    | skip hs _ ih =>
      intro st
      unfold scanLines
      rcases hs with hs | hs
      · rw [scanLine_skip _ _ hs, GRes.bind_ok]; exact ih st
      · rw [read_NFCQC_other hs, GRes.bind_ok]; exact ih st
    | @row l ls r rows hs _ ih =>
      intro st
      unfold scanLines qcSteps
      rw [read_NFCQC_of hs]
      cases qcStep st r with
      | ok st' => exact ih st'
      | complaint => rfl
      | ub => rfl
  unfold scanFile
  rw [lines_fgets hl, main, qcSteps_eq [] rows (by decide)]
  simp

/-- The text of the two files is turned into the tables of the lines they consist of. -/
theorem gentr46map_text_eq {rows : List MapRow} {qc : List QcRow} {t1 t2 : List Nat}
    (h1 : MapFile rows t1) (hr : ∀ r ∈ rows, r.hasMapping) (h2 : QcFile qc t2)
    (tbl : List IdnaRow) :
    gentr46map_text t1 t2 tbl = gentr46map rows qc tbl := by
  unfold gentr46map_text gentr46map
  rw [scan_map_file h1 hr]
  cases scanMappings ⟨[], []⟩ rows with
  | complaint => rfl
  | ub => rfl
  | ok st =>
    simp only [GRes.bind_ok]
    rw [scan_qc_file h2]
    by_cases c : (∀ r ∈ qc, r.first ≤ r.last) ∧ qc.length < 140
    · rw [if_pos c, GRes.bind_ok, List.reverse_reverse]
    · rw [if_neg c]
      have : gentr46finish st qc tbl = none := by
        unfold gentr46finish
        split
        · rfl
        · split
          · rfl
          · rw [if_pos]
            simp only [List.any_eq_true, decide_eq_true_eq]
            by_cases c' : qc.length < 140
            · left
              have c1 : ¬ ∀ r ∈ qc, r.first ≤ r.last := fun h => c ⟨h, c'⟩
              simp only [Classical.not_forall, Nat.not_le] at c1
              obtain ⟨r, hr, hlt⟩ := c1
              exact ⟨r, hr, hlt⟩
            · right; omega
      rw [this]; rfl

/-! ### idna-tables-properties.csv -/

theorem propName_chars (p : IdnaProp) : str (propName p) ≠ [] ∧
    ∀ b ∈ str (propName p), b ≠ 0x2C ∧ b ≠ 0 := by
  cases p <;> decide

theorem takeWhile_append_stop {p : Nat → Bool} {t : List Nat} {c : Nat} {r : List Nat}
    (ht : ∀ b ∈ t, p b = true) (hc : p c = false) : (t ++ c :: r).takeWhile p = t := by
  induction t with
  | nil => simp [hc]
  | cons b t ih => simp [ht b (by simp), ih fun x hx => ht x (by simp [hx])]

theorem dropWhile_append_stop {p : Nat → Bool} {t : List Nat} {c : Nat} {r : List Nat}
    (ht : ∀ b ∈ t, p b = true) (hc : p c = false) : (t ++ c :: r).dropWhile p = c :: r := by
  induction t with
  | nil => simp [hc]
  | cons b t ih => simp [ht b (by simp), ih fun x hx => ht x (by simp [hx])]

theorem takeWhile_all_of {p : Nat → Bool} {t : List Nat} (ht : ∀ b ∈ t, p b = true) :
    t.takeWhile p = t := by
  induction t with
  | nil => rfl
  | cons b t ih => simp [ht b (by simp), ih fun x hx => ht x (by simp [hx])]

theorem dropWhile_all {p : Nat → Bool} {t : List Nat} (ht : ∀ b ∈ t, p b = true) :
    t.dropWhile p = [] := by
  induction t with
  | nil => rfl
  | cons b t ih => simp [ht b (by simp), ih fun x hx => ht x (by simp [hx])]

theorem dropWhile_head {p : Nat → Bool} {t : List Nat} (ht : ∀ b ∈ t.head?, p b = false) :
    t.dropWhile p = t := by
  cases t with
  | nil => rfl
  | cons b t => simp [ht b rfl]

/-- A token followed by a delimiter. -/
theorem strtok_stop {delim : Nat → Bool} {t : List Nat} {c : Nat} {r : List Nat} (hne : t ≠ [])
    (ht : ∀ b ∈ t, delim b = false) (hc : delim c = true) :
    strtok delim (t ++ c :: r) = some (t, r) ∧ strtokLine delim (t ++ c :: r) = t := by
  have hd : (t ++ c :: r).dropWhile delim = t ++ c :: r := by
    apply dropWhile_head
    intro b hb
    cases t with
    | nil => exact absurd rfl hne
    | cons x t => simp at hb; subst hb; exact ht x (by simp)
  have h1 := takeWhile_append_stop (p := fun x => !delim x) (t := t) (c := c) (r := r)
    (fun b hb => by simp [ht b hb]) (by simp [hc])
  have h2 := dropWhile_append_stop (p := fun x => !delim x) (t := t) (c := c) (r := r)
    (fun b hb => by simp [ht b hb]) (by simp [hc])
  constructor
  · unfold strtok
    rw [hd]
    cases t with
    | nil => exact absurd rfl hne
    | cons x t =>
      simp only [List.cons_append] at h1 h2 ⊢
      rw [h1, h2]; rfl
  · unfold strtokLine
    rw [hd, h1]
    cases t with
    | nil => exact absurd rfl hne
    | cons x t => simp [ht x (by simp)]

/-- A token that is the whole string. -/
theorem strtok_all {delim : Nat → Bool} {t : List Nat} (hne : t ≠ [])
    (ht : ∀ b ∈ t, delim b = false) :
    strtok delim t = some (t, []) ∧ strtokLine delim t = t := by
  have hd : t.dropWhile delim = t := by
    apply dropWhile_head
    intro b hb
    exact ht b (List.mem_of_mem_head? hb)
  have h1 := takeWhile_all_of (p := fun x => !delim x) (t := t) (fun b hb => by simp [ht b hb])
  have h2 := dropWhile_all (p := fun x => !delim x) (t := t) (fun b hb => by simp [ht b hb])
  constructor
  · unfold strtok
    rw [hd]
    cases t with
    | nil => exact absurd rfl hne
    | cons x t => simp only; rw [h1, h2]; rfl
  · unfold strtokLine
    rw [hd, h1]
    cases t with
    | nil => exact absurd rfl hne
    | cons x t => simp [ht x (by simp)]

theorem str_comma : str "," = [0x2C] := by decide
theorem str_minus : str "-" = [0x2D] := by decide

/-- What is printed for a line that says `row`. -/
def csvOut (row : CsvRow) (x : Option (List Nat × List Nat × List Nat)) : Prop :=
  if row.prop = .unassigned then x = none
  else ∃ y, x = some y ∧ readInit y = some ⟨row.first, row.last, row.prop⟩

theorem readInit_of {h k : List Nat} {a b : Nat} (h1 : Hex32 h a) (h2 : Hex32 k b) {p : IdnaProp}
    (hp : p ≠ .unassigned) : readInit (h, k, str (propName p)) = some ⟨a, b, p⟩ := by
  have d1 := scanDigits_hex h1.1 []
  have d2 := scanDigits_hex h2.1 []
  simp only [List.append_nil, scanDigits] at d1 d2
  have n1 := hex_ne h1.1
  have n2 := hex_ne h2.1
  unfold readInit
  simp only [d1, d2]
  cases h with
  | nil => exact absurd rfl n1
  | cons x h =>
    cases k with
    | nil => exact absurd rfl n2
    | cons y k =>
      simp only [u32_of_lt h1.2, u32_of_lt h2.2]
      cases p
      · rw [if_pos (by decide)]
      · rw [if_neg (by decide), if_pos (by decide)]
      · rw [if_neg (by decide), if_neg (by decide), if_pos (by decide)]
      · rw [if_neg (by decide), if_neg (by decide), if_neg (by decide), if_pos (by decide)]
      · exact absurd rfl hp

theorem unassignedName_iff (p : IdnaProp) :
    str (propName p) = [0x55, 0x4E, 0x41, 0x53, 0x53, 0x49, 0x47, 0x4E, 0x45, 0x44] ↔
      p = .unassigned := by
  cases p <;> decide

theorem gendataLine_of {row : CsvRow} {l : List Nat} (h : CsvLine row l) :
    0 ∉ l ∧ ∃ x, gendataLine l = .ok x ∧ csvOut row x := by
  obtain ⟨hpn, hpc⟩ := propName_chars row.prop
  have z : 0 ∉ str (propName row.prop) := fun h => (hpc 0 h).2 rfl
  have tok : ∀ r, strtok (· == 0x2C) (str (propName row.prop) ++ 0x2C :: r) =
      some (str (propName row.prop), r) := fun r =>
    (strtok_stop hpn (fun b hb => by simpa using (hpc b hb).1) (by rfl)).1
  cases h with
  | @single h r hh hl hz =>
    have hn := hex_ne hh.1
    have hf := hex_facts hh.1
    have hc : ∀ b ∈ h, (b == 0x2C) = false := fun b hb => by
      simpa using (hf b hb).2.2.2.2.2.2.2.2.2.2
    have hm : ∀ b ∈ h, (b == 0x2D) = false := fun b hb => by
      simpa using (hf b hb).2.2.2.2.2.1
    have ee : h ++ str "," ++ str (propName row.prop) ++ str "," ++ r =
        h ++ 0x2C :: (str (propName row.prop) ++ 0x2C :: r) := by rw [str_comma]; simp
    rw [ee]
    refine ⟨?_, ?_⟩
    · have zh : 0 ∉ h := fun h0 => (hf 0 h0).2.2.2.2.2.2.2.2.2.1 rfl
      simp [zh, z, hz]
    · obtain ⟨s1, s2⟩ := strtok_stop (r := str (propName row.prop) ++ 0x2C :: r) hn hc
        (c := 0x2C) (by rfl)
      obtain ⟨s3, s4⟩ := strtok_all (delim := (· == 0x2D)) hn hm
      unfold gendataLine
      rw [s1]
      simp only
      rw [tok]
      simp only
      by_cases hu : row.prop = .unassigned
      · rw [if_pos ((unassignedName_iff _).mpr hu)]
        exact ⟨none, rfl, by unfold csvOut; rw [if_pos hu]⟩
      · rw [if_neg (fun hx => hu ((unassignedName_iff _).mp hx)), s2, s3, s4]
        refine ⟨_, rfl, ?_⟩
        unfold csvOut
        rw [if_neg hu]
        exact ⟨_, rfl, by rw [readInit_of hh hh hu, hl]⟩
  | @range h k r hh hk hz =>
    have hn := hex_ne hh.1
    have hkn := hex_ne hk.1
    have hf := hex_facts hh.1
    have hkf := hex_facts hk.1
    have hm : ∀ b ∈ h, (b == 0x2D) = false := fun b hb => by
      simpa using (hf b hb).2.2.2.2.2.1
    have hc : ∀ b ∈ h ++ 0x2D :: k, (b == 0x2C) = false := fun b hb => by
      simp only [List.mem_append, List.mem_cons] at hb
      rcases hb with hb | rfl | hb
      · simpa using (hf b hb).2.2.2.2.2.2.2.2.2.2
      · rfl
      · simpa using (hkf b hb).2.2.2.2.2.2.2.2.2.2
    have ee : h ++ str "-" ++ k ++ str "," ++ str (propName row.prop) ++ str "," ++ r =
        (h ++ 0x2D :: k) ++ 0x2C :: (str (propName row.prop) ++ 0x2C :: r) := by
      rw [str_comma, str_minus]; simp
    rw [ee]
    refine ⟨?_, ?_⟩
    · have zh : 0 ∉ h := fun h0 => (hf 0 h0).2.2.2.2.2.2.2.2.2.1 rfl
      have zk : 0 ∉ k := fun h0 => (hkf 0 h0).2.2.2.2.2.2.2.2.2.1 rfl
      simp [zh, zk, z, hz]
    · obtain ⟨s1, s2⟩ := strtok_stop (r := str (propName row.prop) ++ 0x2C :: r) (by simp) hc
        (c := 0x2C) (by rfl)
      obtain ⟨s3, s4⟩ := strtok_stop (delim := (· == 0x2D)) (c := 0x2D) (r := k) hn hm (by rfl)
      obtain ⟨s5, _⟩ := strtok_all (delim := fun _ => false) hkn (fun _ _ => rfl)
      unfold gendataLine
      rw [s1]
      simp only
      rw [tok]
      simp only
      by_cases hu : row.prop = .unassigned
      · rw [if_pos ((unassignedName_iff _).mpr hu)]
        exact ⟨none, rfl, by unfold csvOut; rw [if_pos hu]⟩
      · rw [if_neg (fun hx => hu ((unassignedName_iff _).mp hx)), s2, s3, s4]
        simp only
        rw [s5]
        refine ⟨_, rfl, ?_⟩
        unfold csvOut
        rw [if_neg hu]
        exact ⟨_, rfl, readInit_of hh hk hu⟩

/-- The text of idna-tables-properties.csv is turned into the table of its lines. -/
theorem gendata_text_eq {rows : List CsvRow} {text : List Nat} (h : CsvFile rows text) :
    ∃ out, gendata_text text = .ok out ∧ out.map readInit = (gendata rows).map some := by
  obtain ⟨r, ls, hr, hl, hc⟩ := h
  have hh : str "Codepoint,Property," = csvHeader := by decide
  have hz : 0 ∉ csvHeader ++ r := by
    have : 0 ∉ csvHeader := by decide
    simp [this, hr]
  unfold gendata_text
  rw [lines_fgets hl]
  simp only
  rw [hh, lineStr_eq hz, if_pos (by simp)]
  clear hl
  induction hc with
  | nil => exact ⟨[], rfl, rfl⟩
  | skip h => exact absurd h (by simp)
  | @row l ls row rows hs _ ih =>
    obtain ⟨z, x, h1, h2⟩ := gendataLine_of hs
    obtain ⟨out, h3, h4⟩ := ih
    unfold gendataLines
    rw [lineStr_eq z, h1, GRes.bind_ok, h3, GRes.bind_ok]
    unfold csvOut at h2
    unfold gendata at h4 ⊢
    by_cases hu : row.prop = .unassigned
    · rw [if_pos hu] at h2
      subst h2
      refine ⟨out, rfl, ?_⟩
      rw [h4, List.filter_cons_of_neg (by simp [hu])]
    · rw [if_neg hu] at h2
      obtain ⟨y, rfl, hy⟩ := h2
      refine ⟨y :: out, rfl, ?_⟩
      rw [List.filter_cons_of_pos (by simp [hu])]
      simp only [List.map_cons, hy, h4]

end Idn2
