import Verif.Props.ToUnicode

/-
Property C90: to-unicode and the case of ASCII letters.
-/

namespace Idn2
open Spec

/-- A result with its ASCII letters in lower case. -/
def lowR : Res (List Nat) → Res (List Nat)
  | .ok u => .ok (u.map asciiLower)
  | .err e => .err e
  | .ub => .ub

theorem asciiLower_hyphen {c : Nat} : asciiLower c = 0x2D ↔ c = 0x2D := by
  unfold asciiLower; split <;> omega

theorem asciiLower_dot {c : Nat} : asciiLower c = 0x2E ↔ c = 0x2E := by
  unfold asciiLower; split <;> omega

theorem asciiLower_ge {c : Nat} (h : 0x80 ≤ c) : asciiLower c = c := by
  unfold asciiLower; split <;> omega

theorem asciiLower_lt {c : Nat} : asciiLower c < 0x80 ↔ c < 0x80 := by
  unfold asciiLower; split <;> omega

theorem decode_digit_lower (c : Nat) : decode_digit (asciiLower c) = decode_digit c := by
  unfold decode_digit asciiLower; split <;> grind

theorem decBasic_lower (c : Nat) : decBasic (asciiLower c) = decBasic c := by
  unfold decBasic asciiLower
  split
  · rw [Bool.eq_iff_iff]; simp; omega
  · rfl

theorem decScan_lower (s : List Nat) (j b : Nat) :
    decScan (s.map asciiLower) j b = decScan s j b := by
  induction s generalizing j b with
  | nil => rfl
  | cons c r ih =>
    simp only [List.map_cons, decScan, decBasic_lower, asciiLower_hyphen, ih]

theorem map_insertIdx_lower (l : List Nat) (i x : Nat) :
    (l.insertIdx i x).map asciiLower = (l.map asciiLower).insertIdx i (asciiLower x) := by
  induction l generalizing i with
  | nil => cases i <;> simp [List.insertIdx]
  | cons a l ih => cases i <;> simp [ih]

/-- Letters of either case are the same digits. -/
theorem decVarint_lower (bias : Nat) (s : List Nat) (i w k : Nat) :
    decVarint bias (s.map asciiLower) i w k =
      match decVarint bias s i w k with
      | .ok (i, r) => .ok (i, r.map asciiLower)
      | .err e => .err e
      | .ub => .ub := by
  induction s generalizing i w k with
  | nil => rfl
  | cons c r ih =>
    simp only [List.map_cons, decVarint, decode_digit_lower, ih]
    repeat' split
    all_goals first | rfl | (simp_all; done)

theorem decLoop_lower (phys maxOut fuel : Nat) (s : List Nat) (n i bias : Nat) (out : List Nat)
    (h1 : 0x80 ≤ n) (h2 : n ≤ maxint) :
    decLoop phys maxOut fuel (s.map asciiLower) n i bias (out.map asciiLower) =
      lowR (decLoop phys maxOut fuel s n i bias out) := by
  induction fuel generalizing s n i bias out with
  | zero =>
    cases s <;> simp [decLoop, lowR]
  | succ fuel ih =>
    cases s with
    | nil => simp [decLoop, lowR]
    | cons c r =>
      have hv := decVarint_lower bias (c :: r) i 1 36
      rw [List.map_cons] at hv
      simp only [decLoop, List.map_cons, hv, List.length_map]
      cases decVarint bias (c :: r) i 1 36 with
      | ub => rfl
      | err e => rfl
      | ok x =>
        obtain ⟨i', rest⟩ := x
        simp only
        cases adapt (sub32 i' i) (u32 (out.length + 1)) (i == 0) with
        | ub => rfl
        | err e => rfl
        | ok bias =>
          simp only
          split
          · rfl
          · rename_i hov
            have hn : u32 (n + i' / u32 (out.length + 1)) = n + i' / u32 (out.length + 1) := by
              have : sub32 maxint n = maxint - n := by unfold sub32 maxint at *; omega
              rw [this] at hov
              have : n + i' / u32 (out.length + 1) < 4294967296 := by unfold maxint at *; omega
              exact u32_of_lt this
            rw [hn]
            have h3 := Nat.le_trans h1 (Nat.le_add_right n (i' / u32 (out.length + 1)))
            generalize n + i' / u32 (out.length + 1) = n at h3
            split
            · rfl
            · split
              · rfl
              · split
                · have : (out.map asciiLower).insertIdx (i' % u32 (out.length + 1))
                        n =
                      (out.insertIdx (i' % u32 (out.length + 1)) n).map asciiLower := by
                    rw [map_insertIdx_lower, asciiLower_ge h3]
                  rw [this]
                  exact ih _ _ _ _ _ h3 (by unfold maxint; omega)
                · rfl

/-- The Punycode decoder and the case of letters. -/
theorem decode_lower (phys cap : Nat) (s : List Nat) :
    punycode_decode phys cap (s.map asciiLower) = lowR (punycode_decode phys cap s) := by
  unfold punycode_decode
  simp only [List.length_map, decScan_lower]
  split
  · rfl
  · cases decScan s 0 0 with
    | none => rfl
    | some b =>
      simp only
      have hb : (s.map asciiLower)[b]? = some 0x2D ↔ s[b]? = some 0x2D := by
        rw [List.getElem?_map]
        cases s[b]? <;> simp [asciiLower_hyphen]
      simp only [hb, ← List.map_drop, ← List.map_take]
      generalize (if cap > maxint then maxint else cap) = cap
      split
      · split
        · rfl
        · split
          · rfl
          · split
            · exact decLoop_lower _ _ _ _ _ _ _ _ (by omega) (by unfold maxint; omega)
            · rfl
      · exact decLoop_lower _ _ _ _ _ _ _ [] (by omega) (by unfold maxint; omega)

theorem contByte_lower (c : Nat) : contByte (asciiLower c) = contByte c := by
  unfold contByte asciiLower; split <;> grind

theorem mbtouc_lower (s : List Nat) :
    u8_mbtouc (s.map asciiLower) = (u8_mbtouc s).map fun x => (asciiLower x.1, x.2) := by
  cases s with
  | nil => rfl
  | cons b r =>
    by_cases hb : b < 0x80
    · have := asciiLower_lt.mpr hb
      simp [u8_mbtouc, hb, this]
    · have e := asciiLower_ge (c := b) (by omega)
      have key : u8_mbtouc (b :: r.map asciiLower) = u8_mbtouc (b :: r) := by
        have hc : ∀ c, asciiLower c = c ∨ (asciiLower c < 0x80 ∧ c < 0x80) := by
          intro c
          by_cases h : c < 0x80
          · exact .inr ⟨asciiLower_lt.mpr h, h⟩
          · exact .inl (asciiLower_ge (by omega))
        unfold u8_mbtouc
        match r with
        | [] => rfl
        | [a] => simp only [List.map_cons, List.map_nil, contByte_lower]
        | [a, b] =>
          simp only [List.map_cons, List.map_nil, contByte_lower]
          rcases hc a with h | ⟨h, h'⟩
          · rw [h]
          · have : contByte a = none := by unfold contByte; rw [if_neg (by omega)]
            simp [this]
        | a :: b :: d :: r =>
          simp only [List.map_cons, contByte_lower]
          rcases hc a with h | ⟨h, h'⟩
          · rw [h]
          · have : contByte a = none := by unfold contByte; rw [if_neg (by omega)]
            simp [this]
      rw [List.map_cons, e, key]
      have hge : ∀ x, u8_mbtouc (b :: r) = some x → 0x80 ≤ x.1 := by
        intro x hx
        unfold u8_mbtouc at hx
        grind [contByte]
      cases h : u8_mbtouc (b :: r) with
      | none => rfl
      | some x => rw [Option.map_some, asciiLower_ge (hge x h)]

theorem u8DecodeAux_lower (k : Nat) (s : List Nat) :
    u8DecodeAux k (s.map asciiLower) = (u8DecodeAux k s).map (List.map asciiLower) := by
  induction s generalizing k with
  | nil => cases k <;> rfl
  | cons b r ih =>
    cases k with
    | succ k => simp only [List.map_cons, u8DecodeAux, ih]
    | zero =>
      have := mbtouc_lower (b :: r)
      rw [List.map_cons] at this
      simp only [List.map_cons, u8DecodeAux, this]
      cases u8_mbtouc (b :: r) with
      | none => rfl
      | some x =>
        simp only [Option.map_some, ih]
        cases u8DecodeAux (x.2 - 1) r <;> rfl

theorem uniLabelP_lower (l : List Nat) : uniLabelP (l.map asciiLower) = lowR (uniLabelP l) := by
  have hi : ∀ c, asciiLower (asciiLower c) = asciiLower c := by
    intro c; unfold asciiLower; repeat' split
    all_goals omega
  have ha : aceAnyCase (l.map asciiLower) = aceAnyCase l := by
    rw [Bool.eq_iff_iff, aceAnyCase_iff, aceAnyCase_iff]
    unfold XnPrefix
    rw [← List.map_take, List.map_map]
    have : asciiLower ∘ asciiLower = asciiLower := funext hi
    rw [this]
  unfold uniLabelP
  rw [ha, ← List.map_drop, decode_lower]
  split
  · rfl
  · unfold u8Decode
    rw [u8DecodeAux_lower]
    cases u8DecodeAux 0 l with
    | none => rfl
    | some u =>
      simp only [Option.map_some, List.length_map]
      split <;> rfl

theorem splitDot_lower (s : List Nat) :
    splitDot (s.map asciiLower) = (splitDot s).map (List.map asciiLower) := by
  induction s with
  | nil => rfl
  | cons c r ih =>
    simp only [List.map_cons, splitDot, asciiLower_dot, ih]
    split
    · rfl
    · cases splitDot r <;> rfl

theorem uniLoop_lower (ls : List (List Nat)) (out : List Nat) :
    uniLoop (ls.map (List.map asciiLower)) (out.map asciiLower) = lowR (uniLoop ls out) := by
  induction ls generalizing out with
  | nil => rfl
  | cons l ls ih =>
    by_cases hne : ls = []
    · subst hne
      simp only [List.map_cons, List.map_nil, uniLoop, uniLabelP_lower]
      cases uniLabelP l with
      | ub => rfl
      | err e => rfl
      | ok u =>
        simp only [lowR, Res.bind_ok, List.length_map]
        split
        · rfl
        · simp
    · rw [List.map_cons, uniLoop_cons (by simpa using hne), uniLoop_cons hne, uniLabelP_lower]
      cases uniLabelP l with
      | ub => rfl
      | err e => rfl
      | ok u =>
        simp only [lowR, Res.bind_ok, List.length_map]
        split
        · rfl
        · have := ih (out ++ u ++ [0x2E])
          simp only [List.map_append, List.map_cons, List.map_nil] at this
          exact this

/-- To-unicode commutes with putting ASCII letters in lower case. -/
theorem uniP_lower (s : List Nat) : uniP (s.map asciiLower) = lowR (uniP s) := by
  unfold uniP
  rw [splitDot_lower]
  exact uniLoop_lower _ []

/-- C90.  Names that differ in the case of ASCII letters only (the DNS takes them for the same) are
shown as texts that differ in the case of ASCII letters only, or are refused with the same error. -/
theorem C90_letter_case {s t : List Nat} (h : s.map asciiLower = t.map asciiLower) :
    (∀ v, ToUniOk s v → ∃ w, ToUniOk t w ∧ w.map asciiLower = v.map asciiLower) ∧
    (∀ e, ToUniErr s e ↔ ToUniErr t e) := by
  have hl : lowR (uniP s) = lowR (uniP t) := by rw [← uniP_lower, ← uniP_lower, h]
  simp only [ToUniOk_iff, ToUniErr_iff]
  revert hl
  cases uniP s <;> cases uniP t <;> simp +contextual [lowR, eq_comm]

/-- C90, lower case: what is shown for a name in lower case is what is shown for the name, in lower
case. -/
theorem C90_lower (s v : List Nat) (h : ToUniOk s v) :
    ToUniOk (s.map asciiLower) (v.map asciiLower) := by
  rw [ToUniOk_iff] at *
  rw [uniP_lower, h]
  rfl

/-- C90, beside it: "xN--F-0FA.B" is shown as "Fä.B", and "XN--f-0Fa.b" as "fä.b". -/
example : ToUniOk [0x78, 0x4E, 0x2D, 0x2D, 0x46, 0x2D, 0x30, 0x46, 0x41, 0x2E, 0x42]
      [0x46, 0xE4, 0x2E, 0x42] ∧
    ToUniOk [0x58, 0x4E, 0x2D, 0x2D, 0x66, 0x2D, 0x30, 0x46, 0x61, 0x2E, 0x62]
      [0x66, 0xE4, 0x2E, 0x62] := by decide +kernel

end Idn2
