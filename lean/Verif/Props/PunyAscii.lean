import Verif.Model.Decode
import Verif.Data.Vectors
import Verif.Props.PunyEncode

/-
Strings of ASCII code points have an encoding which the decoder refuses; the tables of the
project's own test programs.
-/

namespace Idn2

theorem encBasics_ascii {phys cap : Nat} (hp : cap ≤ phys) (h64 : cap < 18446744073709551616) :
    ∀ (u out : List Nat), (∀ x ∈ u, x < 0x80) → out.length + u.length + 1 ≤ cap →
      encBasics phys cap u out = .ok (out ++ u) := by
  intro u
  induction u with
  | nil => intro out _ _; simp [encBasics]
  | cons x u ih =>
    intro out hu hl
    simp only [List.length_cons] at hl
    have hx : x < 0x80 := hu x (by simp)
    have hs : ¬ sub64 cap out.length < 2 := by unfold sub64; omega
    rw [encBasics, if_pos hx, if_neg hs, push, if_pos (by omega)]
    simp only
    rw [ih (out ++ [x]) (fun y hy => hu y (by simp [hy])) (by simp; omega)]
    simp

theorem encBasics_ascii_ok {phys cap : Nat} : ∀ (u out o : List Nat), (∀ x ∈ u, x < 0x80) →
    encBasics phys cap u out = .ok o → o = out ++ u := by
  intro u
  induction u with
  | nil => intro out o _ h; rw [encBasics] at h; cases h; simp
  | cons x u ih =>
    intro out o hu h
    rw [encBasics, if_pos (hu x (by simp))] at h
    split at h
    · cases h
    · unfold push at h
      split at h
      · next hq =>
        split at hq
        · cases hq
          have := ih _ o (fun y hy => hu y (by simp [hy])) h
          rw [this]; simp
        · cases hq
      · cases h
      · cases h

theorem decScan_last (t : List Nat) : ∀ (j b r : Nat), t.getLast? = some 0x2D →
    decScan t j b = some r → r = j + (t.length - 1) := by
  induction t with
  | nil => intro j b r h; simp at h
  | cons c t ih =>
    intro j b r hl hs
    rw [decScan] at hs
    split at hs
    · cases t with
      | nil =>
        simp only [List.getLast?_singleton, Option.some.injEq] at hl
        subst hl
        simp [decScan] at hs
        simp [hs]
      | cons d t =>
        have := ih (j + 1) _ r (by simpa [List.getLast?_cons_cons] using hl) hs
        simp only [List.length_cons] at this ⊢
        omega
    · cases hs

/-- **C72.** A string of ASCII code points is encoded as itself with a hyphen behind it. -/
theorem C72_ascii_encoding {phys cap : Nat} {u : List Nat} (hp : cap ≤ phys)
    (h64 : cap < 18446744073709551616) (h32 : u.length ≤ 4294967295) (hu : u ≠ [])
    (ha : ∀ x ∈ u, x < 0x80) (hl : u.length + 1 ≤ cap) :
    punycode_encode phys cap u = .ok (u ++ [0x2D]) := by
  have hpos := List.length_pos_iff.mpr hu
  unfold punycode_encode
  rw [if_neg (by rw [maxint_def]; omega), encBasics_ascii hp h64 u [] ha (by simpa using hl)]
  have hb : u32 ([] ++ u).length = u.length := by simp only [List.nil_append]; exact u32_of_lt (by omega)
  simp only [hb]
  rw [if_pos (by omega)]
  simp only [List.nil_append, push]
  rw [if_pos (by omega)]
  simp only
  unfold encLoop
  rw [if_neg (by simp)]

/-- **C72.** A string that ends in a hyphen is refused by the decoder, whatever is before. -/
theorem C72_trailing_hyphen (phys cap : Nat) (t : List Nat) :
    punycode_decode phys cap (t ++ [0x2D]) = .err .punycodeBadInput := by
  unfold punycode_decode
  rw [if_neg (by simp)]
  cases hs : decScan (t ++ [0x2D]) 0 0 with
  | none => rfl
  | some b =>
    have := decScan_last _ 0 0 b (by simp) hs
    simp only [List.length_append, List.length_singleton, Nat.add_sub_cancel, Nat.zero_add] at this
    subst this
    simp

/-- **C72.** So no encoding of a string of ASCII code points can be decoded. -/
theorem C72_ascii_not_decodable {physE capE physD capD : Nat} {u s : List Nat}
    (ha : ∀ x ∈ u, x < 0x80) (h : punycode_encode physE capE u = .ok s) :
    punycode_decode physD capD s = .err .punycodeBadInput := by
  unfold punycode_encode at h
  split at h
  · cases h
  · next hlen =>
    rw [maxint_def] at hlen
    split at h
    · cases h
    · cases h
    · next o ho =>
      have := encBasics_ascii_ok u [] o ha ho
      rw [List.nil_append] at this
      rw [this] at h
      simp only [u32_of_lt (show u.length < 4294967296 by omega)] at h
      by_cases h0 : u = []
      · subst h0
        simp [encLoop] at h
        subst h
        rfl
      · have hpos := List.length_pos_iff.mpr h0
        rw [if_pos hpos] at h
        unfold push at h
        split at h
        · cases h
        · cases h
        · next o ho =>
          split at ho
          · cases ho
            unfold encLoop at h
            rw [if_neg (by simp)] at h
            cases h
            exact C72_trailing_hyphen _ _ _
          · cases ho

/-- "abc" is encoded as "abc-", which is refused; "abc" with U+00E9 is decoded again. -/
example : punycode_encode 9 9 [0x61, 0x62, 0x63] = .ok [0x61, 0x62, 0x63, 0x2D] ∧
    punycode_decode 9 9 [0x61, 0x62, 0x63, 0x2D] = .err .punycodeBadInput ∧
    punycode_encode 9 9 [0x61, 0x62, 0x63, 0xE9] =
      .ok [0x61, 0x62, 0x63, 0x2D, 0x64, 0x6D, 0x61] ∧
    punycode_decode 9 9 [0x61, 0x62, 0x63, 0x2D, 0x64, 0x6D, 0x61] =
      .ok [0x61, 0x62, 0x63, 0xE9] := by decide +kernel

/-- **C72.** The table of tests/test-punycode.c: all rows are encoded as stated, and all are
decoded as stated but the last, "-> $1.00 <--", which is refused.  (The program counts the failure
and returns 0.) -/
theorem C72_vectors :
    (∀ v ∈ Vectors.puny, punycode_encode 8192 8192 v.1 = .ok v.2) ∧
    (∀ v ∈ Vectors.puny.dropLast, punycode_decode 8192 8192 v.2 = .ok v.1) ∧
    (∀ v ∈ Vectors.puny.getLast?, punycode_decode 8192 8192 v.2 = .err .punycodeBadInput) := by
  decide +kernel

/-- The answer of `idn2_to_unicode_8z4z` for a row of the table. -/
def unicodeRow (v : List Nat × Option Rc × List Nat) : Out (Option Rc × Option Cell) :=
  .val (v.2.1, some (if v.2.1 = none then .buf 0 v.2.2 else .old 1))

/-- **C72.** The table of tests/test-tounicode.c: all rows are decoded as stated. -/
theorem C72_unicode_vectors :
    ∀ v ∈ Vectors.unicode, idn2_to_unicode_8z4z (some v.1) (some (.old 1)) 0 = unicodeRow v := by
  decide +kernel

end Idn2
