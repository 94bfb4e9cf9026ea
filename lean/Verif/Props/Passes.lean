import Verif.Props.Puny

/-
Property C113: how many rounds the Punycode coders make.
-/

namespace Idn2
open Spec

/-- C113.  The encoder makes at most one more pass over its input than it may store characters, however
long the input: it computes the same if it is stopped then. -/
theorem C113_encode {k phys cap : Nat} (u : List Nat) (hp : cap ≤ phys)
    (hm : cap < 18446744073709551616) (hk : cap < k) :
    encodeWithin k phys cap u = punycode_encode phys cap u ∧ encodeWithin k phys cap u ≠ .ub := by
  rw [(encodeWithin_eq u hp hm (.inr hk)).1, (punycode_encode_eq u hp hm).1]
  exact ⟨rfl, by split <;> simp⟩

/-- C113.  And no more than there are characters. -/
theorem C113_encode_short {k phys cap : Nat} (u : List Nat) (hp : cap ≤ phys)
    (hm : cap < 18446744073709551616) (hk : u.length ≤ k) :
    encodeWithin k phys cap u = punycode_encode phys cap u ∧ encodeWithin k phys cap u ≠ .ub := by
  rw [(encodeWithin_eq u hp hm (.inl hk)).1, (punycode_encode_eq u hp hm).1]
  exact ⟨rfl, by split <;> simp⟩

/-- The bound is attained: two passes for a room of one character. -/
example : encodeWithin 1 1 1 [0x80, 0x81] = .ub ∧
    encodeWithin 2 1 1 [0x80, 0x81] = .err .punycodeBigOutput := by decide +kernel

theorem decVarint_shorter {bias : Nat} {rest rest' : List Nat} {i w k i' : Nat}
    (h : decVarint bias rest i w k = .ok (i', rest')) : rest'.length < rest.length := by
  induction rest generalizing i w k with
  | nil => cases h
  | cons c rest ih =>
    unfold decVarint at h
    simp only [] at h
    repeat' split at h
    all_goals first
      | (cases h; done)
      | (cases h; simp; done)
      | (have := ih h; rw [List.length_cons]; omega)

/-- `punycode_decode` with at most `k` code points put in, more than these being undefined. -/
def decodeWithin (k phys outLen : Nat) (input : List Nat) : Res (List Nat) :=
  if input.length = 0 then .err .punycodeBadInput
  else
    match decScan input 0 0 with
    | none => .err .punycodeBadInput
    | some b =>
      let maxOut := if outLen > maxint then maxint else outLen
      if input[b]? = some 0x2D then
        if b = 0 ∨ b = input.length - 1 then .err .punycodeBadInput
        else if b ≥ maxOut then .err .punycodeBigOutput
        else if b ≤ phys then
          decLoop phys maxOut k (input.drop (b + 1)) 0x80 0 72 (input.take b)
        else .ub
      else decLoop phys maxOut k (input.drop b) 0x80 0 72 []

theorem decodeWithin_length (phys cap : Nat) (s : List Nat) :
    decodeWithin s.length phys cap s = punycode_decode phys cap s := rfl

theorem decLoop_fuel {phys maxOut : Nat} : ∀ (k1 k2 : Nat) (rest : List Nat) (n i bias : Nat)
    (out : List Nat), rest.length ≤ k1 ∨ maxOut < k1 + out.length →
    rest.length ≤ k2 ∨ maxOut < k2 + out.length → out.length ≤ maxOut →
    decLoop phys maxOut k1 rest n i bias out = decLoop phys maxOut k2 rest n i bias out := by
  intro k1
  induction k1 with
  | zero =>
    intro k2 rest n i bias out h1 h2 h3
    have : rest = [] := List.eq_nil_of_length_eq_zero (by omega)
    subst this
    cases k2 <;> rfl
  | succ k1 ih =>
    intro k2 rest n i bias out h1 h2 h3
    cases rest with
    | nil => cases k2 <;> rfl
    | cons c rest =>
      cases k2 with
      | zero => simp only [List.length_cons] at h2; omega
      | succ k2 =>
        unfold decLoop
        simp only []
        cases hv : decVarint bias (c :: rest) i 1 36 with
        | ub => rfl
        | err e => rfl
        | ok r =>
          obtain ⟨i', rest'⟩ := r
          have hl := decVarint_shorter hv
          simp only []
          split
          · rfl
          · rfl
          · split
            · rfl
            · split
              · rfl
              · split
                · rfl
                · split
                  · rename_i hm hq
                    have hi := List.length_insertIdx_of_le_length hq.2 (a := u32 (n + i' / u32 (out.length + 1)))
                    simp only [List.length_cons] at h1 h2 hl
                    exact ih k2 _ _ _ _ _ (by rw [hi]; omega) (by rw [hi]; omega) (by rw [hi]; omega)
                  · rfl

theorem decodeWithin_rounds {k phys cap : Nat} (s : List Nat) (hk : cap < k) :
    decodeWithin k phys cap s = punycode_decode phys cap s := by
  rw [← decodeWithin_length]
  have hc : (if cap > maxint then maxint else cap) ≤ cap := by split <;> omega
  unfold decodeWithin
  split
  · rfl
  · split
    · rfl
    · rename_i b hb
      simp only []
      generalize (if cap > maxint then maxint else cap) = mo at *
      split
      · split
        · rfl
        · split
          · rfl
          · split
            · exact decLoop_fuel _ _ _ _ _ _ _ (.inr (by omega))
                (.inl (by rw [List.length_drop]; omega)) (by rw [List.length_take]; omega)
            · rfl
      · exact decLoop_fuel _ _ _ _ _ _ _ (.inr (by omega))
          (.inl (by rw [List.length_drop]; omega)) (Nat.zero_le _)

/-- C113.  The decoder puts in at most one more code point than it may store, however long the input. -/
theorem C113_decode {k phys cap : Nat} (s : List Nat) (hp : cap ≤ phys) (hc : cap < maxint)
    (hk : cap < k) :
    decodeWithin k phys cap s = punycode_decode phys cap s ∧ decodeWithin k phys cap s ≠ .ub := by
  have he := decodeWithin_rounds (phys := phys) s hk
  exact ⟨he, he ▸ punycode_decode_ne_ub s hp hc⟩

/-- The bound is attained: "aaa" has a second code point for which there is no room. -/
example : decodeWithin 1 1 1 [0x61, 0x61, 0x61] = .ub ∧
    decodeWithin 2 1 1 [0x61, 0x61, 0x61] = .err .punycodeBigOutput := by decide +kernel

/-- What lookup asks of the coders for a label: sixty passes at most, however long the label. -/
example (u : List Nat) : encodeWithin 60 59 59 u = punycode_encode 59 59 u :=
  (C113_encode u (by decide) (by decide) (by decide)).1

end Idn2
