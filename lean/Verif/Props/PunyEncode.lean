import Verif.Proof.PunyEnc
import Verif.Spec.PunyEncode
import Verif.Props.PunyDecode

/-
Property C63: the outcome of the Punycode encoder for every string, error codes included.
-/

namespace Idn2
open Spec

theorem headFits_iff {cap : Nat} {u : List Nat} :
    Punycode.HeadFits cap u ↔ (Punycode.basics u = [] ∨ (Punycode.basics u).length + 1 ≤ cap) := by
  unfold Punycode.HeadFits Punycode.headPart
  by_cases h : Punycode.basics u = []
  · simp [h]
  · simp [h]

theorem basics_append (p r : List Nat) :
    Punycode.basics (p ++ r) = Punycode.basics p ++ Punycode.basics r := by
  unfold Punycode.basics; rw [List.filter_append]

theorem basErr_append {cap : Nat} : ∀ (p r : List Nat) (k : Nat), Punycode.Encodable p →
    (Punycode.basics p = [] ∨ k + (Punycode.basics p).length + 1 ≤ cap) →
    basErr cap k (p ++ r) = basErr cap (k + (Punycode.basics p).length) r := by
  intro p
  induction p with
  | nil => intro r k _ _; rfl
  | cons x p ih =>
    intro r k h1 h2
    have hx := h1 x (by simp)
    have hp : Punycode.Encodable p := fun y hy => h1 y (by simp [hy])
    rw [Punycode.basics_cons] at h2 ⊢
    simp only [List.cons_append, basErr]
    by_cases hlt : x < 0x80
    · rw [if_pos hlt] at h2 ⊢
      simp only [reduceCtorEq, false_or, List.length_cons] at h2
      rw [if_pos hlt, if_neg (by omega), ih r (k + 1) hp (Or.inr (by omega)), List.length_cons]
      congr 1; omega
    · rw [if_neg hlt] at h2 ⊢
      rw [if_neg hlt, if_pos hx]
      exact ih r k hp h2

theorem insErr_of {cap b : Nat} : ∀ (xs : List (Nat × Nat)) (S : Punycode.St) (l : Nat),
    (∀ d ∈ Punycode.deltas b S xs, d ≤ maxint) → l + (Punycode.codes b S xs).length ≤ cap →
    insErr cap b S l xs = none := by
  intro xs
  induction xs with
  | nil => intro S l _ _; rfl
  | cons x xs ih =>
    intro S l h1 h2
    simp only [Punycode.deltas, List.mem_cons, forall_eq_or_imp] at h1
    simp only [Punycode.codes, List.length_append] at h2
    simp only [insErr]
    rw [if_neg (by omega), if_neg (by omega)]
    exact ih _ _ h1.2 (by omega)

theorem insErr_split {cap b : Nat} : ∀ (xs : List (Nat × Nat)) (S : Punycode.St) (l : Nat) (e : Rc),
    l ≤ cap → insErr cap b S l xs = some e → ∃ a x c, xs = a ++ x :: c ∧
      (∀ d ∈ Punycode.deltas b S a, d ≤ maxint) ∧ l + (Punycode.codes b S a).length ≤ cap ∧
      ((e = .punycodeOverflow ∧ maxint < Punycode.delta (a.foldl (Punycode.next b) S) x) ∨
        (e = .punycodeBigOutput ∧ Punycode.delta (a.foldl (Punycode.next b) S) x ≤ maxint ∧
          cap < l + (Punycode.codes b S (a ++ [x])).length)) := by
  intro xs
  induction xs with
  | nil => intro S l e _ h; cases h
  | cons x xs ih =>
    intro S l e hl h
    simp only [insErr] at h
    split at h
    · next hd =>
      cases h
      exact ⟨[], x, xs, rfl, by simp [Punycode.deltas], by simpa [Punycode.codes] using hl,
        Or.inl ⟨rfl, hd⟩⟩
    · next hd =>
      split at h
      · next hc =>
        cases h
        exact ⟨[], x, xs, rfl, by simp [Punycode.deltas], by simpa [Punycode.codes] using hl,
          Or.inr ⟨rfl, by simp only [List.foldl_nil]; omega, by simpa [Punycode.codes] using hc⟩⟩
      · obtain ⟨a, y, c, rfl, h1, h2, h3⟩ := ih _ _ _ (by omega) h
        refine ⟨x :: a, y, c, rfl, ?_, ?_, ?_⟩
        · simp only [Punycode.deltas, List.mem_cons, forall_eq_or_imp]
          exact ⟨by omega, h1⟩
        · simp only [Punycode.codes, List.length_append]; omega
        · simp only [List.foldl_cons, List.cons_append, Punycode.codes, List.length_append]
          rcases h3 with h3 | ⟨h0, h3, h4⟩
          · exact Or.inl h3
          · exact Or.inr ⟨h0, h3, by omega⟩

/-- What goes wrong first, as a value of the specification. -/
def encOut (cap : Nat) (u : List Nat) : Except Rc (List Nat) :=
  match encErr cap u with
  | none => .ok (Punycode.encode u)
  | some e => .error e

theorem written_length (u : List Nat) (xs : List (Nat × Nat)) : Punycode.written u xs =
    (Punycode.headPart u).length + (Punycode.codes (Punycode.basics u).length
      (Punycode.init (Punycode.basics u).length) xs).length := rfl

theorem encoding_out (cap : Nat) (u : List Nat) : Punycode.Encoding cap u (encOut cap u) := by
  unfold encOut
  cases he : encErr cap u with
  | none =>
    unfold encErr at he
    split at he
    · cases he
    · next hl =>
      rw [Option.or_eq_none_iff] at he
      obtain ⟨h1, h2⟩ := basErr_none _ _ he.1
      obtain ⟨h3, h4⟩ := insErr_none _ _ _ he.2
      have hf : Punycode.HeadFits cap u := headFits_iff.mpr (by simpa using h2)
      refine .done (by rw [Punycode.max32_eq]; omega) h1 hf ⟨h3, ?_⟩
      rcases h4 with h4 | h4
      · rw [written_length, h4]; exact hf
      · exact h4
  | some e =>
    unfold encErr at he
    split at he
    · next hl => cases he; exact .long hl
    · next hl =>
      have hl' : u.length ≤ Punycode.max32 := by rw [Punycode.max32_eq]; omega
      rw [Option.or_eq_some_iff] at he
      rcases he with he | ⟨hb, he⟩
      · obtain ⟨p, x, r, hu, h1, h2, h3⟩ := basErr_some _ _ _ he
        have hf : Punycode.HeadFits cap p := headFits_iff.mpr (by simpa using h2)
        rcases h3 with ⟨rfl, h3⟩ | ⟨rfl, h3, h4⟩
        · exact .bad p x r hl' hu h1 hf h3
        · refine .head p x r hl' hu h1 hf h3 ?_
          rw [headFits_iff, basics_append, Punycode.basics_cons, if_pos h3]
          simp [Punycode.basics] at h4 ⊢
          omega
      · obtain ⟨h1, h2⟩ := basErr_none _ _ hb
        have hf : Punycode.HeadFits cap u := headFits_iff.mpr (by simpa using h2)
        obtain ⟨a, x, c, g1, g2, g3, g4⟩ := insErr_split _ _ _ _ hf he
        rcases g4 with ⟨rfl, g4⟩ | ⟨rfl, g4, g5⟩
        · exact .large a x c hl' h1 hf g1 ⟨g2, g3⟩ g4
        · exact .full a x c hl' h1 hf g1 ⟨g2, g3⟩ g4 g5

theorem encoding_unique {cap : Nat} {u : List Nat} {y : Except Rc (List Nat)}
    (h : Punycode.Encoding cap u y) : y = encOut cap u := by
  have hmx : maxint = 4294967295 := rfl
  have basNone {u : List Nat} (h1 : Punycode.Encodable u) (h2 : Punycode.HeadFits cap u) :
      basErr cap 0 u = none := by
    have := basErr_append (cap := cap) u [] 0 h1 (by simpa using headFits_iff.mp h2)
    rw [List.append_nil] at this
    rw [this]; rfl
  unfold encOut
  have key (e : Rc) (he : encErr cap u = some e) : (Except.error e : Except Rc (List Nat)) =
      match encErr cap u with | none => .ok (Punycode.encode u) | some e => .error e := by
    rw [he]
  cases h with
  | long h => exact key _ (by unfold encErr; rw [Punycode.max32_eq] at h; rw [if_pos h])
  | bad p x r hl hu h1 h2 h3 =>
    rw [Punycode.max32_eq] at hl
    refine key _ ?_
    unfold encErr
    rw [if_neg (by omega), hu, basErr_append p _ 0 h1 (by simpa using headFits_iff.mp h2)]
    have h3' := h3
    simp only [Punycode.Insertable] at h3'
    simp only [basErr]
    rw [if_neg (by omega), if_neg h3']
    rfl
  | head p x r hl hu h1 h2 h3 h4 =>
    rw [Punycode.max32_eq] at hl
    refine key _ ?_
    unfold encErr
    rw [if_neg (by omega), hu, basErr_append p _ 0 h1 (by simpa using headFits_iff.mp h2)]
    rw [headFits_iff, basics_append, Punycode.basics_cons, if_pos h3] at h4
    simp [Punycode.basics] at h4
    simp only [basErr]
    rw [if_pos h3, if_pos (by simp only [Punycode.basics]; omega)]
    rfl
  | large xs x ys hl h1 h2 hi hw hd =>
    rw [Punycode.max32_eq] at hl hd
    refine key _ ?_
    unfold encErr
    rw [if_neg (by omega), basNone h1 h2, hi, insErr_append, insErr_of _ _ _ hw.1 hw.2]
    simp only [Option.none_or, insErr]
    rw [if_pos (by simpa only [Punycode.after] using hd)]
  | full xs x ys hl h1 h2 hi hw hd hf =>
    rw [Punycode.max32_eq] at hl hd
    refine key _ ?_
    unfold encErr
    rw [if_neg (by omega), basNone h1 h2, hi, insErr_append, insErr_of _ _ _ hw.1 hw.2]
    rw [written_length, Punycode.codes_append] at hf
    simp only [Punycode.codes, List.length_append, List.length_nil, Nat.add_zero] at hf
    simp only [Option.none_or, insErr]
    rw [if_neg (by simp only [Punycode.after] at hd; omega), if_pos (by omega)]
  | done hl h1 h2 hw =>
    rw [Punycode.max32_eq] at hl
    have : encErr cap u = none := by
      unfold encErr
      rw [if_neg (by omega), basNone h1 h2, insErr_of _ _ _ hw.1 hw.2]
      rfl
    rw [this]

/-- **C63.** The encoder's outcome, for every string and every size of the output. -/
theorem C63_encode_exact {phys cap : Nat} (u : List Nat) (y : Except Rc (List Nat)) (hp : cap ≤ phys)
    (h64 : cap < 18446744073709551616) :
    Punycode.Encoding cap u y ↔
      punycode_encode phys cap u = (match y with | .ok s => .ok s | .error e => .err e) := by
  have he := (punycode_encode_eq u hp h64).1
  constructor
  · intro h
    rw [encoding_unique h, he, encOut]
    cases encErr cap u <;> rfl
  · intro h
    have : y = encOut cap u := by
      rw [he] at h
      unfold encOut
      cases hx : encErr cap u <;> rw [hx] at h <;> cases y <;> simp at h <;> rw [h]
    rw [this]
    exact encoding_out cap u

/-- **C63.** With room for at most 3854 characters, overflow is reported for strings of more than
2^32 - 1 code points only. -/
theorem C63_no_overflow {phys cap : Nat} {u : List Nat} (hp : cap ≤ phys) (hc : cap ≤ 3854)
    (hu : u.length ≤ 4294967295) : punycode_encode phys cap u ≠ .err .punycodeOverflow := by
  intro h
  have := (C63_encode_exact u (.error .punycodeOverflow) hp (by omega)).mpr h
  cases this with
  | long h => exact absurd hu (by rw [Punycode.max32_eq, maxint_def] at h; omega)
  | large xs x ys hl h1 h2 hi hw hd =>
    have hx : x ∈ Punycode.insertions u := by rw [hi]; simp
    have hx1 := (h1 x.1 (insertions_mem hx)).1
    have hch := Punycode.chain_insertions u
    rw [hi, Punycode.chain_append] at hch
    have hh := Punycode.foldl_next_h (b := (Punycode.basics u).length) xs
      (Punycode.init (Punycode.basics u).length)
    have hxp := hch.2.1
    have hle := codes_length_ge (b := (Punycode.basics u).length) xs
      (Punycode.init (Punycode.basics u).length)
    have hw2 := hw.2
    rw [written_length] at hw2
    have hbh : (Punycode.basics u).length ≤ (Punycode.headPart u).length := by
      unfold Punycode.headPart; rw [List.length_append]; omega
    have hh0 : (Punycode.after u xs).h ≤ cap := by
      unfold Punycode.after
      rw [hh]
      simp only [Punycode.init] at *
      omega
    unfold Punycode.after at hd
    have : Punycode.delta (Punycode.after u xs) x ≤
        0x10FFFF * ((Punycode.after u xs).h + 1) + (Punycode.after u xs).h := by
      unfold Punycode.delta
      have h3 : (x.1 - (Punycode.after u xs).n) * ((Punycode.after u xs).h + 1) ≤
          0x10FFFF * ((Punycode.after u xs).h + 1) := Nat.mul_le_mul_right _ (by omega)
      have h4 : x.2 ≤ (Punycode.after u xs).h := hxp
      omega
    rw [Punycode.max32_eq, maxint_def] at hd
    unfold Punycode.after at this hh0
    omega

/-! Concrete cases: `bücher` needs nine characters; a surrogate is refused where it stands, and the
delta of a large code point behind many letters is too large for 32 bits only in a large array. -/

example : Punycode.Encoding 9 [0x62, 0xFC, 0x63, 0x68, 0x65, 0x72]
    (.ok [0x62, 0x63, 0x68, 0x65, 0x72, 0x2D, 0x6B, 0x76, 0x61]) :=
  (C63_encode_exact (phys := 63) _ _ (by decide) (by decide)).mpr (by decide +kernel)

example : Punycode.Encoding 8 [0x62, 0xFC, 0x63, 0x68, 0x65, 0x72] (.error .punycodeBigOutput) :=
  (C63_encode_exact (phys := 63) _ _ (by decide) (by decide)).mpr (by decide +kernel)

example : Punycode.Encoding 2 [0x61, 0xD800, 0x61] (.error .punycodeBadInput) :=
  (C63_encode_exact (phys := 63) _ _ (by decide) (by decide)).mpr (by decide +kernel)

example : Punycode.Encoding 1 [0x61, 0xD800, 0x61] (.error .punycodeBigOutput) :=
  (C63_encode_exact (phys := 63) _ _ (by decide) (by decide)).mpr (by decide +kernel)

example : Punycode.Encoding 4000 (List.replicate 3900 0x61 ++ [0x10FFFF])
    (.error .punycodeOverflow) :=
  (C63_encode_exact (phys := 4000) _ _ (by decide) (by decide)).mpr (by decide +kernel)

end Idn2
