import Verif.Proof.PunyArith
import Verif.Proof.PunySpec

/-
The C encoder refines the unbounded-integer specification.
-/

set_option linter.unusedSimpArgs false

namespace Idn2
open Spec

theorem maxint_def : maxint = 4294967295 := rfl

theorem Spec.Punycode.basics_cons (x : Nat) (u : List Nat) :
    Punycode.basics (x :: u) = if x < 0x80 then x :: Punycode.basics u else Punycode.basics u := by
  unfold Punycode.basics; rw [List.filter_cons]; simp

/-- The first thing that goes wrong while the basic code points are copied, `k` of them being there
already. -/
def basErr (cap : Nat) : Nat → List Nat → Option Rc
  | _, [] => none
  | k, x :: r =>
    if x < 0x80 then if cap < k + 2 then some .punycodeBigOutput else basErr cap (k + 1) r
    else if x ≤ 0x10FFFF ∧ ¬ (0xD800 ≤ x ∧ x ≤ 0xDBFF) then basErr cap k r
    else some .punycodeBadInput

/-- Copying of the basic code points. -/
theorem encBasics_eq {phys maxOut : Nat} (hp : maxOut ≤ phys) (hm : maxOut < 18446744073709551616) :
    ∀ (rest output : List Nat), output.length ≤ maxOut →
    encBasics phys maxOut rest output =
      match basErr maxOut output.length rest with
      | none => .ok (output ++ Punycode.basics rest)
      | some e => .err e := by
  intro rest
  induction rest with
  | nil => intro output _; simp [Punycode.basics, encBasics, basErr]
  | cons x rest ih =>
    intro output ho
    rw [Punycode.basics_cons]
    by_cases hx : x < 0x80
    · simp only [encBasics, basErr, if_pos hx, sub64_of_le ho hm]
      by_cases h2 : maxOut < output.length + 2
      · rw [if_pos (by omega), if_pos h2]
      · rw [if_neg (by omega), if_neg h2]
        simp only [push, if_pos (show output.length < phys by omega)]
        rw [ih (output ++ [x]) (by simp; omega)]
        simp
    · simp only [encBasics, basErr, if_neg hx]
      by_cases hb : x ≤ 0x10FFFF ∧ ¬ (0xD800 ≤ x ∧ x ≤ 0xDBFF)
      · rw [if_neg (by omega), if_pos hb, ih output ho]
      · rw [if_pos (by omega), if_neg hb]

theorem basErr_none {cap : Nat} : ∀ (rest : List Nat) (k : Nat), basErr cap k rest = none →
    Punycode.Encodable rest ∧
      (Punycode.basics rest = [] ∨ k + (Punycode.basics rest).length + 1 ≤ cap) := by
  intro rest
  induction rest with
  | nil => intro k _; simp [Punycode.Encodable, Punycode.basics]
  | cons x rest ih =>
    intro k h
    rw [Punycode.basics_cons]
    simp only [basErr] at h
    have cons (h1 : Punycode.Encodable rest) (h2 : x ≤ 0x10FFFF ∧ ¬ (0xD800 ≤ x ∧ x ≤ 0xDBFF)) :
        Punycode.Encodable (x :: rest) := by
      intro y hy
      rw [List.mem_cons] at hy
      rcases hy with rfl | hy
      · exact h2
      · exact h1 y hy
    split at h
    · next hx =>
      split at h
      · cases h
      · obtain ⟨h1, h2⟩ := ih _ h
        refine ⟨cons h1 (by omega), Or.inr ?_⟩
        rw [if_pos hx, List.length_cons]
        rcases h2 with h2 | h2
        · rw [h2]; simp only [List.length_nil]; omega
        · omega
    · next hx =>
      split at h
      · next hb =>
        obtain ⟨h1, h2⟩ := ih _ h
        rw [if_neg hx]
        exact ⟨cons h1 hb, h2⟩
      · cases h

theorem basErr_some {cap : Nat} : ∀ (rest : List Nat) (k : Nat) (e : Rc),
    basErr cap k rest = some e →
    ∃ pre x suf, rest = pre ++ x :: suf ∧ Punycode.Encodable pre ∧
      (Punycode.basics pre = [] ∨ k + (Punycode.basics pre).length + 1 ≤ cap) ∧
      ((e = .punycodeBadInput ∧ ¬ (x ≤ 0x10FFFF ∧ ¬ (0xD800 ≤ x ∧ x ≤ 0xDBFF))) ∨
        (e = .punycodeBigOutput ∧ x < 0x80 ∧ cap < k + (Punycode.basics pre).length + 2)) := by
  intro rest
  induction rest with
  | nil => intro k e h; cases h
  | cons x rest ih =>
    intro k e h
    simp only [basErr] at h
    have cons {pre : List Nat} (h1 : Punycode.Encodable pre)
        (h2 : x ≤ 0x10FFFF ∧ ¬ (0xD800 ≤ x ∧ x ≤ 0xDBFF)) : Punycode.Encodable (x :: pre) := by
      intro y hy
      rw [List.mem_cons] at hy
      rcases hy with rfl | hy
      · exact h2
      · exact h1 y hy
    have nil : Punycode.Encodable [] ∧ Punycode.basics [] = [] := by
      simp [Punycode.Encodable, Punycode.basics]
    split at h
    · next hx =>
      split at h
      · next hc =>
        cases h
        exact ⟨[], x, rest, rfl, nil.1, Or.inl nil.2, Or.inr ⟨rfl, hx, by rw [nil.2]; simpa using hc⟩⟩
      · obtain ⟨pre, y, suf, rfl, h1, h2, h3⟩ := ih _ _ h
        refine ⟨x :: pre, y, suf, rfl, cons h1 (by omega), Or.inr ?_, ?_⟩
        · rw [Punycode.basics_cons, if_pos hx, List.length_cons]
          rcases h2 with h2 | h2
          · rw [h2]; simp only [List.length_nil]; omega
          · omega
        · rw [Punycode.basics_cons, if_pos hx, List.length_cons]
          rcases h3 with h3 | ⟨h0, h3, h4⟩
          · exact Or.inl h3
          · exact Or.inr ⟨h0, h3, by omega⟩
    · next hx =>
      split at h
      · next hb =>
        obtain ⟨pre, y, suf, rfl, h1, h2, h3⟩ := ih _ _ h
        have e : Punycode.basics (x :: pre) = Punycode.basics pre := by
          rw [Punycode.basics_cons, if_neg hx]
        exact ⟨x :: pre, y, suf, rfl, cons h1 hb, by rw [e]; exact h2, by rw [e]; exact h3⟩
      · next hb =>
        cases h
        exact ⟨[], x, rest, rfl, nil.1, Or.inl nil.2, Or.inl ⟨rfl, hb⟩⟩

/-- Correspondence between the encoder's variables while scanning at level `n` (with `r` still
to scan and `seen` code points `≤ n` already passed) and the specification state. -/
structure PassInv (n seen : Nat) (r : List Nat) (S : Punycode.St) (st : EncSt) : Prop where
  h : st.h = S.h
  bias : st.bias = S.bias
  bias_le : S.bias ≤ 216
  n_le : S.n ≤ n
  delta : st.delta + S.i = (n - S.n) * (S.h + 1) + seen
  count : S.h = seen + (r.filter (· < n)).length
  len : seen + r.length ≤ maxint
  fut : n ∈ r ∨ st.delta + r.length < maxint
  delta_le : st.delta ≤ maxint

/-- The first thing that goes wrong while the insertions are written, `l` characters being there
already. -/
def insErr (cap b : Nat) : Punycode.St → Nat → List (Nat × Nat) → Option Rc
  | _, _, [] => none
  | S, l, x :: xs =>
    if maxint < Punycode.delta S x then some .punycodeOverflow
    else if cap < l + (Punycode.digits S.bias (Punycode.delta S x) 36).length then
      some .punycodeBigOutput
    else insErr cap b (Punycode.next b S x)
      (l + (Punycode.digits S.bias (Punycode.delta S x) 36).length) xs

theorem insErr_append {cap b : Nat} : ∀ (xs ys : List (Nat × Nat)) (S : Punycode.St) (l : Nat),
    insErr cap b S l (xs ++ ys) =
      (insErr cap b S l xs).or (insErr cap b (xs.foldl (Punycode.next b) S)
        (l + (Punycode.codes b S xs).length) ys) := by
  intro xs
  induction xs with
  | nil => intro ys S l; simp [insErr, Punycode.codes]
  | cons x xs ih =>
    intro ys S l
    simp only [List.cons_append, insErr, List.foldl_cons, Punycode.codes, List.length_append]
    split
    · rfl
    · split
      · rfl
      · rw [ih]; simp only [Nat.add_assoc]

theorem insErr_none {cap b : Nat} : ∀ (xs : List (Nat × Nat)) (S : Punycode.St) (l : Nat),
    insErr cap b S l xs = none → (∀ d ∈ Punycode.deltas b S xs, d ≤ maxint) ∧
      (xs = [] ∨ l + (Punycode.codes b S xs).length ≤ cap) := by
  intro xs
  induction xs with
  | nil => intro S l _; simp [Punycode.deltas]
  | cons x xs ih =>
    intro S l h
    simp only [insErr] at h
    split at h
    · cases h
    · split at h
      · cases h
      · obtain ⟨h1, h2⟩ := ih _ _ h
        refine ⟨?_, Or.inr ?_⟩
        · intro d hd
          simp only [Punycode.deltas, List.mem_cons] at hd
          rcases hd with rfl | hd
          · omega
          · exact h1 d hd
        · simp only [Punycode.codes, List.length_append]
          rcases h2 with rfl | h2
          · simp only [Punycode.codes, List.length_nil]; omega
          · omega

theorem insErr_some {cap b : Nat} : ∀ (xs : List (Nat × Nat)) (S : Punycode.St) (l : Nat) (e : Rc),
    insErr cap b S l xs = some e →
    (e = .punycodeOverflow ∧ ∃ d ∈ Punycode.deltas b S xs, maxint < d) ∨
      (e = .punycodeBigOutput ∧ cap < l + (Punycode.codes b S xs).length) := by
  intro xs
  induction xs with
  | nil => intro S l e h; cases h
  | cons x xs ih =>
    intro S l e h
    simp only [insErr] at h
    simp only [Punycode.deltas, Punycode.codes, List.length_append]
    split at h
    · next hd => cases h; exact Or.inl ⟨rfl, _, List.mem_cons_self, hd⟩
    · split at h
      · cases h; right; exact ⟨rfl, by omega⟩
      · rcases ih _ _ _ h with ⟨h0, d, h1, h2⟩ | ⟨h0, h1⟩
        · exact Or.inl ⟨h0, d, List.mem_cons_of_mem _ h1, h2⟩
        · right; exact ⟨h0, by omega⟩

/-- An overflow at a level is found before anything is written there. -/
theorem insErr_level {cap b n : Nat} : ∀ {r : List Nat} {seen l : Nat} {S : Punycode.St}, n ∈ r →
    maxint < (n - S.n) * (S.h + 1) + seen - S.i →
    insErr cap b S l (Punycode.insertionsAt n seen r) = some .punycodeOverflow := by
  intro r
  induction r with
  | nil => intro seen l S h; simp at h
  | cons x r ih =>
    intro seen l S h hd
    simp only [Punycode.insertionsAt]
    by_cases hx : x = n
    · rw [if_pos hx]
      simp only [insErr]
      rw [if_pos (by simp only [Punycode.delta]; exact hd)]
    · rw [if_neg hx]
      have hr : n ∈ r := by
        rw [List.mem_cons] at h; rcases h with h | h
        · exact absurd h.symm hx
        · exact h
      split
      · exact ih hr (by omega)
      · exact ih hr hd

theorem encPass_spec {phys maxOut b n : Nat} (hp : maxOut ≤ phys) :
    ∀ (r : List Nat) (seen : Nat) (S : Punycode.St) (st : EncSt),
    PassInv n seen r S st → st.output.length ≤ maxOut →
    (∃ st', encPass phys maxOut n b r st = .ok st' ∧
      PassInv n (seen + Punycode.cnt n r) []
        ((Punycode.insertionsAt n seen r).foldl (Punycode.next b) S) st' ∧
      st'.output = st.output ++
        (Punycode.codes b S (Punycode.insertionsAt n seen r)).map Punycode.digitChar ∧
      st'.output.length ≤ maxOut ∧
      insErr maxOut b S st.output.length (Punycode.insertionsAt n seen r) = none) ∨
    (∃ e, encPass phys maxOut n b r st = .err e ∧
      insErr maxOut b S st.output.length (Punycode.insertionsAt n seen r) = some e) := by
  intro r
  induction r with
  | nil =>
    intro seen S st inv ho
    left
    exact ⟨st, rfl, by simpa [Punycode.cnt, Punycode.insertionsAt] using inv,
      by simp [Punycode.insertionsAt, Punycode.codes], ho, by simp [Punycode.insertionsAt, insErr]⟩
  | cons x r ih =>
    intro seen S st inv ho
    have hmx : maxint = 4294967295 := rfl
    obtain ⟨ih1, ih2, ih3, ih4, ih5, ih6, ih7, ih8, ih9⟩ := inv
    simp only [List.length_cons] at ih7 ih8
    simp only [encPass, Punycode.insertionsAt]
    by_cases hx : x = n
    · subst hx
      have hxx : ¬ x < x := by omega
      simp only [hxx, false_and, ↓reduceIte]
      have hb : st.bias < 4294967000 := by omega
      rw [encVarint_eq hb hp 10 _ _ _ (by omega) (by omega)]
      have hd : Punycode.delta S (x, seen) = st.delta := by
        simp only [Punycode.delta]; omega
      rw [List.filter_cons_of_neg (by simp)] at ih6
      have hh1 : S.h + 1 ≤ maxint := by
        have := List.length_filter_le (fun y => decide (y < x)) r
        omega
      by_cases hfit : st.output.length + (Punycode.digits st.bias st.delta 36).length ≤ maxOut
      · rw [if_pos hfit]
        simp only
        have ha := adapt_eq (delta := st.delta) (np := u32 (st.h + 1)) (st.h == b) ih9
          (by rw [u32_of_le (by omega)]; omega)
        rw [ha.1]
        simp only
        rw [u32_of_le (show st.h + 1 ≤ maxint by omega)] at ha ⊢
        have inv' : PassInv x (seen + 1) r (Punycode.next b S (x, seen))
            ⟨0, st.h + 1, Punycode.adapt st.delta (st.h + 1) (st.h == b),
              st.output ++ (Punycode.digits st.bias st.delta 36).map Punycode.digitChar⟩ := by
          refine ⟨?_, ?_, ?_, ?_, ?_, ?_, ?_, ?_, ?_⟩ <;> try simp only [Punycode.next, hd, ← ih1]
          · exact ha.2
          · omega
          · simp
          · omega
          · omega
          · right; omega
          · omega
        rcases ih _ _ _ inv' (by simpa using hfit) with ⟨st', e1, e2, e3, e4, e5⟩ | ⟨e, e1, e2⟩
        · left
          refine ⟨st', e1, ?_, ?_, e4, ?_⟩
          · have : seen + Punycode.cnt x (x :: r) = seen + 1 + Punycode.cnt x r := by
              simp [Punycode.cnt, List.filter_cons]; omega
            rw [this]; exact e2
          · rw [e3]; simp [Punycode.codes, hd, ih2]
          · simp only [insErr, hd, ← ih2]
            rw [if_neg (by omega), if_neg (by omega)]
            simpa using e5
        · right
          refine ⟨e, e1, ?_⟩
          simp only [insErr, hd, ← ih2]
          rw [if_neg (by omega), if_neg (by omega)]
          simpa using e2
      · rw [if_neg hfit]
        right
        refine ⟨_, rfl, ?_⟩
        simp only [insErr, hd, ← ih2]
        rw [if_neg (by omega), if_pos (by omega)]
    · by_cases hlt : x < n
      · simp only [hlt, hx, ↓reduceIte, true_and]
        rw [List.filter_cons_of_pos (by simpa using hlt), List.length_cons] at ih6
        have hmem : n ∈ x :: r ↔ n ∈ r := by
          rw [List.mem_cons]; constructor
          · rintro (h | h)
            · exact absurd h.symm hx
            · exact h
          · exact Or.inr
        rw [hmem] at ih8
        by_cases hov : u32 (st.delta + 1) = 0
        · rw [if_pos hov]
          right
          refine ⟨_, rfl, ?_⟩
          have : maxint ≤ st.delta := by
            by_cases hc : st.delta + 1 ≤ maxint
            · rw [u32_of_le hc] at hov; omega
            · omega
          have hr : n ∈ r := by
            rcases ih8 with h | h
            · exact h
            · omega
          exact insErr_level hr (by omega)
        · rw [if_neg hov]
          have hd1 : st.delta + 1 ≤ maxint := by
            by_cases hc : st.delta = maxint
            · rw [hc] at hov; exact absurd (by decide) hov
            · omega
          rw [u32_of_le hd1]
          have inv' : PassInv n (seen + 1) r S { st with delta := st.delta + 1 } := by
            refine ⟨ih1, ih2, ih3, ih4, ?_, ?_, ?_, ?_, hd1⟩
            · simp only; omega
            · omega
            · omega
            · rcases ih8 with h | h
              · exact Or.inl h
              · right; simp only; omega
          rcases ih _ _ _ inv' ho with ⟨st', e1, e2, e3⟩ | e1
          · left
            refine ⟨st', e1, ?_, e3⟩
            have : seen + Punycode.cnt n (x :: r) = seen + 1 + Punycode.cnt n r := by
              simp [Punycode.cnt, List.filter_cons, show x ≤ n by omega]; omega
            rw [this]; exact e2
          · right; exact e1
      · simp only [hlt, hx, ↓reduceIte, false_and]
        rw [List.filter_cons_of_neg (by simpa using hlt)] at ih6
        have inv' : PassInv n seen r S { st with delta := st.delta } := by
          refine ⟨ih1, ih2, ih3, ih4, ih5, ih6, ?_, ?_, ih9⟩
          · omega
          · rcases ih8 with h | h
            · rw [List.mem_cons] at h
              rcases h with h | h
              · exact absurd h.symm hx
              · exact Or.inl h
            · right; omega
        rcases ih _ _ _ inv' ho with ⟨st', e1, e2, e3⟩ | e1
        · left
          refine ⟨st', e1, ?_, e3⟩
          have : seen + Punycode.cnt n (x :: r) = seen + Punycode.cnt n r := by
            simp [Punycode.cnt, List.filter_cons, show ¬ x ≤ n by omega]
          rw [this]; exact e2
        · right; exact e1

theorem nextM_spec (n : Nat) : ∀ (l : List Nat) (acc : Nat),
    let r := l.foldl (fun m x => if x ≥ n ∧ x < m then x else m) acc
    r ≤ acc ∧ (r = acc ∨ (r ∈ l ∧ n ≤ r)) ∧ ∀ x ∈ l, n ≤ x → r ≤ x := by
  intro l
  induction l with
  | nil => intro acc; simp
  | cons y l ih =>
    intro acc
    simp only [List.foldl_cons]
    have := ih (if y ≥ n ∧ y < acc then y else acc)
    simp only at this
    obtain ⟨h1, h2, h3⟩ := this
    generalize hacc : (if y ≥ n ∧ y < acc then y else acc) = acc' at *
    generalize List.foldl (fun m x => if x ≥ n ∧ x < m then x else m) acc' l = r at *
    refine ⟨?_, ?_, ?_⟩
    · split at hacc <;> omega
    · rcases h2 with h2 | h2
      · split at hacc
        · next hc => right; rw [h2]; simp; omega
        · left; omega
      · right; exact ⟨List.mem_cons_of_mem _ h2.1, h2.2⟩
    · intro x hx hn
      rw [List.mem_cons] at hx
      rcases hx with rfl | hx
      · split at hacc <;> omega
      · exact h3 x hx hn

theorem nextM_of {n : Nat} {u : List Nat} (hu : ∀ x ∈ u, x < 0x110000) (h : ∃ x ∈ u, n ≤ x) :
    nextM n u ∈ u ∧ n ≤ nextM n u ∧ ∀ x ∈ u, n ≤ x → nextM n u ≤ x := by
  obtain ⟨h1, h2, h3⟩ := nextM_spec n u maxint
  obtain ⟨x, hx, hn⟩ := h
  have hle := h3 x hx hn
  have hxx := hu x hx
  rcases h2 with h2 | h2
  · rw [h2, maxint_def] at hle; omega
  · exact ⟨h2.1, h2.2, h3⟩

theorem exists_ge_of_filter_lt {u : List Nat} {n : Nat} (h : (u.filter (· < n)).length < u.length) :
    ∃ x ∈ u, n ≤ x := by
  by_cases hc : ∃ x ∈ u, n ≤ x
  · exact hc
  · exfalso
    have : u.filter (· < n) = u := by
      rw [List.filter_eq_self]
      intro x hx
      simp only [decide_eq_true_eq]
      by_cases hxn : x < n
      · exact hxn
      · exact absurd ⟨x, hx, by omega⟩ hc
    rw [this] at h; omega

theorem cnt_gt_of_mem {u : List Nat} {m : Nat} (h : m ∈ u) :
    (u.filter (· < m)).length < Punycode.cnt m u := by
  unfold Punycode.cnt
  induction u with
  | nil => simp at h
  | cons x u ih =>
    rw [List.mem_cons] at h
    have hle : ∀ v : List Nat, (v.filter (· < m)).length ≤ (v.filter (· ≤ m)).length := by
      intro v
      induction v with
      | nil => simp
      | cons y v ihv =>
        rw [List.filter_cons, List.filter_cons]
        repeat' split
        all_goals simp_all
        all_goals omega
    by_cases hx : x = m
    · subst hx
      have := hle u
      simp [List.filter_cons]; omega
    · have hu : m ∈ u := by rcases h with h | h; exact absurd h.symm hx; exact h
      have := ih hu
      rw [List.filter_cons, List.filter_cons]
      repeat' split
      all_goals simp_all
      all_goals omega

theorem insertionsAt_ne_nil {m : Nat} : ∀ {u : List Nat} {seen : Nat}, m ∈ u →
    Punycode.insertionsAt m seen u ≠ [] := by
  intro u
  induction u with
  | nil => intro seen h; cases h
  | cons x u ih =>
    intro seen h
    simp only [Punycode.insertionsAt]
    by_cases hx : x = m
    · rw [if_pos hx]; simp
    · rw [if_neg hx]
      have hu := (List.mem_cons.mp h).resolve_left fun h => hx h.symm
      split
      · exact ih hu
      · exact ih hu

theorem codes_pos {b : Nat} {S : Punycode.St} {xs : List (Nat × Nat)} (h : xs ≠ []) :
    0 < (Punycode.codes b S xs).length := by
  cases xs with
  | nil => exact absurd rfl h
  | cons x xs =>
    simp only [Punycode.codes, List.length_append]
    have := List.length_pos_iff.mpr (Punycode.digits_ne_nil S.bias (Punycode.delta S x) 36)
    omega

/-- Main loop of the encoder.  Each pass inserts a code point at least, and stores a digit. -/
theorem encLoop_spec {phys maxOut b : Nat} {u : List Nat} (hp : maxOut ≤ phys)
    (hu : ∀ x ∈ u, x < 0x110000) (hlen : u.length ≤ maxint) :
    ∀ (fuel n : Nat) (S : Punycode.St) (st : EncSt),
    u.length ≤ fuel + S.h ∨ maxOut < fuel + st.output.length → n ≤ 0x110000 →
    st.h = S.h → st.bias = S.bias → S.bias ≤ 216 → S.n ≤ n →
    st.delta + S.i = (n - S.n) * (S.h + 1) → S.h = (u.filter (· < n)).length →
    st.delta ≤ maxint → st.output.length ≤ maxOut →
    (encLoop phys maxOut b u fuel n st = .ok (st.output ++
        (Punycode.codes b S (Punycode.insertionsFrom n u)).map Punycode.digitChar) ∧
      insErr maxOut b S st.output.length (Punycode.insertionsFrom n u) = none) ∨
    (∃ e, encLoop phys maxOut b u fuel n st = .err e ∧
      insErr maxOut b S st.output.length (Punycode.insertionsFrom n u) = some e) := by
  intro fuel
  induction fuel with
  | zero =>
    intro n S st hf hn0 hh hbias hb hn hd hc hdl ho
    have hall : ¬ st.h < u.length := by omega
    left
    have : Punycode.insertionsFrom n u = [] := by
      apply Punycode.insertionsFrom_nil
      intro x hx
      left
      by_cases h : x < n
      · exact h
      · exfalso
        have : (u.filter (· < n)).length < u.length := by
          rw [List.length_filter_lt_length_iff_exists]
          exact ⟨x, hx, by simpa using h⟩
        omega
    rw [this]
    unfold encLoop
    rw [if_neg hall]
    exact ⟨by simp [Punycode.codes], by simp [insErr]⟩
  | succ fuel ih =>
    intro n S st hf hn0 hh hbias hb hn hd hc hdl ho
    by_cases hall : st.h < u.length
    · have hmx : maxint = 4294967295 := rfl
      obtain ⟨m1, m2, m3⟩ := nextM_of hu (exists_ge_of_filter_lt (n := n) (u := u) (by omega))
      unfold encLoop
      rw [if_pos hall]
      simp only
      generalize hM : nextM n u = m at *
      have hm110 := hu m m1
      have hskip : Punycode.insertionsFrom n u =
          Punycode.insertionsAt m 0 u ++ Punycode.insertionsFrom (m + 1) u := by
        rw [Punycode.insertionsFrom_skip m2 (by omega), Punycode.insertionsFrom_succ u hm110]
        intro x hx hcc
        have := m3 x hx hcc.1
        omega
      rw [hskip, Punycode.codes_append, insErr_append]
      have hh1 : u32 (st.h + 1) = S.h + 1 := by rw [u32_of_le (by omega)]; omega
      have hs1 : sub32 m n = m - n := sub32_of_le m2 (by omega)
      have hs2 : sub32 maxint st.delta = maxint - st.delta := sub32_of_le hdl (by omega)
      simp only [hh1, hs1, hs2]
      rw [if_neg (by omega)]
      have hsplit : (m - S.n) * (S.h + 1) = (n - S.n) * (S.h + 1) + (m - n) * (S.h + 1) := by
        rw [← Nat.add_mul]; congr 1; omega
      by_cases hov : m - n > (maxint - st.delta) / (S.h + 1)
      · rw [if_pos hov]
        right
        refine ⟨_, rfl, ?_⟩
        have hov' : (maxint - st.delta) / (S.h + 1) < m - n := hov
        rw [Nat.div_lt_iff_lt_mul (by omega)] at hov'
        rw [insErr_level m1 (by omega)]
        rfl
      · rw [if_neg hov]
        have hov' : m - n ≤ (maxint - st.delta) / (S.h + 1) := by omega
        rw [Nat.le_div_iff_mul_le (by omega)] at hov'
        rw [u32_of_le (show (m - n) * (S.h + 1) ≤ maxint by omega),
          u32_of_le (show st.delta + (m - n) * (S.h + 1) ≤ maxint by omega)]
        have inv : PassInv m 0 u S { st with delta := st.delta + (m - n) * (S.h + 1) } := by
          refine ⟨hh, hbias, hb, by omega, ?_, ?_, by omega, Or.inl m1, by simp only; omega⟩
          · simp only; omega
          · rw [hc, Nat.zero_add]
            congr 1
            apply List.filter_congr
            intro x hx
            simp only [decide_eq_decide]
            constructor
            · intro h; omega
            · intro h
              by_cases hxn : x < n
              · exact hxn
              · have := m3 x hx (by omega); omega
        rcases encPass_spec (b := b) hp u 0 S _ inv ho with ⟨st', e1, e2, e3, e4, e5⟩ | ⟨e, e1, e2⟩
        · rw [e1]
          simp only
          obtain ⟨i1, i2, i3, i4, i5, i6, i7, i8, i9⟩ := e2
          simp at i5 i6 i7 i8 e3 e4
          rw [e3] at e4
          have hd1 : u32 (st'.delta + 1) = st'.delta + 1 := u32_of_le (by omega)
          rw [u32_of_lt (show m + 1 < _ by omega), hd1]
          have hcnt := cnt_gt_of_mem m1
          have hfm : (u.filter (· < n)).length ≤ (u.filter (· < m)).length := by
            have := inv.count
            omega
          have hcp : 0 < (Punycode.codes b S (Punycode.insertionsAt m 0 u)).length :=
            codes_pos (insertionsAt_ne_nil m1)
          have := ih (m + 1) ((Punycode.insertionsAt m 0 u).foldl (Punycode.next b) S)
            { st' with delta := st'.delta + 1 }
            (by
              simp only
              rw [i6, e3, List.length_append, List.length_map]
              omega) (by omega) i1 i2 i3 (by omega)
            (by simp only
                rw [show m + 1 - (List.foldl (Punycode.next b) S (Punycode.insertionsAt m 0 u)).n =
                  (m - (List.foldl (Punycode.next b) S (Punycode.insertionsAt m 0 u)).n) + 1 by omega,
                  Nat.add_mul]
                omega)
            (by rw [i6]; simp [Punycode.cnt, Punycode.filter_le_eq_lt])
            (by simp only; omega) (by simp only; rw [e3]; exact e4)
          simp only at this
          rw [e3] at this ⊢
          rw [e5]
          rw [List.length_append, List.length_map] at this
          rcases this with ⟨g1, g2⟩ | ⟨e, g1, g2⟩
          · left
            exact ⟨by rw [g1]; simp, by rw [g2]; rfl⟩
          · right
            exact ⟨e, g1, by rw [g2]; rfl⟩
        · rw [e1]
          right
          exact ⟨e, rfl, by rw [e2]; rfl⟩
    · left
      have : Punycode.insertionsFrom n u = [] := by
        apply Punycode.insertionsFrom_nil
        intro x hx
        left
        by_cases h : x < n
        · exact h
        · exfalso
          have : (u.filter (· < n)).length < u.length := by
            rw [List.length_filter_lt_length_iff_exists]
            exact ⟨x, hx, by simpa using h⟩
          omega
      rw [this]
      unfold encLoop
      rw [if_neg hall]
      exact ⟨by simp [Punycode.codes], by simp [insErr]⟩

/-- The first thing that goes wrong while `u` is encoded. -/
def encErr (cap : Nat) (u : List Nat) : Option Rc :=
  if maxint < u.length then some .punycodeOverflow
  else (basErr cap 0 u).or (insErr cap (Punycode.basics u).length
    (Punycode.init (Punycode.basics u).length) (Punycode.headPart u).length (Punycode.insertions u))

/-- `punycode_encode` with at most `k` passes over the input, more than these being undefined. -/
def encodeWithin (k phys maxOut : Nat) (input : List Nat) : Res (List Nat) :=
  if input.length > maxint then .err .punycodeOverflow
  else
    match encBasics phys maxOut input [] with
    | .err e => .err e
    | .ub => .ub
    | .ok output =>
      let b := u32 output.length
      match (if b > 0 then push phys output 0x2D else .ok output) with
      | .err e => .err e
      | .ub => .ub
      | .ok output => encLoop phys maxOut b input k 0x80 ⟨0, b, 72, output⟩

theorem encodeWithin_length (phys maxOut : Nat) (u : List Nat) :
    encodeWithin u.length phys maxOut u = punycode_encode phys maxOut u := rfl

theorem encodeWithin_eq {k phys maxOut : Nat} (u : List Nat) (hp : maxOut ≤ phys)
    (hm : maxOut < 18446744073709551616) (hk : u.length ≤ k ∨ maxOut < k) :
    encodeWithin k phys maxOut u =
        (match encErr maxOut u with
        | none => .ok (Punycode.encode u)
        | some e => .err e) ∧
      (encErr maxOut u = none → (Punycode.encode u).length ≤ maxOut) := by
  unfold encodeWithin encErr
  by_cases hl : u.length > maxint
  · rw [if_pos hl, if_pos hl]
    exact ⟨rfl, fun h => by cases h⟩
  · rw [if_neg hl, if_neg hl, encBasics_eq hp hm u [] (by simp)]
    cases hb : basErr maxOut ([] : List Nat).length u with
    | some e =>
      exact ⟨rfl, fun h => by cases h⟩
    | none =>
      simp only [List.length_nil] at hb
      obtain ⟨h1, h2⟩ := basErr_none u _ hb
      simp only [List.nil_append, Option.none_or]
      have hmx : maxint = 4294967295 := rfl
      have hbl : (Punycode.basics u).length ≤ u.length := List.length_filter_le _ _
      rw [u32_of_le (show (Punycode.basics u).length ≤ maxint by omega)]
      have hhead : (if (Punycode.basics u).length > 0 then push phys (Punycode.basics u) 0x2D
          else .ok (Punycode.basics u)) = .ok (Punycode.headPart u) ∧
          (Punycode.headPart u).length ≤ maxOut := by
        unfold Punycode.headPart
        by_cases hb : Punycode.basics u = []
        · simp [hb]
        · have : 0 < (Punycode.basics u).length := List.length_pos_iff.mpr hb
          rw [if_pos this, if_neg hb]
          rcases h2 with h2 | h2
          · exact absurd h2 hb
          · simp at h2
            unfold push
            rw [if_pos (by omega)]
            simp; omega
      rw [hhead.1]
      simp only
      have hlt : ∀ x ∈ u, x < 0x110000 := fun x hx => by have := (h1 x hx).1; omega
      rcases encLoop_spec (b := (Punycode.basics u).length) hp hlt (by omega) k 0x80
        (Punycode.init (Punycode.basics u).length)
        ⟨0, (Punycode.basics u).length, 72, Punycode.headPart u⟩
        (by simp only; omega) (by omega) rfl rfl (by simp [Punycode.init]) (Nat.le_refl _)
        (by simp [Punycode.init]) rfl (by simp only; omega) hhead.2 with ⟨g1, g2⟩ | ⟨e, g1, g2⟩
      · simp only [Punycode.insertions]
        rw [g1, g2]
        refine ⟨rfl, fun _ => ?_⟩
        have := (insErr_none _ _ _ g2).2
        unfold Punycode.encode
        rw [List.length_append, List.length_map, Punycode.insertions]
        rcases this with h | h
        · rw [h]; simpa [Punycode.codes] using hhead.2
        · exact h
      · simp only [Punycode.insertions]
        rw [g1, g2]
        exact ⟨rfl, fun h => by cases h⟩

/-- Complete description of the encoder. -/
theorem punycode_encode_eq {phys maxOut : Nat} (u : List Nat) (hp : maxOut ≤ phys)
    (hm : maxOut < 18446744073709551616) :
    punycode_encode phys maxOut u =
        (match encErr maxOut u with
        | none => .ok (Punycode.encode u)
        | some e => .err e) ∧
      (encErr maxOut u = none → (Punycode.encode u).length ≤ maxOut) :=
  encodeWithin_eq u hp hm (.inl (Nat.le_refl _))

theorem encErr_none {cap : Nat} {u : List Nat} (h : encErr cap u = none) :
    u.length ≤ maxint ∧ Punycode.Encodable u ∧ (∀ d ∈ Punycode.allDeltas u, d ≤ maxint) := by
  unfold encErr at h
  split at h
  · cases h
  · rw [Option.or_eq_none_iff] at h
    exact ⟨by omega, (basErr_none _ _ h.1).1, (insErr_none _ _ _ h.2).1⟩

theorem encErr_some {cap : Nat} {u : List Nat} {e : Rc} (h : encErr cap u = some e) :
    (e = .punycodeOverflow ∧ (maxint < u.length ∨ ∃ d ∈ Punycode.allDeltas u, maxint < d)) ∨
      (e = .punycodeBadInput ∧ ¬ Punycode.Encodable u) ∨
      (e = .punycodeBigOutput ∧ cap < (Punycode.encode u).length) := by
  have hel : (Punycode.encode u).length = (Punycode.headPart u).length +
      (Punycode.codes (Punycode.basics u).length (Punycode.init (Punycode.basics u).length)
        (Punycode.insertions u)).length := by
    unfold Punycode.encode
    rw [List.length_append, List.length_map]
  unfold encErr at h
  split at h
  · next hl => cases h; exact Or.inl ⟨rfl, Or.inl hl⟩
  · rw [Option.or_eq_some_iff] at h
    rcases h with h | ⟨_, h⟩
    · obtain ⟨pre, x, suf, rfl, h1, h2, h3⟩ := basErr_some _ _ _ h
      rcases h3 with ⟨h0, h3⟩ | ⟨h0, h3, h4⟩
      · exact Or.inr (Or.inl ⟨h0, fun hc => h3 (hc x (by simp))⟩)
      · refine Or.inr (Or.inr ⟨h0, ?_⟩)
        rw [hel]
        have : Punycode.basics (pre ++ x :: suf) =
            Punycode.basics pre ++ x :: Punycode.basics suf := by
          unfold Punycode.basics
          rw [List.filter_append, List.filter_cons_of_pos (by simpa using h3)]
        unfold Punycode.headPart
        rw [this]
        simp only [List.append_eq_nil_iff, reduceCtorEq, and_false, ↓reduceIte, List.length_append,
          List.length_cons, List.length_nil]
        omega
    · rcases insErr_some _ _ _ _ h with h | ⟨h0, h⟩
      · exact Or.inl ⟨h.1, Or.inr h.2⟩
      · exact Or.inr (Or.inr ⟨h0, by rw [hel]; exact h⟩)

/-- The encoder succeeds exactly when the input is encodable,
all deltas fit in 32 bits and the encoding fits, and then returns the specified encoding;
otherwise it returns an error code that tells what is wrong. -/
theorem punycode_encode_errors {phys maxOut : Nat} {u : List Nat} (hp : maxOut ≤ phys)
    (hm : maxOut < 18446744073709551616) :
    (punycode_encode phys maxOut u = .ok (Punycode.encode u) ∧ u.length ≤ maxint ∧
      Punycode.Encodable u ∧ (∀ d ∈ Punycode.allDeltas u, d ≤ maxint) ∧
      (Punycode.encode u).length ≤ maxOut) ∨
    (∃ e, punycode_encode phys maxOut u = .err e ∧
      ((e = .punycodeOverflow ∧ (maxint < u.length ∨ ∃ d ∈ Punycode.allDeltas u, maxint < d)) ∨
        (e = .punycodeBadInput ∧ ¬ Punycode.Encodable u) ∨
        (e = .punycodeBigOutput ∧ maxOut < (Punycode.encode u).length))) := by
  obtain ⟨h1, h2⟩ := punycode_encode_eq u hp hm
  cases he : encErr maxOut u with
  | none =>
    rw [he] at h1
    obtain ⟨g1, g2, g3⟩ := encErr_none he
    exact Or.inl ⟨h1, g1, g2, g3, h2 he⟩
  | some e =>
    rw [he] at h1
    exact Or.inr ⟨e, h1, encErr_some he⟩

theorem punycode_encode_spec {phys maxOut : Nat} {u : List Nat} (hp : maxOut ≤ phys)
    (hm : maxOut < 18446744073709551616) :
    (punycode_encode phys maxOut u = .ok (Punycode.encode u) ∧ u.length ≤ maxint ∧
      Punycode.Encodable u ∧ (∀ d ∈ Punycode.allDeltas u, d ≤ maxint) ∧
      (Punycode.encode u).length ≤ maxOut) ∨
    (∃ e, punycode_encode phys maxOut u = .err e ∧
      ¬ (u.length ≤ maxint ∧ Punycode.Encodable u ∧ (∀ d ∈ Punycode.allDeltas u, d ≤ maxint) ∧
      (Punycode.encode u).length ≤ maxOut)) := by
  rcases punycode_encode_errors (u := u) hp hm with h | ⟨e, h1, h2⟩
  · exact Or.inl h
  · refine Or.inr ⟨e, h1, ?_⟩
    rintro ⟨f1, f2, f3, f4⟩
    rcases h2 with ⟨_, h2 | ⟨d, h2, h3⟩⟩ | ⟨_, h2⟩ | ⟨_, h2⟩
    · omega
    · have := f3 d h2; omega
    · exact h2 f2
    · omega

end Idn2
