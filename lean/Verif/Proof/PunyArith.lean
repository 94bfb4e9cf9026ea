import Verif.Model.Puny
import Verif.Spec.Punycode

/-
The arithmetic of the Punycode coders (bias adaptation, thresholds, digits) agrees with
the unbounded-integer specification.
-/

namespace Idn2
open Spec

theorem adaptLoop_eq (j : Nat) : ∀ d k, d < 456 * 35 ^ j → k + 36 * j + 36 < 4294967296 →
    ∃ d' k', adaptLoop d k = (d', k') ∧ d' ≤ 455 ∧ k' ≤ k + 36 * j ∧
      Punycode.adaptGo d k = k' + 36 * d' / (d' + 38) := by
  induction j with
  | zero =>
    intro d k hd hk
    refine ⟨d, k, ?_, by omega, by omega, ?_⟩
    · unfold adaptLoop; rw [if_neg (by omega)]
    · unfold Punycode.adaptGo; rw [if_neg (by omega)]
  | succ j ih =>
    intro d k hd hk
    by_cases h : 455 < d
    · have h1 : d / 35 < 456 * 35 ^ j := by
        rw [Nat.div_lt_iff_lt_mul (by omega), Nat.mul_assoc, ← Nat.pow_succ]; exact hd
      obtain ⟨d', k', e1, e2, e3, e4⟩ := ih (d / 35) (k + 36) h1 (by omega)
      refine ⟨d', k', ?_, e2, by omega, ?_⟩
      · unfold adaptLoop; rw [if_pos h, u32_of_lt (by omega)]; exact e1
      · unfold Punycode.adaptGo; rw [if_pos h]; exact e4
    · refine ⟨d, k, ?_, by omega, by omega, ?_⟩
      · unfold adaptLoop; rw [if_neg h]
      · unfold Punycode.adaptGo; rw [if_neg h]

theorem adapt_eq {delta np : Nat} (first : Bool) (hd : delta ≤ maxint) (hn : 0 < np) :
    adapt delta np first = .ok (Punycode.adapt delta np first) ∧
      Punycode.adapt delta np first ≤ 216 := by
  unfold adapt Punycode.adapt
  rw [if_neg (by omega)]
  simp only [maxint] at hd
  have hd1 : (if first then delta / 700 else delta / 2) ≤ 2147483647 := by
    split <;> omega
  generalize (if first then delta / 700 else delta / 2) = d at hd1
  have hd2 : d / np ≤ d := Nat.div_le_self _ _
  have hd3 : d + d / np < 4294967296 := by omega
  simp only [u32_of_lt hd3]
  generalize d + d / np = e at hd3
  obtain ⟨d', k', e1, e2, e3, e4⟩ := adaptLoop_eq 5 e 0 (by omega) (by omega)
  rw [e1, e4]
  have h36 : 36 * d' / (d' + 38) ≤ 36 := by
    apply Nat.div_le_of_le_mul; rw [Nat.mul_comm (d' + 38)]; omega
  simp only
  rw [u32_of_lt (show d' + 38 < _ by omega), if_neg (by omega),
    u32_of_lt (show 36 * d' < _ by omega), u32_of_lt (by omega)]
  exact ⟨rfl, by omega⟩

theorem threshold_eq {k bias : Nat} (h : bias < 4294967000) :
    threshold k bias = Punycode.threshold k bias := by
  unfold threshold Punycode.threshold
  rw [u32_of_lt (by omega)]
  split
  · omega
  · split <;> omega

theorem encode_digit_eq {d : Nat} (_h : d < 36) : encode_digit d = Punycode.digitChar d := by
  unfold encode_digit Punycode.digitChar
  split <;> omega

theorem Spec.Punycode.threshold_bounds (k bias : Nat) :
    1 ≤ Punycode.threshold k bias ∧ Punycode.threshold k bias ≤ 26 := by
  unfold Punycode.threshold; omega

theorem Spec.Punycode.digits_lt (bias q k : Nat) : ∀ d ∈ Punycode.digits bias q k, d < 36 := by
  induction q using Nat.strongRecOn generalizing k with
  | _ q ih =>
    intro d hd
    have ht := Punycode.threshold_bounds k bias
    unfold Punycode.digits at hd
    simp only at hd
    split at hd
    · simp at hd; omega
    · next hq =>
      rw [List.mem_cons] at hd
      cases hd with
      | inl h =>
        have := Nat.mod_lt (q - Punycode.threshold k bias)
          (show 0 < 36 - Punycode.threshold k bias by omega)
        omega
      | inr h =>
        refine ih _ ?_ _ d h
        have h1 : (q - Punycode.threshold k bias) / (36 - Punycode.threshold k bias)
            ≤ q - Punycode.threshold k bias := Nat.div_le_self _ _
        omega

theorem Spec.Punycode.digits_ne_nil (bias q k : Nat) : Punycode.digits bias q k ≠ [] := by
  unfold Punycode.digits; simp only; split <;> simp

theorem decode_digit_digitChar {d : Nat} (h : d < 36) :
    decode_digit (Punycode.digitChar d) = d := by
  unfold decode_digit Punycode.digitChar
  split
  · rw [if_pos (by omega)]; omega
  · rw [if_neg (by omega), if_pos (by omega)]; omega

theorem decode_digit_lt (c : Nat) : decode_digit c < 36 := by
  unfold decode_digit; repeat' split
  all_goals omega

/-- The encoder's integer loop writes the digits of the specification, or stops with
`PUNYCODE_BIG_OUTPUT` exactly when they do not fit. -/
theorem encVarint_eq {phys maxOut bias : Nat} (hb : bias < 4294967000) (hp : maxOut ≤ phys)
    (j : Nat) : ∀ q k output, q < 10 ^ j → k + 36 * j < 4294967296 →
    encVarint phys maxOut bias q k output =
      if output.length + (Punycode.digits bias q k).length ≤ maxOut then
        .ok (output ++ (Punycode.digits bias q k).map Punycode.digitChar)
      else .err .punycodeBigOutput := by
  induction j with
  | zero =>
    intro q k output hq hk
    have ht := Punycode.threshold_bounds k bias
    unfold encVarint Punycode.digits push
    simp only [threshold_eq hb]
    rw [if_pos (show q < Punycode.threshold k bias by simp at hq; omega),
      if_pos (show q < Punycode.threshold k bias by simp at hq; omega)]
    simp at hq; subst hq
    by_cases h : maxOut ≤ output.length
    · rw [if_pos h, if_neg (by simp; omega)]
    · rw [if_neg h, if_pos (by omega), if_pos (by simp; omega), encode_digit_eq (by omega)]; simp
  | succ j ih =>
    intro q k output hq hk
    have ht := Punycode.threshold_bounds k bias
    unfold encVarint Punycode.digits push
    simp only [threshold_eq hb]
    by_cases hqt : q < Punycode.threshold k bias
    · rw [if_pos hqt, if_pos hqt]
      by_cases h : maxOut ≤ output.length
      · rw [if_pos h, if_neg (by simp; omega)]
      · rw [if_neg h, if_pos (by omega), if_pos (by simp; omega), encode_digit_eq (by omega)]; simp
    · rw [if_neg hqt, if_neg hqt]
      by_cases h : maxOut ≤ output.length
      · rw [if_pos h, if_neg (by simp; omega)]
      · rw [if_neg h, if_pos (by omega)]
        simp only
        have hmod := Nat.mod_lt (q - Punycode.threshold k bias)
          (show 0 < 36 - Punycode.threshold k bias by omega)
        have hlt : (q - Punycode.threshold k bias) / (36 - Punycode.threshold k bias) < 10 ^ j := by
          rw [Nat.div_lt_iff_lt_mul (by omega)]
          rw [Nat.pow_succ] at hq
          have : 10 ^ j * 10 ≤ 10 ^ j * (36 - Punycode.threshold k bias) :=
            Nat.mul_le_mul_left _ (by omega)
          omega
        rw [u32_of_lt (by omega), ih _ _ _ hlt (by omega), encode_digit_eq (by omega)]
        simp only [List.length_append, List.length_cons, List.length_nil, List.map_cons,
          List.append_assoc, List.singleton_append]
        have : ∀ n, (output.length + (0 + 1) + n ≤ maxOut) = (output.length + (n + 1) ≤ maxOut) := by
          intro n; apply propext; omega
        simp only [this]

/-- The decoder's integer loop reads back a value written with the digits of the
specification. -/
theorem decVarint_complete {bias : Nat} (hb : bias ≤ 216) :
    ∀ (cs : List Nat) (q i w j : Nat) (rest : List Nat),
    cs.map decode_digit = Punycode.digits bias q (36 * (j + 1)) →
    0 < w → w ≤ 35 ^ j → 10 ^ j ≤ w → i + q * w ≤ maxint →
    decVarint bias (cs ++ rest) i w (36 * (j + 1)) = .ok (i + q * w, rest) := by
  intro cs
  induction cs with
  | nil =>
    intro q i w j rest h
    exact absurd h.symm (Punycode.digits_ne_nil _ _ _)
  | cons c cs ih =>
    intro q i w j rest h hw hwj hj hsum
    have ht := Punycode.threshold_bounds (36 * (j + 1)) bias
    have hte := threshold_eq (k := 36 * (j + 1)) (show bias < 4294967000 by omega)
    unfold Punycode.digits at h
    simp only [List.map_cons] at h
    simp only [List.cons_append, decVarint, hte]
    have hdl := decode_digit_lt c
    generalize htt : Punycode.threshold (36 * (j + 1)) bias = t at *
    have hmx : maxint = 4294967295 := rfl
    have hi : i ≤ maxint := by omega
    rw [if_neg (by omega), if_neg (by omega)]
    simp only [sub32_of_le hi (show maxint < 4294967296 by omega)]
    split at h
    · next hq =>
      injection h with h1 h2
      rw [h1]
      have hle : q ≤ (maxint - i) / w := by
        rw [Nat.le_div_iff_mul_le hw]; omega
      rw [if_neg (by omega), if_pos hq, u32_of_lt (show q * w < _ by omega), u32_of_lt (by omega)]
      simp at h2; subst h2; rfl
    · next hq =>
      injection h with h1 h2
      have hmodlt := Nat.mod_lt (q - t) (show 0 < 36 - t by omega)
      have hdm := Nat.div_add_mod (q - t) (36 - t)
      generalize hq' : (q - t) / (36 - t) = q' at *
      generalize hr : (q - t) % (36 - t) = r at *
      have hqe : q = (t + r) + (36 - t) * q' := by omega
      have hqw : q * w = (t + r) * w + q' * (w * (36 - t)) := by
        rw [hqe, Nat.add_mul]; congr 1
        rw [Nat.mul_comm (36 - t) q', Nat.mul_assoc, Nat.mul_comm (36 - t) w]
      rw [h1]
      have hle : t + r ≤ (maxint - i) / w := by
        rw [Nat.le_div_iff_mul_le hw]; omega
      have hwt : w * (36 - t) ≤ 4294967295 := by
        by_cases ht26 : t = 26
        · subst ht26
          have : 26 * w ≤ q * w := Nat.mul_le_mul_right _ (by omega)
          omega
        · have hk : 36 * (j + 1) < bias + 26 := by
            unfold Punycode.threshold at htt; omega
          have hj5 : j ≤ 5 := by omega
          have h1 : w ≤ 35 ^ 5 := Nat.le_trans hwj (Nat.pow_le_pow_right (by omega) hj5)
          have h2 : w * (36 - t) ≤ 35 ^ 5 * 35 := Nat.mul_le_mul h1 (by omega)
          exact Nat.le_trans h2 (by decide)
      have hwm : w ≤ maxint / (36 - t) := by
        rw [Nat.le_div_iff_mul_le (by omega)]; omega
      have hj9 : j + 1 ≤ 9 := by
        have h1 : 10 ^ (j + 1) ≤ w * (36 - t) := by
          rw [Nat.pow_succ]; exact Nat.mul_le_mul hj (by omega)
        have h2 : 10 ^ (j + 1) < 10 ^ 10 := by omega
        have := (Nat.pow_lt_pow_iff_right (show 1 < 10 by omega)).mp h2
        omega
      rw [if_neg (by omega), if_neg (by omega), if_neg (by omega),
        u32_of_lt (show (t + r) * w < _ by omega), u32_of_lt (show i + (t + r) * w < _ by omega),
        u32_of_lt (show w * (36 - t) < _ by omega), u32_of_lt (show 36 * (j + 1) + 36 < _ by omega)]
      have hk' : 36 * (j + 1) + 36 = 36 * ((j + 1) + 1) := by omega
      rw [hk'] at h2 ⊢
      rw [ih q' (i + (t + r) * w) (w * (36 - t)) (j + 1) rest h2 (Nat.mul_pos hw (by omega))
        (by rw [Nat.pow_succ]; exact Nat.mul_le_mul hwj (by omega))
        (by rw [Nat.pow_succ]; exact Nat.mul_le_mul hj (by omega)) (by omega)]
      congr 2; omega

/-- Whatever the decoder's integer loop accepts is the digit sequence of the value it
returns. -/
theorem decVarint_sound {bias : Nat} (hb : bias ≤ 216) :
    ∀ (cs : List Nat) (i w j i' : Nat) (rest : List Nat),
    decVarint bias cs i w (36 * (j + 1)) = .ok (i', rest) →
    10 ^ j ≤ w → w ≤ maxint → i ≤ maxint →
    ∃ q pre, cs = pre ++ rest ∧ i' = i + q * w ∧ i' ≤ maxint ∧
      pre.map decode_digit = Punycode.digits bias q (36 * (j + 1)) := by
  intro cs
  induction cs with
  | nil => intro i w j i' rest h; simp [decVarint] at h
  | cons c cs ih =>
    intro i w j i' rest h hj hw hi
    have hw0 : 0 < w := Nat.lt_of_lt_of_le (Nat.pow_pos (by omega)) hj
    have ht := Punycode.threshold_bounds (36 * (j + 1)) bias
    have hte := threshold_eq (k := 36 * (j + 1)) (show bias < 4294967000 by omega)
    have hdl := decode_digit_lt c
    have hmx : maxint = 4294967295 := rfl
    have hj9 : j ≤ 9 := by
      have h2 : 10 ^ j < 10 ^ 10 := by omega
      have := (Nat.pow_lt_pow_iff_right (show 1 < 10 by omega)).mp h2
      omega
    simp only [decVarint, hte, sub32_of_le hi (show maxint < 4294967296 by omega)] at h
    generalize htt : Punycode.threshold (36 * (j + 1)) bias = t at *
    rw [if_neg (by omega), if_neg (by omega)] at h
    split at h
    · exact absurd h (by simp)
    · next hle =>
      have hle : decode_digit c ≤ (maxint - i) / w := by omega
      rw [Nat.le_div_iff_mul_le hw0] at hle
      rw [u32_of_lt (show decode_digit c * w < _ by omega),
        u32_of_lt (show i + decode_digit c * w < _ by omega)] at h
      split at h
      · next hdt =>
        simp only [Res.ok.injEq, Prod.mk.injEq] at h
        refine ⟨decode_digit c, [c], by simp [h.2], by omega, by omega, ?_⟩
        unfold Punycode.digits
        simp [htt, hdt]
      · next hdt =>
        split at h
        · exact absurd h (by simp)
        · next hwm =>
          have hwm : w ≤ maxint / (36 - t) := by omega
          rw [Nat.le_div_iff_mul_le (by omega)] at hwm
          rw [u32_of_lt (show w * (36 - t) < _ by omega),
            u32_of_lt (show 36 * (j + 1) + 36 < _ by omega)] at h
          have hk' : 36 * (j + 1) + 36 = 36 * ((j + 1) + 1) := by omega
          rw [hk'] at h
          obtain ⟨q', pre, e1, e2, e3, e4⟩ := ih _ _ _ _ _ h
            (by rw [Nat.pow_succ]; exact Nat.mul_le_mul hj (by omega)) hwm (by omega)
          refine ⟨decode_digit c + (36 - t) * q', c :: pre, by simp [e1], ?_, e3, ?_⟩
          · rw [e2, Nat.add_mul, Nat.mul_comm (36 - t) q', Nat.mul_assoc, Nat.mul_comm (36 - t) w]
            omega
          · unfold Punycode.digits
            simp only [htt, List.map_cons]
            have hge : t ≤ decode_digit c := by omega
            have e5 : decode_digit c + (36 - t) * q' - t = (decode_digit c - t) + (36 - t) * q' := by
              omega
            rw [if_neg (by omega), e5, Nat.add_mul_mod_self_left, Nat.add_mul_div_left _ _ (by omega),
              Nat.mod_eq_of_lt (by omega), Nat.div_eq_of_lt (by omega), Nat.zero_add, hk', e4]
            congr 1; omega

theorem decVarint_ne_ub {bias : Nat} :
    ∀ (cs : List Nat) (i w k : Nat), 0 < w → w ≤ maxint →
    decVarint bias cs i w k ≠ .ub := by
  intro cs
  induction cs with
  | nil => intro i w k _ _ h; simp [decVarint] at h
  | cons c cs ih =>
    intro i w k hw hwm h
    have hmx : maxint = 4294967295 := rfl
    have ht := threshold_bounds k bias
    simp only [decVarint] at h
    rw [if_neg (show ¬ w = 0 by omega)] at h
    repeat' split at h
    all_goals first | exact absurd h (by simp) | skip
    next hwt =>
    have hwm : w ≤ maxint / (36 - threshold k bias) := by omega
    rw [Nat.le_div_iff_mul_le (by omega)] at hwm
    refine ih _ _ _ ?_ ?_ h
    · rw [u32_of_lt (by omega)]; exact Nat.mul_pos hw (by omega)
    · rw [u32_of_lt (by omega)]; exact hwm

end Idn2
