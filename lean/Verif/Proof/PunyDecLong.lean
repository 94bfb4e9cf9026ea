import Verif.Proof.PunyDec

/-
Decoding of encodings of labels of any length: right result, or a reported overflow.
-/

set_option linter.unusedSimpArgs false

namespace Idn2
open Spec

theorem decVarint_or {bias : Nat} (hb : bias ≤ 216) :
    ∀ (cs : List Nat) (q i w j : Nat) (rest : List Nat),
    cs.map decode_digit = Punycode.digits bias q (36 * (j + 1)) →
    10 ^ j ≤ w → w ≤ maxint → i ≤ maxint →
    (decVarint bias (cs ++ rest) i w (36 * (j + 1)) = .ok (i + q * w, rest) ∧ i + q * w ≤ maxint) ∨
    decVarint bias (cs ++ rest) i w (36 * (j + 1)) = .err .punycodeOverflow := by
  intro cs
  induction cs with
  | nil =>
    intro q i w j rest h
    exact absurd h.symm (Punycode.digits_ne_nil _ _ _)
  | cons c cs ih =>
    intro q i w j rest h hj hw hi
    have hw0 : 0 < w := Nat.lt_of_lt_of_le (Nat.pow_pos (by omega)) hj
    have ht := Punycode.threshold_bounds (36 * (j + 1)) bias
    have hte := threshold_eq (k := 36 * (j + 1)) (show bias < 4294967000 by omega)
    unfold Punycode.digits at h
    simp only [List.map_cons] at h
    simp only [List.cons_append, decVarint, hte]
    have hdl := decode_digit_lt c
    generalize htt : Punycode.threshold (36 * (j + 1)) bias = t at *
    have hmx : maxint = 4294967295 := rfl
    have hj9 : j ≤ 9 := by
      have h2 : 10 ^ j < 10 ^ 10 := by omega
      have := (Nat.pow_lt_pow_iff_right (show 1 < 10 by omega)).mp h2
      omega
    rw [if_neg (by omega), if_neg (by omega)]
    simp only [sub32_of_le hi (show maxint < 4294967296 by omega)]
    by_cases hov : decode_digit c > (maxint - i) / w
    · right; rw [if_pos hov]
    · rw [if_neg hov]
      have hle : decode_digit c ≤ (maxint - i) / w := by omega
      rw [Nat.le_div_iff_mul_le hw0] at hle
      rw [u32_of_lt (show decode_digit c * w < _ by omega),
        u32_of_lt (show i + decode_digit c * w < _ by omega)]
      split at h
      · next hq =>
        injection h with h1 h2
        rw [h1] at hle ⊢
        left
        rw [if_pos hq]
        simp at h2; subst h2
        exact ⟨rfl, by omega⟩
      · next hq =>
        injection h with h1 h2
        have hmodlt := Nat.mod_lt (q - t) (show 0 < 36 - t by omega)
        have hdm := Nat.div_add_mod (q - t) (36 - t)
        generalize hq' : (q - t) / (36 - t) = q' at *
        generalize hr : (q - t) % (36 - t) = r at *
        have hqe : q = (t + r) + (36 - t) * q' := by omega
        have hqw : q * w = (t + r) * w + q' * (w * (36 - t)) := by
          rw [hqe, Nat.add_mul]; congr 1
          rw [Nat.mul_comm (36 - t) q', Nat.mul_assoc, Nat.mul_comm (36 - t) w]
        rw [h1] at hle ⊢
        rw [if_neg (by omega)]
        by_cases hwm : w > maxint / (36 - t)
        · right; rw [if_pos hwm]
        · rw [if_neg hwm]
          have hwm : w ≤ maxint / (36 - t) := by omega
          rw [Nat.le_div_iff_mul_le (by omega)] at hwm
          rw [u32_of_lt (show w * (36 - t) < _ by omega),
            u32_of_lt (show 36 * (j + 1) + 36 < _ by omega)]
          have hk' : 36 * (j + 1) + 36 = 36 * ((j + 1) + 1) := by omega
          rw [hk'] at h2 ⊢
          rcases ih q' (i + (t + r) * w) (w * (36 - t)) (j + 1) rest h2
            (by rw [Nat.pow_succ]; exact Nat.mul_le_mul hj (by omega)) hwm (by omega) with ⟨e1, e2⟩ | e1
          · left
            rw [e1]
            refine ⟨?_, by omega⟩
            congr 2; omega
          · right; exact e1

theorem decLoop_or {phys maxOut b : Nat} (hp : maxOut ≤ phys) (hmo : maxOut ≤ maxint - 1) :
    ∀ (xs : List (Nat × Nat)) (fuel : Nat) (rest : List Nat) (S : Punycode.St) (n i bias : Nat)
      (out : List Nat),
    DecInv b S n i bias out → b ≤ S.h → out.length ≤ maxOut → rest.length ≤ fuel →
    Punycode.Chain b S xs →
    (∀ x ∈ xs, x.1 < 0x110000 ∧ ¬ (0xD800 ≤ x.1 ∧ x.1 ≤ 0xDBFF)) →
    rest.map decode_digit = Punycode.codes b S xs →
    out.length + xs.length ≤ maxOut →
    (decLoop phys maxOut fuel rest n i bias out = .ok (xs.foldl Punycode.ins out) ∨
      decLoop phys maxOut fuel rest n i bias out = .err .punycodeOverflow) := by
  intro xs
  induction xs with
  | nil =>
    intro fuel rest S n i bias out inv hbh ho hf hc hx hr hl
    simp [Punycode.codes] at hr
    subst hr
    left
    unfold decLoop; simp
  | cons x xs ih =>
    intro fuel rest S n i bias out inv hbh ho hf hc hx hr hl
    obtain ⟨m, p⟩ := x
    obtain ⟨c1, c2, c3⟩ := hc
    simp only at c1 c2
    have hmx : maxint = 4294967295 := rfl
    have hlen := inv.ok.len
    obtain rfl := inv.n
    obtain rfl := inv.i
    obtain rfl := inv.bias
    have hile := inv.i_le
    simp only [Punycode.codes] at hr
    obtain ⟨pre, rest', rfl, hr1, hr2⟩ := List.map_eq_append_iff.mp hr
    have hpre : pre ≠ [] := by
      intro hc; rw [hc] at hr1; exact Punycode.digits_ne_nil _ _ _ hr1.symm
    obtain ⟨c, pre', hpc⟩ := List.exists_cons_of_ne_nil hpre
    have hmb := hx (m, p) (by simp)
    simp only at hmb
    have hnl := inv.n_lt
    have hge := inv.ok.n_ge
    simp only [List.length_cons] at hl
    have hq : S.i + Punycode.delta S (m, p) = (m - S.n) * (S.h + 1) + p := by
      have : S.i ≤ (m - S.n) * (S.h + 1) + p := by
        rcases c2 with c2 | c2
        · have : 1 * (S.h + 1) ≤ (m - S.n) * (S.h + 1) := Nat.mul_le_mul_right _ (by omega)
          omega
        · omega
      simp only [Punycode.delta]; omega
    cases fuel with
    | zero =>
      rw [hpc] at hf; simp at hf
    | succ fuel =>
      unfold decLoop
      rw [hpc, List.cons_append]
      simp only
      rw [← List.cons_append, ← hpc]
      have hv := decVarint_or inv.bias_le pre (Punycode.delta S (m, p)) S.i 1 0 rest'
        (by simpa using hr1) (by simp) (by omega) (by omega)
      simp only [Nat.zero_add, Nat.mul_one] at hv
      rcases hv with ⟨hv, hbound⟩ | hv
      · rw [hv]
        simp only
        have had := adapt_eq (delta := Punycode.delta S (m, p)) (np := S.h + 1) (S.h == b)
          (by omega) (by omega)
        rw [u32_of_le (show out.length + 1 ≤ maxint by omega), inv.first_eq,
          sub32_of_le (by omega) (by omega), Nat.add_sub_cancel_left, ← hlen, had.1]
        simp only
        have hdiv : (S.i + Punycode.delta S (m, p)) / (S.h + 1) = m - S.n := by
          rw [hq, Nat.mul_comm, Nat.mul_add_div (by omega), Nat.div_eq_of_lt (by omega)]; omega
        have hmod : (S.i + Punycode.delta S (m, p)) % (S.h + 1) = p := by
          rw [hq, Nat.mul_comm, Nat.mul_add_mod, Nat.mod_eq_of_lt (by omega)]
        rw [hdiv, hmod]
        simp only [sub32_of_le (show S.n ≤ maxint by omega) (show maxint < 4294967296 by omega)]
        rw [if_neg (by omega), show S.n + (m - S.n) = m by omega,
          u32_of_le (show m ≤ maxint by omega), if_neg (by omega), if_neg (by omega),
          if_pos (by omega), u32_of_le (show p + 1 ≤ maxint by omega)]
        have inv' := inv.next hbh (x := (m, p)) c1 c2 (by simp only; omega) had.2
        have hlen' := inv'.ok.len
        simp only [Punycode.next] at hlen'
        have := ih fuel rest' _ _ _ _ _ inv' (by simp only [Punycode.next]; omega) (by omega)
          (by simp only [List.length_append] at hf; rw [hpc] at hf; simp at hf; omega) c3
          (fun y hy => hx y (by simp [hy])) hr2 (by omega)
        simpa [Punycode.ins] using this
      · right; rw [hv]

/-- Without the length bound: right result or overflow. -/
theorem punycode_decode_or {phys outLen : Nat} {u ds : List Nat} (hp : outLen ≤ phys)
    (hcm : outLen < maxint)
    (henc : Punycode.Encodable u) (hb : ∀ c ∈ Punycode.basics u, decBasic c = true)
    (hna : Punycode.insertions u ≠ [])
    (hcap : u.length ≤ outLen)
    (hds : ∀ c ∈ ds, decBasic c = true) (hnd : ∀ c ∈ ds, c ≠ 0x2D)
    (hcodes : ds.map decode_digit =
      Punycode.codes (Punycode.basics u).length (Punycode.init (Punycode.basics u).length)
        (Punycode.insertions u)) :
    punycode_decode phys outLen (headOf (Punycode.basics u) ++ ds) = .ok u ∨
    punycode_decode phys outLen (headOf (Punycode.basics u) ++ ds) = .err .punycodeOverflow := by
  have hmx : maxint = 4294967295 := rfl
  have hu : ∀ x ∈ u, x < 0x110000 := fun x hx => by have := (henc x hx).1; omega
  have hfold := Punycode.foldl_insertions hu
  have hchain := Punycode.chain_insertions u
  have hlt : ∀ x ∈ Punycode.basics u, x < 0x80 := fun x hx => decBasic_lt (hb x hx)
  have hlu := ins_length (Punycode.insertions u) (Punycode.init (Punycode.basics u).length)
    (Punycode.basics u) rfl hchain
  rw [hfold] at hlu
  have hne : ds ≠ [] := by
    intro hc
    rw [hc] at hcodes
    have := codes_length_ge (b := (Punycode.basics u).length) (Punycode.insertions u)
      (Punycode.init (Punycode.basics u).length)
    rw [← hcodes] at this
    simp at this
    exact hna this
  have hpos := List.length_pos_iff.mpr hna
  have hmo : (if outLen > maxint then maxint else outLen) = outLen := if_neg (by omega)
  have inv : DecInv (Punycode.basics u).length (Punycode.init (Punycode.basics u).length) 0x80 0 72
      (Punycode.basics u) := by
    refine ⟨rfl, rfl, rfl, by simp [Punycode.init], Punycode.Ok.init hlt, by simp [Punycode.init],
      by simp [Punycode.init], ?_⟩
    simp [Punycode.init]
  have hloop : ∀ fuel, ds.length ≤ fuel →
      decLoop phys outLen fuel ds 0x80 0 72 (Punycode.basics u) = .ok u ∨
      decLoop phys outLen fuel ds 0x80 0 72 (Punycode.basics u) = .err .punycodeOverflow := by
    intro fuel hf
    have := decLoop_or (phys := phys) (maxOut := outLen) (by omega) (by omega)
      (Punycode.insertions u) fuel
      ds _ _ _ _ _ inv (by simp [Punycode.init]) (by omega) hf hchain
      (fun x hx => by have := henc x.1 (insertions_mem hx); omega) hcodes (by omega)
    rw [hfold] at this
    exact this
  generalize hs : headOf (Punycode.basics u) ++ ds = s
  have hsb : ∀ c ∈ s, decBasic c = true := by
    intro c hc
    rw [← hs] at hc
    unfold headOf at hc
    simp only [List.mem_append] at hc
    rcases hc with (hc | hc) | hc
    · exact hb c hc
    · split at hc
      · simp at hc
      · simp at hc; subst hc; decide
    · exact hds c hc
  have hsl : s.length ≠ 0 ∧ ds.length ≤ s.length := by
    have := List.length_pos_iff.mpr hne
    rw [← hs, List.length_append]; omega
  obtain ⟨r, hr⟩ := decScan_of_basic s 0 0 hsb
  unfold punycode_decode
  rw [if_neg hsl.1, hr]
  simp only [hmo]
  obtain ⟨_, s2⟩ := decScan_spec _ _ _ _ hr
  by_cases hbe : Punycode.basics u = []
  · have hsd : s = ds := by rw [← hs, hbe]; simp [headOf]
    rcases s2 with ⟨rfl, s3⟩ | ⟨pre, post, s3, s4, s5⟩
    · have hn : ¬ s[0]? = some 0x2D := by
        intro hc
        exact s3 0x2D (List.mem_of_getElem? hc) rfl
      rw [if_neg hn]
      have := hloop s.length hsl.2
      rw [hbe, ← hsd] at this
      simpa using this
    · exfalso
      exact hnd 0x2D (by rw [← hsd, s3]; simp) rfl
  · have hsd : s = Punycode.basics u ++ 0x2D :: ds := by rw [← hs]; simp [headOf, hbe]
    rcases s2 with ⟨rfl, s3⟩ | ⟨pre, post, s3, s4, s5⟩
    · exfalso; exact s3 0x2D (by rw [hsd]; simp) rfl
    · obtain ⟨rfl, rfl⟩ := last_delim_unique (hsd.symm.trans s3) hnd s5
      simp only [Nat.zero_add] at s4
      have hget : s[r]? = some 0x2D := by rw [hsd, s4]; simp
      have hbpos := List.length_pos_iff.mpr hbe
      have hdpos := List.length_pos_iff.mpr hne
      have hsle : s.length = (Punycode.basics u).length + (ds.length + 1) := by rw [hsd]; simp
      rw [if_pos hget, if_neg (by omega), if_neg (by omega), if_pos (by omega)]
      have ht : s.take r = Punycode.basics u := by rw [hsd, s4]; simp
      have hd : s.drop (r + 1) = ds := by rw [hsd, s4]; simp
      rw [ht, hd]
      exact hloop s.length hsl.2

/-! ### Digits written by the encoder -/

theorem codes_lt {b : Nat} : ∀ (xs : List (Nat × Nat)) (S : Punycode.St),
    ∀ d ∈ Punycode.codes b S xs, d < 36 := by
  intro xs
  induction xs with
  | nil => intro S d h; simp [Punycode.codes] at h
  | cons x xs ih =>
    intro S d h
    simp only [Punycode.codes, List.mem_append] at h
    rcases h with h | h
    · exact Punycode.digits_lt _ _ _ d h
    · exact ih _ d h

theorem digitChar_basic {d : Nat} (h : d < 36) :
    decBasic (Punycode.digitChar d) = true ∧ Punycode.digitChar d ≠ 0x2D := by
  unfold decBasic Punycode.digitChar
  split
  · constructor
    · simp; omega
    · omega
  · constructor
    · simp; omega
    · omega

theorem map_decode_digitChar {l : List Nat} (h : ∀ d ∈ l, d < 36) :
    (l.map Punycode.digitChar).map decode_digit = l := by
  rw [List.map_map]
  conv => rhs; rw [← List.map_id l]
  apply List.map_congr_left
  intro d hd
  simp [decode_digit_digitChar (h d hd)]

theorem insertions_ne_nil {u : List Nat} (hu : ∀ x ∈ u, x < 0x110000) (h : ∃ c ∈ u, 0x80 ≤ c) :
    Punycode.insertions u ≠ [] := by
  intro hc
  have := Punycode.foldl_insertions hu
  rw [hc] at this
  simp only [List.foldl_nil] at this
  obtain ⟨c, hc1, hc2⟩ := h
  rw [← this] at hc1
  unfold Punycode.basics at hc1
  simp at hc1
  omega

end Idn2
