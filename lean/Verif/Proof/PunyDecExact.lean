import Verif.Proof.PunyDecLong
import Verif.Spec.PunyDecode

/-
The C decoder has the outcome `Spec.Punycode.Decoding` says, for every string.
-/

namespace Idn2
open Spec

namespace Spec.Punycode

theorem max32_eq : max32 = maxint := rfl

theorem weight_ge (bias : Nat) : ∀ j, 10 ^ j ≤ weight bias j
  | 0 => by simp [weight]
  | j + 1 => by
    have h1 := weight_ge bias j
    have h2 := threshold_bounds (36 * (j + 1)) bias
    rw [weight, Nat.pow_succ]
    exact Nat.mul_le_mul h1 (by omega)

theorem weight_pos (bias j : Nat) : 0 < weight bias j :=
  Nat.lt_of_lt_of_le (Nat.pow_pos (by omega)) (weight_ge bias j)

theorem weight_le_succ (bias j : Nat) : weight bias j ≤ weight bias (j + 1) := by
  have h2 := threshold_bounds (36 * (j + 1)) bias
  rw [weight]
  exact Nat.le_mul_of_pos_right _ (by omega)

theorem value_nil (bias : Nat) : value bias [] = 0 := rfl

theorem value_snoc (bias : Nat) (p : List Nat) (d : Nat) :
    value bias (p ++ [d]) = value bias p + d * weight bias p.length := by
  unfold value
  rw [List.mapIdx_append]
  simp

theorem open_snoc {bias : Nat} {p : List Nat} {d : Nat} :
    Open bias (p ++ [d]) ↔ Open bias p ∧ threshold (36 * (p.length + 1)) bias ≤ d := by
  unfold Open
  constructor
  · intro h
    constructor
    · intro j x hx
      exact h j x (by rw [List.getElem?_append_left (List.getElem?_eq_some_iff.mp hx).1]; exact hx)
    · exact h p.length d (by simp)
  · intro ⟨h1, h2⟩ j x hx
    by_cases hj : j < p.length
    · rw [List.getElem?_append_left hj] at hx
      exact h1 j x hx
    · rw [List.getElem?_append_right (by omega)] at hx
      have hj0 : j - p.length = 0 := by
        by_cases h0 : j - p.length = 0
        · exact h0
        · rw [List.getElem?_eq_none (by simp; omega)] at hx; simp at hx
      rw [hj0] at hx
      simp at hx
      rw [← hx, show j = p.length by omega]
      exact h2

theorem fits_snoc {bias i : Nat} {p : List Nat} {d : Nat} (h : Fits bias i (p ++ [d])) :
    Fits bias i p ∧ i + value bias p + d * weight bias p.length ≤ max32 ∧
      weight bias (p.length + 1) ≤ max32 := by
  obtain ⟨h1, h2⟩ := h
  rw [List.length_append, List.length_singleton] at h1
  rw [value_snoc] at h2
  have := weight_le_succ bias p.length
  exact ⟨⟨by omega, by omega⟩, by omega, h1⟩

theorem fits_len {bias i : Nat} {p : List Nat} (h : Fits bias i p) : p.length ≤ 9 := by
  have h1 := weight_ge bias p.length
  have h2 := h.1
  rw [max32_eq] at h2
  have hmx : maxint = 4294967295 := rfl
  have h3 : 10 ^ p.length < 10 ^ 10 := by omega
  have := (Nat.pow_lt_pow_iff_right (show 1 < 10 by omega)).mp h3
  omega

end Spec.Punycode

/-- One turn of the decoder's integer loop, without machine arithmetic. -/
theorem decVarint_step {bias : Nat} (hb : bias ≤ 216) (c : Nat) (rest : List Nat) {i w j : Nat}
    (hw0 : 0 < w) (hw : w ≤ maxint) (hi : i ≤ maxint) (hj : j ≤ 9) :
    decVarint bias (c :: rest) i w (36 * (j + 1)) =
      if maxint < i + decode_digit c * w then .err .punycodeOverflow
      else if decode_digit c < Punycode.threshold (36 * (j + 1)) bias then
        .ok (i + decode_digit c * w, rest)
      else if maxint < w * (36 - Punycode.threshold (36 * (j + 1)) bias) then
        .err .punycodeOverflow
      else decVarint bias rest (i + decode_digit c * w)
        (w * (36 - Punycode.threshold (36 * (j + 1)) bias)) (36 * (j + 1 + 1)) := by
  have ht := Punycode.threshold_bounds (36 * (j + 1)) bias
  have hte := threshold_eq (k := 36 * (j + 1)) (show bias < 4294967000 by omega)
  have hdl := decode_digit_lt c
  have hmx : maxint = 4294967295 := rfl
  rw [decVarint]
  simp only [hte, sub32_of_le hi (show maxint < 4294967296 by omega)]
  generalize Punycode.threshold (36 * (j + 1)) bias = t at *
  rw [if_neg (by omega), if_neg (by omega)]
  have e1 : (decode_digit c > (maxint - i) / w) ↔ maxint < i + decode_digit c * w := by
    have := Nat.le_div_iff_mul_le (x := decode_digit c) (y := maxint - i) hw0
    omega
  have e2 : (w > maxint / (36 - t)) ↔ maxint < w * (36 - t) := by
    have := Nat.le_div_iff_mul_le (x := w) (y := maxint) (show 0 < 36 - t by omega)
    omega
  by_cases h1 : maxint < i + decode_digit c * w
  · rw [if_pos (e1.mpr h1), if_pos h1]
  · rw [if_neg (fun h => h1 (e1.mp h)), if_neg h1,
      u32_of_lt (show decode_digit c * w < _ by omega),
      u32_of_lt (show i + decode_digit c * w < _ by omega)]
    by_cases h2 : decode_digit c < t
    · rw [if_pos h2, if_pos h2]
    · rw [if_neg h2, if_neg h2]
      by_cases h3 : maxint < w * (36 - t)
      · rw [if_pos (e2.mpr h3), if_pos h3]
      · rw [if_neg (fun h => h3 (e2.mp h)), if_neg h3,
          u32_of_lt (show w * (36 - t) < _ by omega),
          u32_of_lt (show 36 * (j + 1) + 36 < _ by omega)]
        rfl

/-- Reading digits that neither end the number nor overflow. -/
theorem decVarint_open {bias : Nat} (hb : bias ≤ 216) (i : Nat) :
    ∀ (n : Nat) (p rest : List Nat), p.length = n →
    Punycode.Open bias (p.map decode_digit) → Punycode.Fits bias i (p.map decode_digit) →
    decVarint bias (p ++ rest) i 1 36 =
      decVarint bias rest (i + Punycode.value bias (p.map decode_digit))
        (Punycode.weight bias p.length) (36 * (p.length + 1)) := by
  intro n
  induction n with
  | zero =>
    intro p rest hp _ _
    obtain rfl := List.length_eq_zero_iff.mp hp
    rfl
  | succ n ih =>
    intro p rest hp ho hf
    have hne : p ≠ [] := by intro h; rw [h] at hp; simp at hp
    rw [← List.dropLast_concat_getLast hne] at ho hf hp ⊢
    generalize p.dropLast = p' at *
    generalize p.getLast hne = c at *
    rw [List.map_append, List.map_singleton] at ho hf ⊢
    obtain ⟨o1, o2⟩ := Punycode.open_snoc.mp ho
    obtain ⟨f1, f2, f3⟩ := Punycode.fits_snoc hf
    have hl : p'.length = n := by simpa using hp
    rw [List.append_assoc, List.singleton_append, ih p' (c :: rest) hl o1 f1]
    rw [List.length_map] at o2 f2 f3
    have h9 := Punycode.fits_len f1
    rw [List.length_map] at h9
    have hf1 := f1.1
    have hf2 := f1.2
    rw [List.length_map] at hf1
    rw [Punycode.max32_eq] at *
    rw [decVarint_step hb c rest (Punycode.weight_pos _ _) hf1 hf2 h9, if_neg (by omega),
      if_neg (by omega), if_neg (by rw [Punycode.weight] at f3; omega),
      Punycode.value_snoc, List.length_append, List.length_singleton, Punycode.weight,
      List.length_map, Nat.add_assoc]

/-- Every outcome of reading a number that the specification allows is the decoder's. -/
theorem reads_complete {bias i : Nat} (hb : bias ≤ 216) {cs : List Nat}
    {y : Except Rc (Nat × List Nat)} (h : Punycode.Reads bias i (cs.map decode_digit) y) :
    match y with
    | .ok (v, r) => i + v ≤ maxint ∧ ∃ rest, r = rest.map decode_digit ∧ rest.length < cs.length ∧
        decVarint bias cs i 1 36 = .ok (i + v, rest)
    | .error e => decVarint bias cs i 1 36 = .err e := by
  have split {p : List Nat} {d : Nat} {r : List Nat} (h : cs.map decode_digit = p ++ d :: r) :
      ∃ p' c rest, cs = p' ++ c :: rest ∧ p = p'.map decode_digit ∧ d = decode_digit c ∧
        r = rest.map decode_digit := by
    obtain ⟨p', x, rfl, rfl, hx⟩ := List.map_eq_append_iff.mp h
    obtain ⟨c, rest, rfl, rfl, rfl⟩ := List.map_eq_cons_iff.mp hx
    exact ⟨p', c, rest, rfl, rfl, rfl, rfl⟩
  have step {p : List Nat} (c : Nat) (rest : List Nat)
      (ho : Punycode.Open bias (p.map decode_digit))
      (hf : Punycode.Fits bias i (p.map decode_digit)) :=
    (decVarint_open hb i _ p (c :: rest) rfl ho hf).trans
      (decVarint_step hb c rest (Punycode.weight_pos _ _)
        (by have := hf.1; rwa [List.length_map] at this) hf.2
        (by have := Punycode.fits_len hf; rwa [List.length_map] at this))
  cases h with
  | number p d r h1 h2 h3 h4 h5 =>
    obtain ⟨p, c, rest, rfl, rfl, rfl, rfl⟩ := split h1
    rw [Punycode.value_snoc, Punycode.max32_eq, List.length_map] at h5
    rw [List.length_map] at h4
    refine ⟨by rw [Punycode.value_snoc, List.length_map]; exact h5, rest, rfl,
      by simp only [List.length_append, List.length_cons]; omega, ?_⟩
    rw [step c rest h2 h3, if_neg (by omega), if_pos h4, Punycode.value_snoc, List.length_map,
      Nat.add_assoc]
  | cut h1 h2 =>
    have := decVarint_open hb i _ cs [] rfl h1 h2
    rw [List.append_nil] at this
    exact this
  | large p d r h1 h2 h3 h4 =>
    obtain ⟨p, c, rest, rfl, rfl, rfl, rfl⟩ := split h1
    rw [Punycode.value_snoc, Punycode.max32_eq, List.length_map] at h4
    show decVarint bias (p ++ c :: rest) i 1 36 = _
    rw [step c rest h2 h3]
    rcases h4 with h4 | ⟨h4, h5⟩
    · rw [if_pos (by omega)]
    · rw [Punycode.weight] at h5
      by_cases h6 : maxint < i + Punycode.value bias (p.map decode_digit) +
          decode_digit c * Punycode.weight bias p.length
      · rw [if_pos h6]
      · rw [if_neg h6, if_neg (by omega),
          if_pos h5]

/-- Every outcome of the decoder's integer loop is one of the specification. -/
theorem reads_sound {bias i : Nat} (hb : bias ≤ 216) :
    ∀ (rest p : List Nat), Punycode.Open bias (p.map decode_digit) →
    Punycode.Fits bias i (p.map decode_digit) →
    match decVarint bias (p ++ rest) i 1 36 with
    | .ok (i', r) => ∃ v, i' = i + v ∧
        Punycode.Reads bias i ((p ++ rest).map decode_digit) (.ok (v, r.map decode_digit))
    | .err e => Punycode.Reads bias i ((p ++ rest).map decode_digit) (.error e)
    | .ub => False := by
  intro rest
  induction rest with
  | nil =>
    intro p ho hf
    rw [decVarint_open hb i _ p [] rfl ho hf, List.append_nil]
    exact .cut ho hf
  | cons c rest ih =>
    intro p ho hf
    have h9 := Punycode.fits_len hf
    rw [List.length_map] at h9
    have hf1 := hf.1
    have hf2 := hf.2
    rw [List.length_map] at hf1
    rw [Punycode.max32_eq] at hf1 hf2
    have hst := (decVarint_open hb i _ p (c :: rest) rfl ho hf).trans
      (decVarint_step hb c rest (Punycode.weight_pos _ _) hf1 hf2 h9)
    have hm : (p ++ c :: rest).map decode_digit =
        p.map decode_digit ++ decode_digit c :: rest.map decode_digit := by simp
    have hv := Punycode.value_snoc bias (p.map decode_digit) (decode_digit c)
    rw [List.length_map] at hv
    by_cases h1 : maxint < i + Punycode.value bias (p.map decode_digit) +
        decode_digit c * Punycode.weight bias p.length
    · rw [if_pos h1] at hst
      rw [hst]
      refine .large _ _ _ hm ho hf (.inl ?_)
      rw [hv, Punycode.max32_eq]; omega
    · rw [if_neg h1] at hst
      by_cases h2 : decode_digit c < Punycode.threshold (36 * (p.length + 1)) bias
      · rw [if_pos h2] at hst
        rw [hst]
        refine ⟨Punycode.value bias (p.map decode_digit ++ [decode_digit c]), by rw [hv]; omega, ?_⟩
        refine .number _ _ _ hm ho hf (by rw [List.length_map]; exact h2) ?_
        rw [hv, Punycode.max32_eq]; omega
      · rw [if_neg h2] at hst
        by_cases h3 : maxint < Punycode.weight bias p.length *
            (36 - Punycode.threshold (36 * (p.length + 1)) bias)
        · rw [if_pos h3] at hst
          rw [hst]
          refine .large _ _ _ hm ho hf (.inr ⟨by rw [List.length_map]; omega, ?_⟩)
          rw [List.length_map, Punycode.weight]; exact h3
        · have := ih (p ++ [c])
            (by rw [List.map_append]; exact Punycode.open_snoc.mpr ⟨ho, by rw [List.length_map]; omega⟩)
            (by
              rw [List.map_append, List.map_singleton]
              refine ⟨?_, by rw [hv, Punycode.max32_eq]; omega⟩
              rw [List.length_append, List.length_map, List.length_singleton, Punycode.weight,
                Punycode.max32_eq]
              omega)
          rw [List.append_assoc, List.singleton_append] at this
          exact this

theorem reads_sound' {bias i : Nat} (hb : bias ≤ 216) (hi : i ≤ maxint) (cs : List Nat) :
    match decVarint bias cs i 1 36 with
    | .ok (i', r) => ∃ v, i' = i + v ∧
        Punycode.Reads bias i (cs.map decode_digit) (.ok (v, r.map decode_digit))
    | .err e => Punycode.Reads bias i (cs.map decode_digit) (.error e)
    | .ub => False := by
  have := reads_sound hb (i := i) cs [] (by intro j d h; simp at h)
    ⟨show 1 ≤ 4294967295 by decide, by rw [Punycode.max32_eq]; exact hi⟩
  exact this

/-- Only one insertion is so many states away. -/
theorem at_iff {s : Punycode.St} {v : Nat} {x : Nat × Nat} :
    Punycode.At s v x ↔ x = (s.n + (s.i + v) / (s.h + 1), (s.i + v) % (s.h + 1)) := by
  obtain ⟨m, p⟩ := x
  simp only [Punycode.At, Prod.mk.injEq]
  constructor
  · intro ⟨h1, h2, h3⟩
    rw [← h3, Nat.mul_comm, Nat.mul_add_div (by omega), Nat.div_eq_of_lt (by omega),
      Nat.mul_add_mod, Nat.mod_eq_of_lt (by omega)]
    omega
  · intro ⟨h1, h2⟩
    have h3 := Nat.mod_lt (s.i + v) (show 0 < s.h + 1 by omega)
    have h4 := Nat.div_add_mod (s.i + v) (s.h + 1)
    have h5 : m - s.n = (s.i + v) / (s.h + 1) := by rw [h1, Nat.add_sub_cancel_left]
    refine ⟨by rw [h1]; exact Nat.le_add_right _ _, by omega, ?_⟩
    rw [h5, h2, Nat.mul_comm]; exact h4

/-- One turn of the decoder's main loop, without machine arithmetic. -/
theorem decLoop_step {phys cap b fuel c : Nat} {rest rest' : List Nat} {S : Punycode.St}
    {n i bias : Nat} {out : List Nat} {v : Nat} {x : Nat × Nat}
    (hp : cap ≤ phys) (hc : cap < maxint) (inv : DecInv b S n i bias out) (hbh : b ≤ S.h)
    (hol : out.length ≤ cap) (hx : Punycode.At S v x) (hv : S.i + v ≤ maxint)
    (h : decVarint bias (c :: rest) i 1 36 = .ok (S.i + v, rest')) :
    decLoop phys cap (fuel + 1) (c :: rest) n i bias out =
        (if maxint < x.1 then .err .punycodeOverflow
        else if ¬ Punycode.Insertable x.1 then .err .punycodeBadInput
        else if cap ≤ S.h then .err .punycodeBigOutput
        else decLoop phys cap fuel rest' x.1 (x.2 + 1) (Punycode.next b S x).bias
          (out.insertIdx x.2 x.1)) ∧
      (Punycode.Insertable x.1 →
        DecInv b (Punycode.next b S x) x.1 (x.2 + 1) (Punycode.next b S x).bias
          (out.insertIdx x.2 x.1)) := by
  have hmx : maxint = 4294967295 := rfl
  have hlen := inv.ok.len
  obtain rfl := inv.n
  obtain rfl := inv.i
  obtain rfl := inv.bias
  have hd := dec_div inv.i_le (rfl : S.i + v = S.i + v)
  obtain rfl := at_iff.mp hx
  simp only at hd
  obtain ⟨d1, d2, d3⟩ := hd
  have had := adapt_eq (delta := v) (np := S.h + 1) (S.h == b) (by omega) (by omega)
  have hnl := inv.n_lt
  refine ⟨?_, ?_⟩
  · conv => lhs; unfold decLoop
    simp only
    rw [h]
    simp only
    rw [u32_of_le (show out.length + 1 ≤ maxint by omega), inv.first_eq,
      sub32_of_le (by omega) (by omega), Nat.add_sub_cancel_left, ← hlen, had.1,
      sub32_of_le (show S.n ≤ maxint by omega) (by omega)]
    simp only [Punycode.next, d3]
    generalize (S.i + v) / (S.h + 1) = q at *
    generalize (S.i + v) % (S.h + 1) = p at *
    by_cases h1 : maxint < S.n + q
    · rw [if_pos (by omega), if_pos h1]
    · rw [if_neg (by omega), if_neg h1, u32_of_le (show S.n + q ≤ maxint by omega)]
      by_cases h2 : Punycode.Insertable (S.n + q)
      · have h2' := h2
        simp only [Punycode.Insertable] at h2'
        rw [if_neg (show ¬ (S.n + q > 0x10FFFF ∨ S.n + q ≥ 0xD800 ∧ S.n + q ≤ 0xDBFF) by omega),
          if_neg (not_not_intro h2)]
        by_cases h3 : cap ≤ S.h
        · rw [if_pos h3, if_pos h3]
        · rw [if_neg h3, if_neg h3, if_pos (by omega), u32_of_le (show p + 1 ≤ maxint by omega)]
      · have h2' := h2
        simp only [Punycode.Insertable] at h2'
        rw [if_pos (by omega), if_pos h2]
  · intro hI
    simp only [Punycode.Insertable] at hI
    exact inv.next hbh (x := (S.n + (S.i + v) / (S.h + 1), (S.i + v) % (S.h + 1))) d1 d2
      (by simp only; omega) (by rw [d3]; exact had.2)

/-- Outcome of the model as a value of the specification. -/
def Res.Is {α : Type} (x : Res α) : Except Rc α → Prop
  | .ok a => x = .ok a
  | .error e => x = .err e

theorem decLoop_exact {phys cap b : Nat} (hp : cap ≤ phys) (hc : cap < maxint) :
    ∀ {S : Punycode.St} {out ds : List Nat} {y : Except Rc (List Nat)},
    Punycode.Runs cap b S out ds y → ∀ (fuel : Nat) (rest : List Nat) (n i bias : Nat),
    ds = rest.map decode_digit → rest.length ≤ fuel → DecInv b S n i bias out → b ≤ S.h →
    out.length ≤ cap → (decLoop phys cap fuel rest n i bias out).Is y := by
  have hmx : maxint = 4294967295 := rfl
  intro S out ds y h
  have start {S : Punycode.St} {out ds r : List Nat} {v : Nat} {fuel : Nat} {rest : List Nat}
      {n i bias : Nat} (hne : ds ≠ [])
      (hr : Punycode.Reads S.bias S.i ds (.ok (v, r))) (hds : ds = rest.map decode_digit)
      (hf : rest.length ≤ fuel) (inv : DecInv b S n i bias out) :
      ∃ c cs rest' f, rest = c :: cs ∧ fuel = f + 1 ∧ r = rest'.map decode_digit ∧
        rest'.length ≤ f ∧ S.i + v ≤ maxint ∧
        decVarint bias (c :: cs) i 1 36 = .ok (S.i + v, rest') := by
    subst hds
    obtain ⟨c, cs, rfl⟩ := List.exists_cons_of_ne_nil
      (show rest ≠ [] by intro h; rw [h] at hne; simp at hne)
    obtain ⟨h1, rest', h2, h3, h4⟩ := reads_complete inv.bias_le hr
    cases fuel with
    | zero => simp at hf
    | succ f =>
      simp only [List.length_cons] at hf h3
      exact ⟨c, cs, rest', f, rfl, rfl, h2, by omega, h1, by rw [inv.bias, inv.i]; exact h4⟩
  induction h with
  | done s o =>
    intro fuel rest n i bias hds _ _ _ _
    have := List.map_eq_nil_iff.mp hds.symm
    subst this
    unfold decLoop
    rfl
  | number s o ds e hne hr =>
    intro fuel rest n i bias hds hf inv _ _
    subst hds
    obtain ⟨c, cs, rfl⟩ := List.exists_cons_of_ne_nil
      (show rest ≠ [] by intro h; rw [h] at hne; simp at hne)
    have h1 := reads_complete inv.bias_le hr
    simp only at h1
    cases fuel with
    | zero => simp at hf
    | succ f =>
      unfold decLoop
      simp only [inv.bias, inv.i, h1]
      rfl
  | large s o ds r v x hne hr hx hm =>
    intro fuel rest n i bias hds hf inv hbh hol
    obtain ⟨c, cs, rest', f, rfl, rfl, e1, e2, e3, e4⟩ := start hne hr hds hf inv
    rw [(decLoop_step hp hc inv hbh hol hx e3 e4).1, if_pos (by rw [← Punycode.max32_eq]; exact hm)]
    rfl
  | bad s o ds r v x hne hr hx hm hI =>
    intro fuel rest n i bias hds hf inv hbh hol
    obtain ⟨c, cs, rest', f, rfl, rfl, e1, e2, e3, e4⟩ := start hne hr hds hf inv
    rw [Punycode.max32_eq] at hm
    rw [(decLoop_step hp hc inv hbh hol hx e3 e4).1, if_neg (by omega), if_pos hI]
    rfl
  | full s o ds r v x hne hr hx hI hcap =>
    intro fuel rest n i bias hds hf inv hbh hol
    obtain ⟨c, cs, rest', f, rfl, rfl, e1, e2, e3, e4⟩ := start hne hr hds hf inv
    have hm := hI.1
    rw [(decLoop_step hp hc inv hbh hol hx e3 e4).1, if_neg (by omega), if_neg (by simp [hI]),
      if_pos hcap]
    rfl
  | step s o ds r v x y hne hr hx hI hcap _ ih =>
    intro fuel rest n i bias hds hf inv hbh hol
    obtain ⟨c, cs, rest', f, rfl, rfl, e1, e2, e3, e4⟩ := start hne hr hds hf inv
    have hm := hI.1
    have hst := decLoop_step (fuel := f) hp hc inv hbh hol hx e3 e4
    rw [hst.1, if_neg (by omega), if_neg (by simp [hI]), if_neg (by omega)]
    have inv' := hst.2 hI
    have hl := inv'.ok.len
    simp only [Punycode.next] at hl
    exact ih f rest' _ _ _ e1 e2 inv' (by simp only [Punycode.next]; omega) (by omega)

/-- Every run of the decoder's main loop has an outcome of the specification. -/
theorem decLoop_runs {phys cap b : Nat} (hp : cap ≤ phys) (hc : cap < maxint) :
    ∀ (k : Nat) (rest : List Nat) (S : Punycode.St) (n i bias : Nat) (out : List Nat),
    rest.length ≤ k → DecInv b S n i bias out → b ≤ S.h → out.length ≤ cap →
    ∃ y, Punycode.Runs cap b S out (rest.map decode_digit) y := by
  have hmx : maxint = 4294967295 := rfl
  intro k
  induction k with
  | zero =>
    intro rest S n i bias out hk _ _ _
    obtain rfl := List.length_eq_zero_iff.mp (Nat.le_zero.mp hk)
    exact ⟨_, .done _ _⟩
  | succ k ih =>
    intro rest S n i bias out hk inv hbh hol
    cases rest with
    | nil => exact ⟨_, .done _ _⟩
    | cons c cs =>
      have hne : (c :: cs).map decode_digit ≠ [] := by simp
      have hlen := inv.ok.len
      have hi := inv.i_le
      have hr := reads_sound' inv.bias_le (i := S.i) (by omega) (c :: cs)
      generalize hv : decVarint S.bias (c :: cs) S.i 1 36 = v at hr
      cases v with
      | ub => exact hr.elim
      | err e => exact ⟨_, .number _ _ _ e hne hr⟩
      | ok v =>
        obtain ⟨i', rest'⟩ := v
        simp only at hr
        obtain ⟨v, rfl, hr⟩ := hr
        obtain ⟨h1, r2, h2, h3, h4⟩ := reads_complete inv.bias_le hr
        rw [hv] at h4
        simp only [Res.ok.injEq, Prod.mk.injEq, true_and] at h4
        subst h4
        have hx : Punycode.At S v _ := at_iff.mpr rfl
        generalize (S.n + (S.i + v) / (S.h + 1), (S.i + v) % (S.h + 1)) = x at hx
        by_cases g1 : maxint < x.1
        · exact ⟨_, .large _ _ _ _ _ _ hne hr hx (by rw [Punycode.max32_eq]; exact g1)⟩
        · by_cases g2 : Punycode.Insertable x.1
          · by_cases g3 : cap ≤ S.h
            · exact ⟨_, .full _ _ _ _ _ _ hne hr hx g2 g3⟩
            · have inv' := (decLoop_step (fuel := 0) hp hc inv hbh hol hx h1
                (by rw [inv.bias, inv.i]; exact hv)).2 g2
              have hl := inv'.ok.len
              simp only [Punycode.next] at hl
              simp only [List.length_cons] at hk h3
              obtain ⟨y, hy⟩ := ih rest' _ _ _ _ _ (by omega) inv'
                (by simp only [Punycode.next]; omega) (by omega)
              exact ⟨y, .step _ _ _ _ _ _ _ hne hr hx g2 (by omega) hy⟩
          · exact ⟨_, .bad _ _ _ _ _ _ hne hr hx (by rw [Punycode.max32_eq]; omega) g2⟩

end Idn2
