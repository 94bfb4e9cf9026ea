import Verif.Proof.PunyEnc

/-
The C decoder: what it accepts is exactly a spelling of a Punycode encoding.
-/

set_option linter.unusedSimpArgs false

namespace Idn2
open Spec

/-- State correspondence for the decoder's main loop. -/
structure DecInv (b : Nat) (S : Punycode.St) (n i bias : Nat) (out : List Nat) : Prop where
  n : n = S.n
  i : i = S.i
  bias : bias = S.bias
  bias_le : S.bias ≤ 216
  ok : Punycode.Ok S out
  n_lt : S.n < 0x110000
  i_le : S.i ≤ S.h
  first : S.i = 0 ↔ S.h = b

theorem DecInv.first_eq {b : Nat} {S : Punycode.St} {n i bias : Nat} {out : List Nat}
    (h : DecInv b S n i bias out) : (i == 0) = (S.h == b) := by
  have := h.first
  rw [h.i]
  by_cases hi : S.i = 0
  · rw [hi, this.mp hi]; simp
  · have h2 : ¬ S.h = b := fun hc => hi (this.mpr hc)
    rw [beq_eq_false_iff_ne.mpr hi, beq_eq_false_iff_ne.mpr h2]

/-- Decoding step, common to both directions: what the decoder computes from the delta. -/
theorem dec_div {S : Punycode.St} {i' q : Nat} (_hi : S.i ≤ S.h) (hq : i' = S.i + q) :
    let m := S.n + i' / (S.h + 1)
    let p := i' % (S.h + 1)
    p ≤ S.h ∧ (S.n < m ∨ (S.n = m ∧ S.i ≤ p)) ∧ Punycode.delta S (m, p) = q := by
  have h1 : i' % (S.h + 1) < S.h + 1 := Nat.mod_lt _ (by omega)
  have h2 := Nat.div_add_mod i' (S.h + 1)
  refine ⟨by omega, ?_, ?_⟩
  · by_cases h0 : i' / (S.h + 1) = 0
    · right
      rw [h0] at h2 ⊢
      omega
    · left
      show S.n < S.n + i' / (S.h + 1)
      generalize i' / (S.h + 1) = z at h0
      omega
  · simp only [Punycode.delta]
    rw [Nat.add_sub_cancel_left, Nat.mul_comm, h2]
    omega

theorem DecInv.next {b : Nat} {S : Punycode.St} {n i bias : Nat} {out : List Nat}
    (inv : DecInv b S n i bias out) (hbh : b ≤ S.h) {x : Nat × Nat} (h1 : x.2 ≤ S.h)
    (h2 : S.n < x.1 ∨ (S.n = x.1 ∧ S.i ≤ x.2)) (h3 : x.1 < 0x110000)
    (h4 : Punycode.adapt (Punycode.delta S x) (S.h + 1) (S.h == b) ≤ 216) :
    DecInv b (Punycode.next b S x) x.1 (x.2 + 1)
      (Punycode.adapt (Punycode.delta S x) (S.h + 1) (S.h == b)) (Punycode.ins out x) := by
  refine ⟨rfl, rfl, rfl, h4, (inv.ok.step (b := b) h1 h2 h3).1, h3, ?_, ?_⟩
  · simp only [Punycode.next]; omega
  · simp only [Punycode.next]; omega

/-- Soundness of the decoder's main loop. -/
theorem decLoop_sound {phys maxOut b : Nat} :
    ∀ (fuel : Nat) (rest : List Nat) (S : Punycode.St) (n i bias : Nat) (out u : List Nat),
    DecInv b S n i bias out → b ≤ S.h → out.length ≤ maxint - 1 → maxOut ≤ maxint - 1 →
    S.i ≤ maxint →
    decLoop phys maxOut fuel rest n i bias out = .ok u →
    ∃ xs, Punycode.Chain b S xs ∧
      (∀ x ∈ xs, x.1 < 0x110000 ∧ ¬ (0xD800 ≤ x.1 ∧ x.1 ≤ 0xDBFF)) ∧
      u = xs.foldl Punycode.ins out ∧ rest.map decode_digit = Punycode.codes b S xs ∧
      (∀ d ∈ Punycode.deltas b S xs, d ≤ maxint) ∧
      (xs ≠ [] → u.length ≤ maxOut) := by
  intro fuel
  induction fuel with
  | zero =>
    intro rest S n i bias out u inv hbh hol hmo hsi h
    cases rest with
    | nil =>
      simp [decLoop] at h
      exact ⟨[], trivial, by simp, h.symm, rfl, by simp [Punycode.deltas], by simp⟩
    | cons c rest => simp [decLoop] at h
  | succ fuel ih =>
    intro rest S n i bias out u inv hbh hol hmo hsi h
    cases rest with
    | nil =>
      simp [decLoop] at h
      exact ⟨[], trivial, by simp, h.symm, rfl, by simp [Punycode.deltas], by simp⟩
    | cons c rest =>
      have hmx : maxint = 4294967295 := rfl
      have hlen := inv.ok.len
      obtain rfl := inv.n
      obtain rfl := inv.i
      obtain rfl := inv.bias
      unfold decLoop at h
      simp only at h
      rw [u32_of_le (show out.length + 1 ≤ maxint by omega), inv.first_eq] at h
      generalize hv : decVarint S.bias (c :: rest) S.i 1 36 = v at h
      cases v with
      | err e => simp at h
      | ub => simp at h
      | ok v =>
        obtain ⟨i', rest'⟩ := v
        simp only at h
        obtain ⟨q, pre, e1, e2, e3, e4⟩ := decVarint_sound inv.bias_le (c :: rest) S.i 1 0 i' rest' hv
          (by simp) (by omega) hsi
        rw [Nat.mul_one] at e2
        simp only [Nat.zero_add, Nat.mul_one] at e4
        rw [sub32_of_le (by omega) (by omega), show i' - S.i = q by omega] at h
        have had := adapt_eq (delta := q) (np := out.length + 1) (S.h == b) (by omega) (by omega)
        rw [had.1] at h
        simp only at h
        have hnl := inv.n_lt
        rw [sub32_of_le (show S.n ≤ maxint by omega) (by omega)] at h
        split at h
        · simp at h
        · next hnov =>
          rw [u32_of_le (show S.n + i' / (out.length + 1) ≤ maxint by omega)] at h
          split at h
          · simp at h
          · next hbad =>
            split at h
            · simp at h
            · next hbig =>
              split at h
              · next hphys =>
                rw [← hlen] at *
                have hd := dec_div inv.i_le e2
                simp only at hd
                obtain ⟨d1, d2, d3⟩ := hd
                generalize hm : S.n + i' / (S.h + 1) = m at *
                generalize hpp : i' % (S.h + 1) = p at *
                have inv' := inv.next hbh (x := (m, p)) d1 d2 (by simp only; omega)
                  (by rw [d3]; exact had.2)
                simp only [d3] at inv'
                rw [u32_of_le (show p + 1 ≤ maxint by omega)] at h
                have hlen' := inv'.ok.len
                simp only [Punycode.next] at hlen'
                obtain ⟨xs, f1, f2, f3, f4, f5, f6⟩ := ih _ _ _ _ _ _ _ inv'
                  (by simp only [Punycode.next]; omega) (by omega) hmo
                  (by simp only [Punycode.next]; omega) h
                refine ⟨(m, p) :: xs, ⟨d1, d2, f1⟩, ?_, f3, ?_, ?_, ?_⟩
                · intro x hx
                  rw [List.mem_cons] at hx
                  rcases hx with rfl | hx
                  · simp only; omega
                  · exact f2 x hx
                · rw [e1, List.map_append, e4, f4]
                  simp [Punycode.codes, d3]
                · intro d hdm
                  simp only [Punycode.deltas, List.mem_cons, d3] at hdm
                  rcases hdm with rfl | hdm
                  · omega
                  · exact f5 d hdm
                · intro _
                  by_cases hxs : xs = []
                  · subst hxs
                    rw [f3]; simp only [List.foldl_nil]; omega
                  · exact f6 hxs
              · simp at h

theorem codes_length_ge {b : Nat} : ∀ (xs : List (Nat × Nat)) (S : Punycode.St),
    xs.length ≤ (Punycode.codes b S xs).length := by
  intro xs
  induction xs with
  | nil => intro S; simp [Punycode.codes]
  | cons x xs ih =>
    intro S
    have h1 := ih (Punycode.next b S x)
    have h2 : 0 < (Punycode.digits S.bias (Punycode.delta S x) 36).length :=
      List.length_pos_iff.mpr (Punycode.digits_ne_nil _ _ _)
    simp only [Punycode.codes, List.length_append, List.length_cons]
    omega

/-- Completeness of the decoder's main loop: it rebuilds the string from the digits of a chain
of insertions, provided the running index stays within 32 bits. -/
theorem decLoop_complete {phys maxOut b : Nat} (hp : maxOut ≤ phys) :
    ∀ (xs : List (Nat × Nat)) (fuel : Nat) (rest : List Nat) (S : Punycode.St) (n i bias : Nat)
      (out : List Nat),
    DecInv b S n i bias out → b ≤ S.h → out.length ≤ maxOut → rest.length ≤ fuel →
    Punycode.Chain b S xs →
    (∀ x ∈ xs, x.1 < 0x110000 ∧ ¬ (0xD800 ≤ x.1 ∧ x.1 ≤ 0xDBFF)) →
    rest.map decode_digit = Punycode.codes b S xs →
    out.length + xs.length ≤ maxOut →
    (0x110000 * (out.length + xs.length) ≤ maxint →
      decLoop phys maxOut fuel rest n i bias out = .ok (xs.foldl Punycode.ins out)) := by
  intro xs
  induction xs with
  | nil =>
    intro fuel rest S n i bias out inv hbh ho hf hc hx hr hl hb
    simp [Punycode.codes] at hr
    subst hr
    unfold decLoop; simp
  | cons x xs ih =>
    intro fuel rest S n i bias out inv hbh ho hf hc hx hr hl hb
    obtain ⟨m, p⟩ := x
    obtain ⟨c1, c2, c3⟩ := hc
    simp only at c1 c2
    have hmx : maxint = 4294967295 := rfl
    have hlen := inv.ok.len
    obtain rfl := inv.n
    obtain rfl := inv.i
    obtain rfl := inv.bias
    simp only [Punycode.codes] at hr
    obtain ⟨pre, rest', rfl, hr1, hr2⟩ := List.map_eq_append_iff.mp hr
    have hpre : pre ≠ [] := by
      intro hc; rw [hc] at hr1; exact Punycode.digits_ne_nil _ _ _ hr1.symm
    obtain ⟨c, pre', hpc⟩ := List.exists_cons_of_ne_nil hpre
    have hmb := hx (m, p) (by simp)
    simp only at hmb
    have hnl := inv.n_lt
    have hge := inv.ok.n_ge
    simp only [List.length_cons] at hl hb
    -- bounds on the delta
    have hq : S.i + Punycode.delta S (m, p) = (m - S.n) * (S.h + 1) + p := by
      have : S.i ≤ (m - S.n) * (S.h + 1) + p := by
        rcases c2 with c2 | c2
        · have : 1 * (S.h + 1) ≤ (m - S.n) * (S.h + 1) := Nat.mul_le_mul_right _ (by omega)
          have := inv.i_le
          omega
        · omega
      simp only [Punycode.delta]; omega
    have hbound : (m - S.n) * (S.h + 1) + p ≤ maxint := by
      have h1 : (m - S.n) * (S.h + 1) ≤ (0x110000 - 0x80) * (S.h + 1) :=
        Nat.mul_le_mul_right _ (by omega)
      have h2 : (0x110000 - 0x80) * (S.h + 1) + (S.h + 1) ≤ 0x110000 * (out.length + (xs.length + 1)) := by
        have : 0x110000 * (S.h + 1) ≤ 0x110000 * (out.length + (xs.length + 1)) :=
          Nat.mul_le_mul_left _ (by omega)
        omega
      omega
    cases fuel with
    | zero =>
      rw [hpc] at hf; simp at hf
    | succ fuel =>
      unfold decLoop
      rw [hpc, List.cons_append]
      simp only
      rw [← List.cons_append, ← hpc]
      have hv := decVarint_complete inv.bias_le pre (Punycode.delta S (m, p)) S.i 1 0 rest'
        (by simpa using hr1) (by omega) (by simp) (by simp) (by omega)
      simp only [Nat.zero_add, Nat.mul_one] at hv
      rw [hv]
      simp only
      have had := adapt_eq (delta := Punycode.delta S (m, p)) (np := S.h + 1) (S.h == b)
        (by omega) (by omega)
      rw [u32_of_le (show out.length + 1 ≤ maxint by omega), inv.first_eq,
        sub32_of_le (by omega) (by omega), Nat.add_sub_cancel_left, ← hlen, had.1]
      simp only
      have hdiv : (S.i + Punycode.delta S (m, p)) / (S.h + 1) = m - S.n := by
        rw [hq, Nat.mul_comm, Nat.mul_add_div (by omega), Nat.div_eq_of_lt (by omega)]; omega
      have hmod : (S.i + Punycode.delta S (m, p)) % (S.h + 1) = p := by
        rw [hq, Nat.mul_comm, Nat.mul_add_mod, Nat.mod_eq_of_lt (by omega)]
      rw [hdiv, hmod]
      simp only [sub32_of_le (show S.n ≤ maxint by omega) (show maxint < 4294967296 by omega)]
      rw [if_neg (by omega), show S.n + (m - S.n) = m by omega,
        u32_of_le (show m ≤ maxint by omega), if_neg (by omega), if_neg (by omega),
        if_pos (by omega), u32_of_le (show p + 1 ≤ maxint by omega)]
      have inv' := inv.next hbh (x := (m, p)) c1 c2 (by simp only; omega) had.2
      have hlen' := inv'.ok.len
      simp only [Punycode.next] at hlen'
      have := ih fuel rest' _ _ _ _ _ inv' (by simp only [Punycode.next]; omega) (by omega)
        (by simp only [List.length_append] at hf; rw [hpc] at hf; simp at hf; omega) c3
        (fun y hy => hx y (by simp [hy])) hr2 (by omega)
        (by rw [← hlen']; rw [← hlen] at hb; rw [show S.h + 1 + xs.length = S.h + (xs.length + 1) by omega]; exact hb)
      simpa [Punycode.ins] using this

theorem decLoop_ne_ub {phys maxOut : Nat} (hp : maxOut ≤ phys) (hmo : maxOut ≤ maxint - 1) :
    ∀ (fuel : Nat) (rest : List Nat) (n i bias : Nat) (out : List Nat),
    rest.length ≤ fuel → bias ≤ 216 → i ≤ maxint → n < 0x110000 → out.length ≤ maxOut →
    decLoop phys maxOut fuel rest n i bias out ≠ .ub := by
  intro fuel
  induction fuel with
  | zero =>
    intro rest n i bias out hf _ _ _ _ h
    cases rest with
    | nil => simp [decLoop] at h
    | cons c rest => simp at hf
  | succ fuel ih =>
    intro rest n i bias out hf hb hi hn ho h
    cases rest with
    | nil => simp [decLoop] at h
    | cons c rest =>
      have hmx : maxint = 4294967295 := rfl
      unfold decLoop at h
      simp only at h
      rw [u32_of_le (show out.length + 1 ≤ maxint by omega)] at h
      generalize hv : decVarint bias (c :: rest) i 1 36 = v at h
      cases v with
      | err e => simp at h
      | ub => exact decVarint_ne_ub _ _ _ _ (by omega) (by omega) hv
      | ok v =>
        obtain ⟨i', rest'⟩ := v
        simp only at h
        obtain ⟨q, pre, e1, e2, e3, e4⟩ := decVarint_sound hb (c :: rest) i 1 0 i' rest' hv
          (by simp) (by omega) hi
        have had := adapt_eq (delta := sub32 i' i) (np := out.length + 1) (i == 0)
          (by unfold sub32; omega) (by omega)
        rw [had.1] at h
        simp only at h
        split at h
        · simp at h
        · split at h
          · simp at h
          · split at h
            · simp at h
            · have hlt : i' % (out.length + 1) < out.length + 1 := Nat.mod_lt _ (by omega)
              rw [if_pos (by omega)] at h
              refine ih _ _ _ _ _ ?_ had.2 ?_ ?_ ?_ h
              · have hl := congrArg List.length e1
                have : pre ≠ [] := by
                  intro hc; rw [hc] at e4; exact Punycode.digits_ne_nil _ _ _ e4.symm
                have := List.length_pos_iff.mpr this
                simp at hl hf; omega
              · rw [u32_of_le (by omega)]; omega
              · omega
              · rw [List.length_insertIdx_of_le_length (by omega)]; omega

theorem decScan_spec : ∀ (l : List Nat) (j b r : Nat), decScan l j b = some r →
    (∀ c ∈ l, decBasic c = true) ∧
    ((r = b ∧ ∀ c ∈ l, c ≠ 0x2D) ∨
      ∃ pre post, l = pre ++ 0x2D :: post ∧ r = j + pre.length ∧ ∀ c ∈ post, c ≠ 0x2D) := by
  intro l
  induction l with
  | nil => intro j b r h; simp [decScan] at h; simp [h]
  | cons c l ih =>
    intro j b r h
    simp only [decScan] at h
    split at h
    · next hc =>
      obtain ⟨h1, h2⟩ := ih _ _ _ h
      refine ⟨by intro y hy; rw [List.mem_cons] at hy; rcases hy with rfl | hy; exact hc; exact h1 y hy, ?_⟩
      rcases h2 with ⟨h2, h3⟩ | ⟨pre, post, h2, h3, h4⟩
      · by_cases hd : c = 0x2D
        · subst hd
          right; exact ⟨[], l, rfl, by simpa using h2, h3⟩
        · left
          rw [if_neg hd] at h2
          refine ⟨h2, ?_⟩
          intro y hy; rw [List.mem_cons] at hy; rcases hy with rfl | hy
          · exact hd
          · exact h3 y hy
      · right
        exact ⟨c :: pre, post, by simp [h2], by simp; omega, h4⟩
    · simp at h

theorem decScan_of_basic : ∀ (l : List Nat) (j b : Nat), (∀ c ∈ l, decBasic c = true) →
    ∃ r, decScan l j b = some r := by
  intro l
  induction l with
  | nil => intro j b _; exact ⟨b, rfl⟩
  | cons c l ih =>
    intro j b h
    simp only [decScan]
    rw [if_pos (h c (by simp))]
    exact ih _ _ (fun y hy => h y (by simp [hy]))

theorem last_delim_unique {a c a' c' : List Nat} (h : a ++ 0x2D :: c = a' ++ 0x2D :: c')
    (hc : ∀ x ∈ c, x ≠ 0x2D) (hc' : ∀ x ∈ c', x ≠ 0x2D) : a = a' ∧ c = c' := by
  induction a generalizing a' with
  | nil =>
    cases a' with
    | nil => simpa using h
    | cons y a' =>
      simp at h
      exact absurd rfl (hc 0x2D (by rw [h.2]; simp))
  | cons x a ih =>
    cases a' with
    | nil =>
      simp at h
      exact absurd rfl (hc' 0x2D (by rw [← h.2]; simp))
    | cons y a' =>
      simp at h
      have := ih h.2
      simp [h.1, this.1, this.2]

/-- Basic part followed by the delimiter, if there is a basic part. -/
def headOf (bs : List Nat) : List Nat := bs ++ (if bs = [] then [] else [0x2D])

theorem decBasic_lt {c : Nat} (h : decBasic c = true) : c < 0x80 := by
  unfold decBasic at h; simp at h; omega

theorem ins_length {b : Nat} : ∀ (xs : List (Nat × Nat)) (S : Punycode.St) (o : List Nat),
    S.h = o.length → Punycode.Chain b S xs →
    (xs.foldl Punycode.ins o).length = o.length + xs.length := by
  intro xs
  induction xs with
  | nil => intros; simp
  | cons x xs ih =>
    intro S o hl hc
    obtain ⟨c1, c2, c3⟩ := hc
    have h1 : (Punycode.ins o x).length = o.length + 1 :=
      List.length_insertIdx_of_le_length (by omega) _
    rw [List.foldl_cons, ih _ _ (by simp only [Punycode.next]; omega) c3, h1, List.length_cons]
    omega

theorem mem_ins {o : List Nat} {x : Nat × Nat} {y : Nat} (h : y ∈ Punycode.ins o x) :
    y = x.1 ∨ y ∈ o := by
  unfold Punycode.ins at h
  by_cases hl : x.2 ≤ o.length
  · exact (List.mem_insertIdx hl).mp h
  · rw [List.insertIdx_of_length_lt (by omega)] at h
    exact Or.inr h

theorem mem_foldl_ins : ∀ {xs : List (Nat × Nat)} {o : List Nat} {y : Nat},
    y ∈ xs.foldl Punycode.ins o → y ∈ o ∨ ∃ x ∈ xs, y = x.1 := by
  intro xs
  induction xs with
  | nil => intro o y h; exact Or.inl h
  | cons x xs ih =>
    intro o y h
    rw [List.foldl_cons] at h
    rcases ih h with h | ⟨z, hz, he⟩
    · rcases mem_ins h with h | h
      · exact Or.inr ⟨x, by simp, h⟩
      · exact Or.inl h
    · exact Or.inr ⟨z, by simp [hz], he⟩

/-- What a successful decode means. -/
structure Decoded (outLen : Nat) (s u : List Nat) (bs ds : List Nat) : Prop where
  split : s = headOf bs ++ ds
  basic : ∀ c ∈ s, decBasic c = true
  nodelim : ∀ c ∈ ds, c ≠ 0x2D
  ne : ds ≠ []
  basics : Punycode.basics u = bs
  codes : ds.map decode_digit =
    Punycode.codes (Punycode.basics u).length (Punycode.init (Punycode.basics u).length)
      (Punycode.insertions u)
  deltas : ∀ d ∈ Punycode.allDeltas u, d ≤ maxint
  encodable : Punycode.Encodable u
  nonascii : Punycode.insertions u ≠ []
  len : u.length = bs.length + (Punycode.insertions u).length
  cap : u.length ≤ outLen

theorem decLoop_decoded {phys maxOut : Nat} {bs ds u : List Nat} {fuel : Nat}
    (hmo : maxOut ≤ maxint - 1) (hbl : bs.length ≤ maxOut)
    (hbs : ∀ c ∈ bs, decBasic c = true) (hds : ∀ c ∈ ds, decBasic c = true)
    (hnd : ∀ c ∈ ds, c ≠ 0x2D) (hne : ds ≠ [])
    (h : decLoop phys maxOut fuel ds 0x80 0 72 bs = .ok u) :
    Decoded maxOut (headOf bs ++ ds) u bs ds := by
  have hmx : maxint = 4294967295 := rfl
  have hlt : ∀ x ∈ bs, x < 0x80 := fun x hx => decBasic_lt (hbs x hx)
  have hok := Punycode.Ok.init hlt
  have inv : DecInv bs.length (Punycode.init bs.length) 0x80 0 72 bs := by
    refine ⟨rfl, rfl, rfl, by simp [Punycode.init], hok, by simp [Punycode.init], by simp [Punycode.init], ?_⟩
    simp [Punycode.init]
  obtain ⟨xs, f1, f2, f3, f4, f5, f6⟩ := decLoop_sound fuel ds _ _ _ _ _ _ inv (by simp [Punycode.init])
    (by omega) hmo (by simp [Punycode.init]) h
  have hxs : xs ≠ [] := by
    intro hc; rw [hc] at f4; simp [Punycode.codes] at f4; exact hne f4
  obtain ⟨g1, g2⟩ := Punycode.insertions_foldl xs _ _ hok f1 (fun x hx => (f2 x hx).1)
  rw [← f3, Punycode.insertions_basic hlt, List.nil_append] at g1
  rw [← f3, Punycode.basics_basic hlt] at g2
  have hlen := ins_length xs _ bs rfl f1
  rw [← f3] at hlen
  refine ⟨rfl, ?_, hnd, hne, g2, ?_, ?_, ?_, ?_, ?_, f6 hxs⟩
  · intro c hc
    unfold headOf at hc
    simp only [List.mem_append] at hc
    rcases hc with (hc | hc) | hc
    · exact hbs c hc
    · split at hc
      · simp at hc
      · simp at hc; subst hc; decide
    · exact hds c hc
  · rw [g2, g1]; exact f4
  · unfold Punycode.allDeltas; rw [g2, g1]; exact f5
  · intro y hy
    rw [f3] at hy
    rcases mem_foldl_ins hy with hy | ⟨x, hx, rfl⟩
    · have := hlt y hy; omega
    · have := f2 x hx; omega
  · rw [g1]; exact hxs
  · rw [g1]; exact hlen

theorem punycode_decode_sound {phys outLen : Nat} {s u : List Nat} (hcap : outLen < maxint)
    (h : punycode_decode phys outLen s = .ok u) :
    ∃ bs ds, Decoded outLen s u bs ds := by
  unfold punycode_decode at h
  split at h
  · simp at h
  · next hne0 =>
    split at h
    · simp at h
    · next b hb =>
      simp only at h
      rw [show (if outLen > maxint then maxint else outLen) = outLen from if_neg (by omega)] at h
      obtain ⟨s1, s2⟩ := decScan_spec _ _ _ _ hb
      rcases s2 with ⟨rfl, s3⟩ | ⟨pre, post, s3, s4, s5⟩
      · -- no delimiter
        have hn : ¬ s[0]? = some 0x2D := by
          intro hc
          exact s3 0x2D (List.mem_of_getElem? hc) rfl
        rw [if_neg hn] at h
        simp only [List.drop_zero] at h
        refine ⟨[], s, ?_⟩
        have := decLoop_decoded (by omega) (by simp) (by simp) s1 s3
          (by intro hc; rw [hc] at hne0; simp at hne0) h
        simpa [headOf] using this
      · simp at s4
        have hget : s[b]? = some 0x2D := by rw [s3, s4]; simp
        rw [if_pos hget] at h
        split at h
        · simp at h
        · next hb0 =>
          split at h
          · simp at h
          · next hbo =>
            split at h
            · have ht : s.take b = pre := by rw [s3, s4]; simp
              have hd : s.drop (b + 1) = post := by rw [s3, s4]; simp
              rw [ht, hd] at h
              have hpre : pre ≠ [] := by
                intro hc; rw [hc] at s4; simp at s4; omega
              have hpost : post ≠ [] := by
                intro hc; rw [s3, hc, s4] at hb0; simp at hb0
              have hs : s = headOf pre ++ post := by
                rw [s3]; simp [headOf, hpre]
              have := decLoop_decoded (by omega) (by omega)
                (fun c hc => s1 c (by rw [s3]; simp [hc]))
                (fun c hc => s1 c (by rw [s3]; simp [hc])) s5 hpost h
              rw [← hs] at this
              exact ⟨pre, post, this⟩
            · simp at h

theorem insertions_mem {u : List Nat} {x : Nat × Nat} (h : x ∈ Punycode.insertions u) : x.1 ∈ u := by
  unfold Punycode.insertions Punycode.insertionsFrom at h
  rw [List.mem_flatMap] at h
  obtain ⟨m, _, hm⟩ := h
  have : ∀ (v : List Nat) (seen : Nat), x ∈ Punycode.insertionsAt m seen v → x.1 ∈ v := by
    intro v
    induction v with
    | nil => intro seen h; simp [Punycode.insertionsAt] at h
    | cons y v ih =>
      intro seen h
      simp only [Punycode.insertionsAt] at h
      repeat' split at h
      · next hy =>
        rw [List.mem_cons] at h
        rcases h with h | h
        · rw [h]; simp [hy]
        · exact List.mem_cons_of_mem _ (ih _ h)
      · exact List.mem_cons_of_mem _ (ih _ h)
      · exact List.mem_cons_of_mem _ (ih _ h)
  exact this u 0 hm

/-- The decoder accepts every spelling of the encoding of a label that is not too long. -/
theorem punycode_decode_complete {phys outLen : Nat} {u ds : List Nat} (hp : outLen ≤ phys)
    (henc : Punycode.Encodable u) (hb : ∀ c ∈ Punycode.basics u, decBasic c = true)
    (hna : Punycode.insertions u ≠ []) (hlen : 0x110000 * u.length ≤ maxint)
    (hcap : u.length ≤ outLen)
    (hds : ∀ c ∈ ds, decBasic c = true) (hnd : ∀ c ∈ ds, c ≠ 0x2D)
    (hcodes : ds.map decode_digit =
      Punycode.codes (Punycode.basics u).length (Punycode.init (Punycode.basics u).length)
        (Punycode.insertions u)) :
    punycode_decode phys outLen (headOf (Punycode.basics u) ++ ds) = .ok u := by
  have hmx : maxint = 4294967295 := rfl
  have hu : ∀ x ∈ u, x < 0x110000 := fun x hx => by have := (henc x hx).1; omega
  have hfold := Punycode.foldl_insertions hu
  have hchain := Punycode.chain_insertions u
  have hlt : ∀ x ∈ Punycode.basics u, x < 0x80 := fun x hx => decBasic_lt (hb x hx)
  have hlu := ins_length (Punycode.insertions u) (Punycode.init (Punycode.basics u).length)
    (Punycode.basics u) rfl hchain
  rw [hfold] at hlu
  have hne : ds ≠ [] := by
    intro hc
    rw [hc] at hcodes
    have := codes_length_ge (b := (Punycode.basics u).length) (Punycode.insertions u)
      (Punycode.init (Punycode.basics u).length)
    rw [← hcodes] at this
    simp at this
    exact hna this
  have hpos := List.length_pos_iff.mpr hna
  generalize hmo : (if outLen > maxint then maxint else outLen) = maxOut
  have hmo1 : u.length ≤ maxOut := by split at hmo <;> omega
  have hmo2 : maxOut ≤ outLen := by split at hmo <;> omega
  have inv : DecInv (Punycode.basics u).length (Punycode.init (Punycode.basics u).length) 0x80 0 72
      (Punycode.basics u) := by
    refine ⟨rfl, rfl, rfl, by simp [Punycode.init], Punycode.Ok.init hlt, by simp [Punycode.init],
      by simp [Punycode.init], ?_⟩
    simp [Punycode.init]
  have hloop : ∀ fuel, ds.length ≤ fuel →
      decLoop phys maxOut fuel ds 0x80 0 72 (Punycode.basics u) = .ok u := by
    intro fuel hf
    have := decLoop_complete (phys := phys) (maxOut := maxOut) (by omega) (Punycode.insertions u) fuel
      ds _ _ _ _ _ inv (by simp [Punycode.init]) (by omega) hf hchain
      (fun x hx => by have := henc x.1 (insertions_mem hx); omega) hcodes (by omega)
      (by rw [← hlu]; exact hlen)
    rw [this, hfold]
  generalize hs : headOf (Punycode.basics u) ++ ds = s
  have hsb : ∀ c ∈ s, decBasic c = true := by
    intro c hc
    rw [← hs] at hc
    unfold headOf at hc
    simp only [List.mem_append] at hc
    rcases hc with (hc | hc) | hc
    · exact hb c hc
    · split at hc
      · simp at hc
      · simp at hc; subst hc; decide
    · exact hds c hc
  have hsl : s.length ≠ 0 ∧ ds.length ≤ s.length := by
    have := List.length_pos_iff.mpr hne
    rw [← hs, List.length_append]; omega
  obtain ⟨r, hr⟩ := decScan_of_basic s 0 0 hsb
  unfold punycode_decode
  rw [if_neg hsl.1, hr]
  simp only [hmo]
  obtain ⟨_, s2⟩ := decScan_spec _ _ _ _ hr
  by_cases hbe : Punycode.basics u = []
  · have hsd : s = ds := by rw [← hs, hbe]; simp [headOf]
    rcases s2 with ⟨rfl, s3⟩ | ⟨pre, post, s3, s4, s5⟩
    · have hn : ¬ s[0]? = some 0x2D := by
        intro hc
        exact s3 0x2D (List.mem_of_getElem? hc) rfl
      rw [if_neg hn]
      have := hloop s.length hsl.2
      rw [hbe, ← hsd] at this
      simpa using this
    · exfalso
      exact hnd 0x2D (by rw [← hsd, s3]; simp) rfl
  · have hsd : s = Punycode.basics u ++ 0x2D :: ds := by rw [← hs]; simp [headOf, hbe]
    rcases s2 with ⟨rfl, s3⟩ | ⟨pre, post, s3, s4, s5⟩
    · exfalso; exact s3 0x2D (by rw [hsd]; simp) rfl
    · obtain ⟨rfl, rfl⟩ := last_delim_unique (hsd.symm.trans s3) hnd s5
      simp only [Nat.zero_add] at s4
      have hget : s[r]? = some 0x2D := by rw [hsd, s4]; simp
      have hbpos := List.length_pos_iff.mpr hbe
      have hdpos := List.length_pos_iff.mpr hne
      have hsle : s.length = (Punycode.basics u).length + (ds.length + 1) := by rw [hsd]; simp
      rw [if_pos hget, if_neg (by omega), if_neg (by omega), if_pos (by omega)]
      have ht : s.take r = Punycode.basics u := by rw [hsd, s4]; simp
      have hd : s.drop (r + 1) = ds := by rw [hsd, s4]; simp
      rw [ht, hd]
      exact hloop s.length hsl.2

theorem punycode_decode_ne_ub {phys outLen : Nat} (s : List Nat) (hp : outLen ≤ phys)
    (hcap : outLen < maxint) : punycode_decode phys outLen s ≠ .ub := by
  intro h
  unfold punycode_decode at h
  split at h
  · simp at h
  · split at h
    · simp at h
    · next b hb =>
      simp only at h
      rw [show (if outLen > maxint then maxint else outLen) = outLen from if_neg (by omega)] at h
      split at h
      · split at h
        · simp at h
        · split at h
          · simp at h
          · next hbo =>
            rw [if_pos (by omega)] at h
            exact decLoop_ne_ub hp (by omega) _ _ _ _ _ _ (by simp) (by omega) (by omega)
              (by omega) (by simp; omega) h
      · exact decLoop_ne_ub hp (by omega) _ _ _ _ _ _ (by simp) (by omega) (by omega)
              (by omega) (by simp) h

end Idn2
