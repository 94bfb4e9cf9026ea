import Verif.Model.Utf8

/-
Facts about the UTF-8 conversions.
-/

namespace Idn2

theorem contByte_eq {b x : Nat} : contByte b = some x ↔ 0x80 ≤ b ∧ b ≤ 0xBF ∧ x = b - 0x80 := by
  unfold contByte
  split
  · simp; omega
  · simp; omega

theorem mbtouc_uctomb {c : Nat} {bs r : List Nat} (h : u8_uctomb c = some bs) :
    u8_mbtouc (bs ++ r) = some (c, bs.length) ∧ bs ≠ [] ∧
      (∀ b ∈ bs, b < 256 ∧ (c < 0x80 → b = c) ∧ (0x80 ≤ c → 0x80 ≤ b)) := by
  unfold u8_uctomb at h
  repeat' split at h
  · injection h with h; subst h
    simp only [List.cons_append, List.nil_append, u8_mbtouc]
    refine ⟨by rw [if_pos (by assumption)]; rfl, by simp, ?_⟩
    simp; omega
  · injection h with h; subst h
    simp only [List.cons_append, List.nil_append, u8_mbtouc]
    rw [if_neg (by omega), if_neg (by omega), if_pos (by omega),
      show contByte (0x80 + c % 64) = some (c % 64) from contByte_eq.mpr (by omega)]
    refine ⟨?_, by simp, ?_⟩
    · simp; omega
    · simp; omega
  · injection h with h; subst h
    simp only [List.cons_append, List.nil_append, u8_mbtouc]
    rw [if_neg (by omega), if_neg (by omega), if_neg (by omega), if_pos (by omega),
      show contByte (0x80 + c / 64 % 64) = some (c / 64 % 64) from contByte_eq.mpr (by omega),
      show contByte (0x80 + c % 64) = some (c % 64) from contByte_eq.mpr (by omega)]
    refine ⟨?_, by simp, ?_⟩
    · simp only [Option.bind_eq_bind, Option.bind_some]
      rw [if_neg (by omega), if_neg (by omega)]
      simp; omega
    · simp; omega
  · simp at h
  · injection h with h; subst h
    simp only [List.cons_append, List.nil_append, u8_mbtouc]
    rw [if_neg (by omega), if_neg (by omega), if_neg (by omega), if_neg (by omega),
      if_pos (by omega),
      show contByte (0x80 + c / 4096 % 64) = some (c / 4096 % 64) from contByte_eq.mpr (by omega),
      show contByte (0x80 + c / 64 % 64) = some (c / 64 % 64) from contByte_eq.mpr (by omega),
      show contByte (0x80 + c % 64) = some (c % 64) from contByte_eq.mpr (by omega)]
    refine ⟨?_, by simp, ?_⟩
    · simp only [Option.bind_eq_bind, Option.bind_some]
      rw [if_neg (by omega), if_neg (by omega)]
      simp; omega
    · simp; omega
  · simp at h

theorem mbtouc_sound {s : List Nat} {c n : Nat} (h : u8_mbtouc s = some (c, n)) :
    ∃ bs r, s = bs ++ r ∧ u8_uctomb c = some bs ∧ n = bs.length := by
  unfold u8_mbtouc at h
  cases s with
  | nil => simp at h
  | cons b r =>
    simp only at h
    split at h
    · simp at h
      refine ⟨[b], r, rfl, ?_, h.2.symm⟩
      unfold u8_uctomb
      rw [if_pos (by omega), h.1]
    · split at h
      · simp at h
      · split at h
        · cases r with
          | nil => simp at h
          | cons b1 r =>
            simp only [Option.bind_eq_bind, Option.bind_eq_some_iff] at h
            obtain ⟨x1, h1, h⟩ := h
            rw [contByte_eq] at h1
            simp at h
            refine ⟨[b, b1], r, rfl, ?_, h.2.symm⟩
            unfold u8_uctomb
            rw [if_neg (by omega), if_pos (by omega)]
            simp; omega
        · split at h
          · match r with
            | [] => simp at h
            | [_] => simp at h
            | b1 :: b2 :: r =>
              simp only [Option.bind_eq_bind, Option.bind_eq_some_iff] at h
              obtain ⟨x1, h1, x2, h2, h⟩ := h
              rw [contByte_eq] at h1 h2
              repeat' split at h
              · simp at h
              · simp at h
              · simp at h
                refine ⟨[b, b1, b2], r, rfl, ?_, h.2.symm⟩
                unfold u8_uctomb
                rw [if_neg (by omega), if_neg (by omega), if_pos (by omega), if_pos (by omega)]
                simp; omega
          · split at h
            · match r with
              | [] => simp at h
              | [_] => simp at h
              | [_, _] => simp at h
              | b1 :: b2 :: b3 :: r =>
                simp only [Option.bind_eq_bind, Option.bind_eq_some_iff] at h
                obtain ⟨x1, h1, x2, h2, x3, h3, h⟩ := h
                rw [contByte_eq] at h1 h2 h3
                repeat' split at h
                · simp at h
                · simp at h
                · simp at h
                  refine ⟨[b, b1, b2, b3], r, rfl, ?_, h.2.symm⟩
                  unfold u8_uctomb
                  rw [if_neg (by omega), if_neg (by omega), if_neg (by omega), if_pos (by omega)]
                  simp; omega
            · simp at h

theorem u8DecodeAux_skip (bs r : List Nat) : u8DecodeAux bs.length (bs ++ r) = u8DecodeAux 0 r := by
  induction bs with
  | nil => rfl
  | cons b bs ih => simp only [List.length_cons, List.cons_append, u8DecodeAux]; exact ih

@[simp] theorem u8Decode_nil : u8Decode [] = some [] := rfl

theorem u8Decode_cons {c : Nat} {bs r : List Nat} (h : u8_uctomb c = some bs) :
    u8Decode (bs ++ r) = (u8Decode r).map (c :: ·) := by
  obtain ⟨h1, h2, _⟩ := mbtouc_uctomb (r := r) h
  cases bs with
  | nil => exact absurd rfl h2
  | cons b bs =>
    unfold u8Decode
    simp only [List.cons_append] at h1 ⊢
    rw [u8DecodeAux, h1]
    simp only [List.length_cons, Nat.add_sub_cancel]
    rw [u8DecodeAux_skip]

/-- Decoding inverts encoding. -/
theorem u8Decode_encode {u s : List Nat} (h : u8Encode u = some s) : u8Decode s = some u := by
  induction u generalizing s with
  | nil => simp [u8Encode] at h; subst h; rfl
  | cons c u ih =>
    unfold u8Encode at h
    cases hc : u8_uctomb c with
    | none => simp [hc] at h
    | some bs =>
      simp only [hc, Option.map_eq_some_iff] at h
      obtain ⟨t, ht, rfl⟩ := h
      rw [u8Decode_cons hc, ih ht]; rfl

/-- Encoding inverts decoding: accepted UTF-8 is canonical. -/
theorem u8Encode_decode {s u : List Nat} (h : u8Decode s = some u) : u8Encode u = some s := by
  induction u generalizing s with
  | nil =>
    cases s with
    | nil => rfl
    | cons b r =>
      unfold u8Decode u8DecodeAux at h
      split at h
      · simp at h
      · simp at h
  | cons c u ih =>
    cases s with
    | nil => simp at h
    | cons b r =>
      have h0 := h
      unfold u8Decode u8DecodeAux at h
      cases hm : u8_mbtouc (b :: r) with
      | none => simp [hm] at h
      | some p =>
        obtain ⟨c', n⟩ := p
        obtain ⟨bs, r', hs, hu, hn⟩ := mbtouc_sound hm
        rw [hs, u8Decode_cons hu, Option.map_eq_some_iff] at h0
        obtain ⟨u', hu', he⟩ := h0
        injection he with he1 he2
        subst he1 he2
        unfold u8Encode
        rw [hu, ih hu', hs]; rfl

theorem u8Decode_iff {s u : List Nat} : u8Decode s = some u ↔ u8Encode u = some s :=
  ⟨u8Encode_decode, u8Decode_encode⟩

theorem u8Encode_append (u v : List Nat) :
    u8Encode (u ++ v) = (u8Encode u).bind fun a => (u8Encode v).map (a ++ ·) := by
  induction u with
  | nil => simp [u8Encode]
  | cons c u ih =>
    simp only [List.cons_append, u8Encode]
    cases u8_uctomb c with
    | none => rfl
    | some bs =>
      simp only [ih]
      cases u8Encode u <;> cases u8Encode v <;> simp

theorem u8Encode_ascii {u : List Nat} (h : ∀ c ∈ u, c < 0x80) : u8Encode u = some u := by
  induction u with
  | nil => rfl
  | cons c u ih =>
    have hc := h c (by simp)
    simp only [u8Encode, u8_uctomb, if_pos hc, ih (fun x hx => h x (by simp [hx]))]
    rfl

theorem u8Decode_ascii {u : List Nat} (h : ∀ c ∈ u, c < 0x80) : u8Decode u = some u :=
  u8Decode_encode (u8Encode_ascii h)

/-- Which code points can be encoded. -/
theorem u8_uctomb_isSome {c : Nat} :
    (u8_uctomb c).isSome = true ↔ c < 0xD800 ∨ (0xE000 ≤ c ∧ c < 0x110000) := by
  unfold u8_uctomb
  repeat' split
  all_goals simp
  all_goals omega

theorem u8Encode_isSome {u : List Nat} :
    (u8Encode u).isSome = true ↔ ∀ c ∈ u, c < 0xD800 ∨ (0xE000 ≤ c ∧ c < 0x110000) := by
  induction u with
  | nil => simp [u8Encode]
  | cons c u ih =>
    simp only [u8Encode, List.mem_cons, forall_eq_or_imp]
    rw [← u8_uctomb_isSome]
    cases h : u8_uctomb c with
    | none => simp
    | some bs => simp only [Option.isSome_map, ih, Option.isSome_some, true_and]

theorem u8Decode_scalar {s u : List Nat} (h : u8Decode s = some u) :
    ∀ c ∈ u, c < 0xD800 ∨ (0xE000 ≤ c ∧ c < 0x110000) := by
  rw [← u8Encode_isSome, u8Encode_decode h]; rfl

/-- An ASCII byte occurs in the encoding iff it occurs in the text. -/
theorem mem_u8Encode_ascii {u s : List Nat} (h : u8Encode u = some s) {b : Nat} (hb : b < 0x80) :
    b ∈ s ↔ b ∈ u := by
  induction u generalizing s with
  | nil => simp [u8Encode] at h; subst h; simp
  | cons c u ih =>
    unfold u8Encode at h
    cases hc : u8_uctomb c with
    | none => simp [hc] at h
    | some bs =>
      simp only [hc, Option.map_eq_some_iff] at h
      obtain ⟨t, ht, rfl⟩ := h
      obtain ⟨_, h2, h3⟩ := mbtouc_uctomb (r := []) hc
      rw [List.mem_append, ih ht, List.mem_cons]
      constructor
      · rintro (h | h)
        · by_cases hlt : c < 0x80
          · exact Or.inl ((h3 b h).2.1 hlt)
          · have := (h3 b h).2.2 (by omega); omega
        · exact Or.inr h
      · rintro (h | h)
        · left
          subst h
          cases bs with
          | nil => exact absurd rfl h2
          | cons x bs => rw [(h3 x (by simp)).2.1 hb]; simp
        · exact Or.inr h

theorem u8Encode_bytes {u s : List Nat} (h : u8Encode u = some s) : ∀ b ∈ s, b < 256 := by
  induction u generalizing s with
  | nil => simp [u8Encode] at h; subst h; simp
  | cons c u ih =>
    unfold u8Encode at h
    cases hc : u8_uctomb c with
    | none => simp [hc] at h
    | some bs =>
      simp only [hc, Option.map_eq_some_iff] at h
      obtain ⟨t, ht, rfl⟩ := h
      obtain ⟨_, _, h3⟩ := mbtouc_uctomb (r := []) hc
      intro b hb
      rw [List.mem_append] at hb
      rcases hb with hb | hb
      · exact (h3 b hb).1
      · exact ih ht b hb

/-- The encoding is ASCII iff the text is. -/
theorem u8Encode_all_ascii {u s : List Nat} (h : u8Encode u = some s) :
    (∀ b ∈ s, b < 0x80) ↔ (∀ c ∈ u, c < 0x80) := by
  constructor
  · intro hs
    have := u8Decode_ascii hs
    rw [u8Decode_encode h] at this
    injection this with this
    rw [this]; exact hs
  · intro hu
    rw [u8Encode_ascii hu] at h
    injection h with h
    rw [← h]; exact hu

theorem u8_uctomb_length {c : Nat} {bs : List Nat} (h : u8_uctomb c = some bs) :
    1 ≤ bs.length ∧ bs.length ≤ 4 := by
  unfold u8_uctomb at h
  repeat' split at h
  all_goals first
    | (injection h with h; subst h; simp)
    | simp at h

theorem u8Encode_length {u s : List Nat} (h : u8Encode u = some s) :
    u.length ≤ s.length ∧ s.length ≤ 4 * u.length := by
  induction u generalizing s with
  | nil => simp [u8Encode] at h; subst h; simp
  | cons c u ih =>
    unfold u8Encode at h
    cases hc : u8_uctomb c with
    | none => simp [hc] at h
    | some bs =>
      simp only [hc, Option.map_eq_some_iff] at h
      obtain ⟨t, ht, rfl⟩ := h
      have := u8_uctomb_length hc
      have := ih ht
      simp only [List.length_append, List.length_cons]; omega

/-- Splitting encoded text at an ASCII byte splits the text. -/
theorem u8Decode_append_ascii {a b : List Nat} {d : Nat} (hd : d < 0x80) (ha : d ∉ a) :
    u8Decode (a ++ d :: b) =
      (u8Decode a).bind fun x => (u8Decode b).map fun y => x ++ d :: y := by
  cases hda : u8Decode a with
  | some x =>
    have hx := u8Encode_decode hda
    cases hdb : u8Decode b with
    | some y =>
      have hy := u8Encode_decode hdb
      simp only [Option.bind_some, Option.map_some]
      apply u8Decode_encode
      rw [u8Encode_append, hx]
      simp only [u8Encode, u8_uctomb, if_pos hd, hy, Option.map_some, Option.bind_some]
      rfl
    | none =>
      simp only [Option.bind_some, Option.map_none]
      cases h : u8Decode (a ++ d :: b) with
      | none => rfl
      | some z =>
        exfalso
        have hz := u8Encode_decode h
        -- decode prefix first
        have : ∀ (x a : List Nat), u8Encode x = some a →
            u8Decode (a ++ d :: b) = (u8Decode (d :: b)).map (x ++ ·) := by
          intro x
          induction x with
          | nil => intro a h; simp [u8Encode] at h; subst h; simp
          | cons c x ih =>
            intro a h
            unfold u8Encode at h
            cases hc : u8_uctomb c with
            | none => simp [hc] at h
            | some bs =>
              simp only [hc, Option.map_eq_some_iff] at h
              obtain ⟨t, ht, rfl⟩ := h
              rw [List.append_assoc, u8Decode_cons hc, ih t ht, Option.map_map]
              rfl
        rw [this x a hx, show d :: b = [d] ++ b from rfl,
          u8Decode_cons (show u8_uctomb d = some [d] by unfold u8_uctomb; rw [if_pos hd]), hdb] at h
        simp at h
  | none =>
    simp only [Option.bind_none]
    cases h : u8Decode (a ++ d :: b) with
    | none => rfl
    | some z =>
      exfalso
      have hz := u8Encode_decode h
      clear h
      induction z generalizing a with
      | nil => simp [u8Encode] at hz
      | cons c z ih =>
        unfold u8Encode at hz
        cases hc : u8_uctomb c with
        | none => simp [hc] at hz
        | some bs =>
          simp only [hc, Option.map_eq_some_iff] at hz
          obtain ⟨t, ht, heq⟩ := hz
          obtain ⟨_, hne, h3⟩ := mbtouc_uctomb (r := []) hc
          rcases List.append_eq_append_iff.mp heq with ⟨a', h1, h2⟩ | ⟨c', h1, h2⟩
          · -- a = bs ++ a'
            subst h1
            have hd' : u8Decode a' = none := by
              cases hh : u8Decode a' with
              | none => rfl
              | some y => rw [u8Decode_cons hc, hh] at hda; simp at hda
            exact ih (fun h => ha (by simp [h])) hd' (by rw [ht, h2])
          · -- bs = a ++ c'
            cases c' with
            | nil =>
              simp at h1 h2
              subst h1
              have := u8Decode_cons (r := []) hc
              simp at this
              rw [this] at hda; simp at hda
            | cons y c' =>
              simp only [List.cons_append, List.cons.injEq] at h2
              obtain ⟨rfl, _⟩ := h2
              have hm : d ∈ bs := by rw [h1]; simp
              by_cases hlt : c < 0x80
              · have hbs : bs = [c] := by
                  have : u8_uctomb c = some [c] := by unfold u8_uctomb; rw [if_pos hlt]
                  rw [this] at hc; injection hc with hc; exact hc.symm
                have hac : a = [] := by
                  rw [hbs] at h1
                  cases a with
                  | nil => rfl
                  | cons _ a => simp at h1
                subst hac; simp at hda
              · have := (h3 d hm).2.2 (by omega); omega

end Idn2
