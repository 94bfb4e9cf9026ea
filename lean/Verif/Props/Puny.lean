import Verif.Proof.PunyDecLong
import Verif.Spec.Ascii

/-
Properties C01-C05: the Punycode coders.

`phys` is the size of the caller's output array, `cap` the value of `*output_length` on
entry.  The callers pass `cap ≤ phys`.
-/

namespace Idn2
open Spec

theorem decBasic_iff (c : Nat) : decBasic c = true ↔ isLDHU c := by
  unfold decBasic isLDHU; simp; omega

theorem encode_eq_head (u : List Nat) :
    Punycode.encode u = headOf (Punycode.basics u) ++
      (Punycode.codes (Punycode.basics u).length (Punycode.init (Punycode.basics u).length)
        (Punycode.insertions u)).map Punycode.digitChar := rfl

/-- C01.  Decoding what the encoder produced gives the original code points back.  The
only other outcome, for labels of more than 3855 code points, is a reported overflow. -/
theorem C01_punycode_roundtrip {physE capE physD capD : Nat} {u s : List Nat}
    (hE : capE ≤ physE) (hE64 : capE < 18446744073709551616)
    (hD : capD ≤ physD) (hD32 : capD < 4294967295)
    (hcap : u.length ≤ capD)
    (hascii : ∀ c ∈ u, c < 0x80 → isLDHU c)
    (hna : ∃ c ∈ u, 0x80 ≤ c)
    (h : punycode_encode physE capE u = .ok s) :
    punycode_decode physD capD s = .ok u ∨
      (3855 < u.length ∧ punycode_decode physD capD s = .err .punycodeOverflow) := by
  rcases punycode_encode_spec (u := u) hE hE64 with ⟨h1, h2, h3, h4, h5⟩ | ⟨e, h1, _⟩
  · rw [h1] at h
    injection h with h
    subst h
    have hb : ∀ c ∈ Punycode.basics u, decBasic c = true := by
      intro c hc
      unfold Punycode.basics at hc
      simp at hc
      exact (decBasic_iff c).mpr (hascii c hc.1 hc.2)
    have hlt : ∀ x ∈ u, x < 0x110000 := fun x hx => by have := (h3 x hx).1; omega
    have hcl := codes_lt (b := (Punycode.basics u).length) (Punycode.insertions u)
      (Punycode.init (Punycode.basics u).length)
    have hins := insertions_ne_nil hlt hna
    rw [encode_eq_head]
    have hds : ∀ c ∈ (Punycode.codes (Punycode.basics u).length
        (Punycode.init (Punycode.basics u).length) (Punycode.insertions u)).map Punycode.digitChar,
        decBasic c = true ∧ c ≠ 0x2D := by
      intro c hc
      rw [List.mem_map] at hc
      obtain ⟨d, hd, rfl⟩ := hc
      exact digitChar_basic (hcl d hd)
    by_cases hl : u.length ≤ 3855
    · left
      exact punycode_decode_complete hD h3 hb hins (by rw [maxint_def]; omega) hcap
        (fun c hc => (hds c hc).1) (fun c hc => (hds c hc).2) (map_decode_digitChar hcl)
    · rcases punycode_decode_or (ds := (Punycode.codes (Punycode.basics u).length
        (Punycode.init (Punycode.basics u).length) (Punycode.insertions u)).map Punycode.digitChar)
        hD (by rw [maxint_def]; omega) h3 hb hins hcap
        (fun c hc => (hds c hc).1) (fun c hc => (hds c hc).2) (map_decode_digitChar hcl) with h | h
      · exact Or.inl h
      · exact Or.inr ⟨by omega, h⟩
  · rw [h1] at h; simp at h

/-- Non-vacuity of C01: `bücher` (with a repeated letter) and a label with a supplementary
code point. -/
example : punycode_encode 64 59 [0x62, 0xFC, 0x63, 0x68, 0x65, 0x72] =
    .ok [0x62, 0x63, 0x68, 0x65, 0x72, 0x2D, 0x6B, 0x76, 0x61] := by decide +kernel
example : (punycode_encode 64 59 [0x1F600, 0xFC, 0x1F600]).isOk = true := by decide +kernel
example : punycode_decode 63 63 [0x62, 0x63, 0x68, 0x65, 0x72, 0x2D, 0x6B, 0x76, 0x61] =
    .ok [0x62, 0xFC, 0x63, 0x68, 0x65, 0x72] := by decide +kernel

theorem canonChar_eq {c : Nat} (h : decBasic c = true) (hd : c ≠ 0x2D) :
    canonChar c = Punycode.digitChar (decode_digit c) := by
  rw [decBasic_iff] at h
  unfold isLDHU at h
  unfold canonChar Punycode.digitChar decode_digit
  rcases h with h | h | h | h | h
  · rw [if_neg (by omega), if_neg (by omega), if_pos h, if_pos (by omega)]; omega
  · rw [if_neg (by omega), if_neg (by omega), if_neg (show ¬ (0x61 ≤ c ∧ c ≤ 0x7A) by omega),
      if_pos h, if_neg (by omega)]; omega
  · rw [if_pos h, if_neg (show ¬ (0x61 ≤ c ∧ c ≤ 0x7A) by omega),
      if_neg (show ¬ (0x30 ≤ c ∧ c ≤ 0x39) by omega), if_pos h, if_pos (by omega)]; omega
  · exact absurd h hd
  · subst h; decide

theorem canonPuny_noDelim {ds : List Nat} (h : ∀ c ∈ ds, c ≠ 0x2D) :
    canonPuny ds = ds.map canonChar := by
  cases ds with
  | nil => rfl
  | cons c r =>
    unfold canonPuny
    rw [if_neg]
    intro hc
    exact h _ hc rfl

theorem canonPuny_head {bs ds : List Nat} (h : ∀ c ∈ ds, c ≠ 0x2D) :
    canonPuny (headOf bs ++ ds) = headOf bs ++ ds.map canonChar := by
  by_cases hb : bs = []
  · subst hb; simp [headOf, canonPuny_noDelim h]
  · simp only [headOf, if_neg hb]
    clear hb
    induction bs with
    | nil => simp [canonPuny, canonPuny_noDelim h]
    | cons c bs ih =>
      simp only [List.cons_append]
      unfold canonPuny
      rw [if_pos (by simp), ih]

/-- C02.  Encoding what the decoder produced gives the input back in canonical form
(digits lower-cased, `_` read as digit zero); no capacity beyond the input length is
needed. -/
theorem C02_punycode_decode_encode {physE capE physD capD : Nat} {u s : List Nat}
    (hE : capE ≤ physE) (hE64 : capE < 18446744073709551616) (hcap : s.length ≤ capE)
    (hD32 : capD < 4294967295)
    (h : punycode_decode physD capD s = .ok u) :
    punycode_encode physE capE u = .ok (canonPuny s) := by
  obtain ⟨bs, ds, d⟩ := punycode_decode_sound hD32 h
  have he : Punycode.encode u = canonPuny s := by
    rw [encode_eq_head, d.basics, ← d.basics, ← d.codes, List.map_map, d.basics, d.split,
      canonPuny_head d.nodelim]
    congr 1
    apply List.map_congr_left
    intro c hc
    exact (canonChar_eq (d.basic c (by rw [d.split]; simp [hc])) (d.nodelim c hc)).symm
  have hlen : (canonPuny s).length = s.length := by
    rw [d.split, canonPuny_head d.nodelim]; simp
  rcases punycode_encode_spec (u := u) hE hE64 with ⟨h1, _⟩ | ⟨e, h1, h2⟩
  · rw [h1, he]
  · exfalso
    apply h2
    refine ⟨?_, d.encodable, d.deltas, by rw [he, hlen]; exact hcap⟩
    have := d.cap
    rw [maxint_def]; omega

/-- C02, injectivity: two strings that decode to the same label have the same canonical
form. -/
theorem C02_decode_injective {p1 c1 p2 c2 : Nat} {u s1 s2 : List Nat}
    (h1c : c1 < 4294967295) (h2c : c2 < 4294967295)
    (hl1 : s1.length < 18446744073709551616) (hl2 : s2.length < 18446744073709551616)
    (h1 : punycode_decode p1 c1 s1 = .ok u) (h2 : punycode_decode p2 c2 s2 = .ok u) :
    canonPuny s1 = canonPuny s2 := by
  have e1 := C02_punycode_decode_encode (physE := max s1.length s2.length)
    (capE := max s1.length s2.length) (Nat.le_refl _) (by omega) (by omega) h1c h1
  have e2 := C02_punycode_decode_encode (physE := max s1.length s2.length)
    (capE := max s1.length s2.length) (Nat.le_refl _) (by omega) (by omega) h2c h2
  rw [e1] at e2
  injection e2

/-- Non-vacuity of C02, including the two aliases: upper-case digits and `_`. -/
example : punycode_decode 63 63 [0x62, 0x2D, 0x54, 0x64, 0x5F] = .ok [0xBE, 0x62] ∧
    canonPuny [0x62, 0x2D, 0x54, 0x64, 0x5F] = [0x62, 0x2D, 0x74, 0x64, 0x61] := by decide +kernel

/-- The alias is real: `td_` and `tda` decode to the same label. -/
theorem C02_underscore_alias :
    punycode_decode 63 63 [0x74, 0x64, 0x5F] = punycode_decode 63 63 [0x74, 0x64, 0x61] ∧
    punycode_decode 63 63 [0x74, 0x64, 0x61] = .ok [0xFC] := by decide +kernel

/-- C03.  No undefined behaviour (array overrun, division by zero, non-termination) in the
encoder. -/
theorem C03_encode_safe {phys cap : Nat} (u : List Nat) (hp : cap ≤ phys)
    (h64 : cap < 18446744073709551616) : punycode_encode phys cap u ≠ .ub := by
  rcases punycode_encode_spec (u := u) hp h64 with ⟨h1, _⟩ | ⟨e, h1, _⟩ <;> rw [h1] <;> simp

/-- C03.  No undefined behaviour in the decoder. -/
theorem C03_decode_safe {phys cap : Nat} (s : List Nat) (hp : cap ≤ phys)
    (h32 : cap < 4294967295) : punycode_decode phys cap s ≠ .ub :=
  punycode_decode_ne_ub s hp h32

/-- The model can tell: announcing more room than there is overruns the array. -/
example : punycode_encode 2 63 [0xFC] = .ub ∧ punycode_decode 0 63 [0x74, 0x64, 0x61] = .ub := by
  decide +kernel

/-- C04.  The encoder succeeds exactly when the code points are acceptable, the RFC 3492
deltas fit in 32 bits and the encoding fits the capacity; its output is the RFC 3492
encoding computed with unbounded integers. -/
theorem C04_encode_correct {phys cap : Nat} (u s : List Nat) (hp : cap ≤ phys)
    (h64 : cap < 18446744073709551616) :
    punycode_encode phys cap u = .ok s ↔
      (s = Punycode.encode u ∧ u.length ≤ maxint ∧ Punycode.Encodable u ∧
        (∀ d ∈ Punycode.allDeltas u, d ≤ maxint) ∧ (Punycode.encode u).length ≤ cap) := by
  rcases punycode_encode_spec (u := u) hp h64 with ⟨h1, h2, h3, h4, h5⟩ | ⟨e, h1, h2⟩
  · rw [h1]
    constructor
    · intro h; injection h with h; exact ⟨h.symm, h2, h3, h4, h5⟩
    · intro h; rw [h.1]
  · rw [h1]
    constructor
    · intro h; simp at h
    · intro h; exact absurd h.2 h2

/-- C05.  Shape of the decoder's output. -/
theorem C05_decode_output {phys cap : Nat} {s u : List Nat} (h32 : cap < 4294967295)
    (h : punycode_decode phys cap s = .ok u) :
    (∀ c ∈ u, (isLDHU c ∧ c ∈ s) ∨
      (0x80 ≤ c ∧ c ≤ 0x10FFFF ∧ ¬ (0xD800 ≤ c ∧ c ≤ 0xDBFF))) ∧
    (∃ c ∈ u, 0x80 ≤ c) ∧ u.length ≤ s.length ∧ u.length ≤ cap := by
  obtain ⟨bs, ds, d⟩ := punycode_decode_sound h32 h
  refine ⟨?_, ?_, ?_, d.cap⟩
  · intro c hc
    by_cases hlt : c < 0x80
    · left
      have : c ∈ bs := by
        rw [← d.basics]; unfold Punycode.basics; simp [hc, hlt]
      have hs : c ∈ s := by rw [d.split]; unfold headOf; simp [this]
      exact ⟨(decBasic_iff c).mp (d.basic c hs), hs⟩
    · right
      have := d.encodable c hc
      omega
  · obtain ⟨x, xs, hx⟩ := List.exists_cons_of_ne_nil d.nonascii
    have hm : x ∈ Punycode.insertions u := by rw [hx]; simp
    refine ⟨x.1, insertions_mem hm, ?_⟩
    unfold Punycode.insertions Punycode.insertionsFrom at hm
    rw [List.mem_flatMap] at hm
    obtain ⟨m, hm1, hm2⟩ := hm
    rw [List.mem_range'_1] at hm1
    have : ∀ (v : List Nat) (seen : Nat), x ∈ Punycode.insertionsAt m seen v → x.1 = m := by
      intro v
      induction v with
      | nil => intro seen h; simp [Punycode.insertionsAt] at h
      | cons y v ih =>
        intro seen h
        simp only [Punycode.insertionsAt] at h
        repeat' split at h
        · rw [List.mem_cons] at h
          rcases h with h | h
          · rw [h]
          · exact ih _ h
        · exact ih _ h
        · exact ih _ h
    rw [this _ _ hm2]; omega
  · have h1 := d.len
    have h2 := codes_length_ge (b := (Punycode.basics u).length) (Punycode.insertions u)
      (Punycode.init (Punycode.basics u).length)
    rw [← d.codes, List.length_map] at h2
    rw [d.split]
    simp only [headOf, List.length_append]
    omega

example : punycode_decode 63 63 [0x61, 0x2D, 0x2D, 0x79, 0x6B, 0x61] = .ok [0x61, 0x2D, 0xFC] := by
  decide +kernel

end Idn2
