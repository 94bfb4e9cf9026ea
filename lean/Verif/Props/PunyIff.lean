import Verif.Props.Puny

/-
Property C46: which strings the Punycode decoder accepts, and as what.
-/

namespace Idn2
open Spec

/-- A string is what comes before its last hyphen, the hyphen, and a rest without hyphen. -/
theorem last_hyphen (s : List Nat) :
    0x2D ∉ s ∨ ∃ b ds, s = b ++ 0x2D :: ds ∧ 0x2D ∉ ds := by
  induction s with
  | nil => left; simp
  | cons c r ih =>
    rcases ih with h | ⟨b, ds, rfl, h⟩
    · by_cases hc : c = 0x2D
      · right; exact ⟨[], r, by rw [hc]; rfl, h⟩
      · left; rw [List.mem_cons]; rintro (h' | h')
        · exact hc h'.symm
        · exact h h'
    · right; exact ⟨c :: b, ds, rfl, h⟩

theorem last_hyphen_unique {b b' x y : List Nat} (h : b ++ 0x2D :: x = b' ++ 0x2D :: y)
    (hx : 0x2D ∉ x) (hy : 0x2D ∉ y) : b = b' ∧ x = y := by
  induction b generalizing b' with
  | nil =>
    cases b' with
    | nil => simpa using h
    | cons c b' =>
      exfalso
      injection h with _ h2
      apply hx
      rw [h2]; simp
  | cons c b ih =>
    cases b' with
    | nil =>
      exfalso
      injection h with _ h2
      apply hy
      rw [← h2]; simp
    | cons c' b' =>
      injection h with h1 h2
      obtain ⟨h3, h4⟩ := ih h2
      exact ⟨by rw [h1, h3], h4⟩

theorem canonPuny_delim {b ds : List Nat} (h : ∀ c ∈ ds, c ≠ 0x2D) :
    canonPuny (b ++ 0x2D :: ds) = b ++ 0x2D :: ds.map canonChar := by
  induction b with
  | nil => simp [canonPuny, canonPuny_noDelim h]
  | cons c bs ih =>
    simp only [List.cons_append]
    unfold canonPuny
    rw [if_pos (by simp), ih]

theorem canonChar_delim {c : Nat} (h : isLDHU c) (hd : c ≠ 0x2D) : canonChar c ≠ 0x2D := by
  unfold isLDHU at h
  unfold canonChar
  split
  · omega
  · split <;> omega

/-- A string whose canonical form is an encoding decomposes like one. -/
theorem canon_split {s u : List Nat} (hs : ∀ c ∈ s, isLDHU c)
    (he : canonPuny s = Punycode.encode u) :
    ∃ ds, s = headOf (Punycode.basics u) ++ ds ∧ (∀ c ∈ ds, decBasic c = true) ∧
      (∀ c ∈ ds, c ≠ 0x2D) ∧ ds.map decode_digit =
        Punycode.codes (Punycode.basics u).length (Punycode.init (Punycode.basics u).length)
          (Punycode.insertions u) := by
  rw [encode_eq_head] at he
  have hcl := codes_lt (b := (Punycode.basics u).length) (Punycode.insertions u)
    (Punycode.init (Punycode.basics u).length)
  generalize Punycode.codes (Punycode.basics u).length
    (Punycode.init (Punycode.basics u).length) (Punycode.insertions u) = cs at he hcl ⊢
  have hnd : 0x2D ∉ cs.map Punycode.digitChar := by
    intro h
    obtain ⟨d, hd, h⟩ := List.mem_map.mp h
    exact (digitChar_basic (hcl d hd)).2 h
  have key : ∀ ds : List Nat, (∀ c ∈ ds, isLDHU c) → (∀ c ∈ ds, c ≠ 0x2D) →
      ds.map canonChar = cs.map Punycode.digitChar → ds.map decode_digit = cs := by
    intro ds h1 h2 h3
    have h4 : ds.map canonChar = (ds.map decode_digit).map Punycode.digitChar := by
      rw [List.map_map]
      apply List.map_congr_left
      intro c hc
      exact canonChar_eq ((decBasic_iff c).mpr (h1 c hc)) (h2 c hc)
    rw [h4] at h3
    have h5 := congrArg (List.map decode_digit) h3
    rw [map_decode_digitChar hcl, map_decode_digitChar] at h5
    · exact h5
    · intro d hd
      obtain ⟨c, hc, rfl⟩ := List.mem_map.mp hd
      have := h1 c hc
      unfold isLDHU at this
      unfold decode_digit
      repeat' split
      all_goals omega
  rcases last_hyphen s with hn | ⟨b, ds, rfl, hn⟩
  · have hn' : ∀ c ∈ s, c ≠ 0x2D := fun c hc h => hn (h ▸ hc)
    rw [canonPuny_noDelim hn'] at he
    have hb : Punycode.basics u = [] := by
      apply Classical.byContradiction
      intro hb
      have : 0x2D ∈ s.map canonChar := by rw [he]; simp [headOf, hb]
      obtain ⟨c, hc, h⟩ := List.mem_map.mp this
      exact canonChar_delim (hs c hc) (hn' c hc) h
    rw [hb] at he ⊢
    exact ⟨s, rfl, fun c hc => (decBasic_iff c).mpr (hs c hc), hn', key s hs hn' he⟩
  · have hn' : ∀ c ∈ ds, c ≠ 0x2D := fun c hc h => hn (h ▸ hc)
    have hs' : ∀ c ∈ ds, isLDHU c := fun c hc => hs c (by simp [hc])
    rw [canonPuny_delim hn'] at he
    have hb : Punycode.basics u ≠ [] := by
      intro hb
      rw [hb] at he
      apply hnd
      rw [show headOf [] ++ cs.map Punycode.digitChar = cs.map Punycode.digitChar from rfl] at he
      rw [← he]; simp
    have hh : headOf (Punycode.basics u) = Punycode.basics u ++ [0x2D] := by
      unfold headOf; rw [if_neg hb]
    rw [hh, List.append_assoc] at he
    obtain ⟨h1, h2⟩ := last_hyphen_unique he (by
      intro h
      obtain ⟨c, hc, h⟩ := List.mem_map.mp h
      exact canonChar_delim (hs' c hc) (hn' c hc) h) hnd
    refine ⟨ds, ?_, fun c hc => (decBasic_iff c).mpr (hs' c hc), hn', key ds hs' hn' h2⟩
    rw [hh, ← h1, List.append_assoc]; rfl

theorem canonPuny_decoded {cap : Nat} {s u bs ds : List Nat} (d : Decoded cap s u bs ds) :
    canonPuny s = Punycode.encode u := by
  rw [encode_eq_head, d.basics, ← d.basics, ← d.codes, List.map_map, d.basics, d.split,
    canonPuny_head d.nodelim]
  congr 1
  apply List.map_congr_left
  intro c hc
  exact canonChar_eq (d.basic c (by rw [d.split]; simp [hc])) (d.nodelim c hc)

/-- C46, soundness of acceptance: an accepted string consists of letters, digits, hyphens and
underscores and is, in canonical form, the RFC 3492 encoding of the result. -/
theorem C46_decode_only {phys cap : Nat} {s u : List Nat} (h32 : cap < 4294967295)
    (h : punycode_decode phys cap s = .ok u) :
    (∀ c ∈ s, isLDHU c) ∧ canonPuny s = Punycode.encode u ∧ Punycode.Encodable u ∧
      (∃ c ∈ u, 0x80 ≤ c) ∧ u.length ≤ cap := by
  obtain ⟨bs, ds, d⟩ := punycode_decode_sound h32 h
  exact ⟨fun c hc => (decBasic_iff c).mp (d.basic c hc), canonPuny_decoded d, d.encodable,
    (C05_decode_output h32 h).2.1, d.cap⟩

/-- C46, completeness of acceptance: every such string is accepted, save for an overflow
reported for labels of more than 3855 code points. -/
theorem C46_decode_all {phys cap : Nat} {s u : List Nat} (hp : cap ≤ phys) (h32 : cap < 4294967295)
    (hs : ∀ c ∈ s, isLDHU c) (he : canonPuny s = Punycode.encode u) (henc : Punycode.Encodable u)
    (hna : ∃ c ∈ u, 0x80 ≤ c) (hcap : u.length ≤ cap) :
    punycode_decode phys cap s = .ok u ∨
      (3855 < u.length ∧ punycode_decode phys cap s = .err .punycodeOverflow) := by
  obtain ⟨ds, h1, h2, h3, h4⟩ := canon_split hs he
  have hlt : ∀ x ∈ u, x < 0x110000 := fun x hx => by have := (henc x hx).1; omega
  have hb : ∀ c ∈ Punycode.basics u, decBasic c = true := by
    intro c hc
    apply (decBasic_iff c).mpr
    apply hs
    rw [h1]; simp [headOf, hc]
  have hins := insertions_ne_nil hlt hna
  by_cases hl : u.length ≤ 3855
  · left
    rw [h1]
    exact punycode_decode_complete hp henc hb hins (by rw [maxint_def]; omega) hcap h2 h3 h4
  · rw [h1]
    rcases punycode_decode_or hp (by rw [maxint_def]; omega) henc hb hins hcap h2 h3 h4 with h | h
    · exact Or.inl h
    · exact Or.inr ⟨by omega, h⟩

/-- C46 for the capacities in use. -/
theorem decode_iff {phys cap : Nat} {s u : List Nat} (hp : cap ≤ phys) (hc : cap ≤ 3855) :
    punycode_decode phys cap s = .ok u ↔
      (∀ c ∈ s, isLDHU c) ∧ canonPuny s = Punycode.encode u ∧ Punycode.Encodable u ∧
        (∃ c ∈ u, 0x80 ≤ c) ∧ u.length ≤ cap := by
  constructor
  · exact C46_decode_only (by omega)
  · rintro ⟨h1, h2, h3, h4, h5⟩
    rcases C46_decode_all hp (by omega) h1 h2 h3 h4 h5 with h | h
    · exact h
    · omega

example : canonPuny [0x62, 0x2D, 0x54, 0x64, 0x5F] = Punycode.encode [0xBE, 0x62] ∧
    ¬ ∃ u, punycode_decode 63 63 [0x62, 0x2D] = .ok u := by
  constructor
  · have h : punycode_decode 63 63 [0x62, 0x2D, 0x54, 0x64, 0x5F] = .ok [0xBE, 0x62] := by
      decide +kernel
    exact (C46_decode_only (by omega) h).2.1
  · rintro ⟨u, h⟩
    rw [show punycode_decode 63 63 [0x62, 0x2D] = .err .punycodeBadInput by decide +kernel] at h
    cases h

/-! ### Encodings of short labels -/

theorem isLDHU_digitChar {d : Nat} (h : d < 36) : isLDHU (Punycode.digitChar d) :=
  (decBasic_iff _).mp (digitChar_basic h).1

theorem encode_LDHU {u : List Nat} (h : ∀ c ∈ u, c < 0x80 → isLDHU c) :
    ∀ c ∈ Punycode.encode u, isLDHU c := by
  intro c hc
  rw [encode_eq_head, List.mem_append, headOf, List.mem_append] at hc
  rcases hc with (hc | hc) | hc
  · unfold Punycode.basics at hc
    simp at hc
    exact h c hc.1 hc.2
  · split at hc
    · cases hc
    · simp at hc; subst hc; unfold isLDHU; omega
  · obtain ⟨d, hd, rfl⟩ := List.mem_map.mp hc
    exact isLDHU_digitChar (codes_lt _ _ d hd)

theorem canonChar_digitChar {d : Nat} (h : d < 36) :
    canonChar (Punycode.digitChar d) = Punycode.digitChar d := by
  unfold canonChar Punycode.digitChar
  split <;> (rw [if_neg (by omega), if_neg (by omega)])

theorem canonPuny_encode (u : List Nat) : canonPuny (Punycode.encode u) = Punycode.encode u := by
  have hcl := codes_lt (b := (Punycode.basics u).length) (Punycode.insertions u)
    (Punycode.init (Punycode.basics u).length)
  rw [encode_eq_head, canonPuny_head]
  · rw [List.map_map]
    congr 1
    apply List.map_congr_left
    intro d hd
    exact canonChar_digitChar (hcl d hd)
  · intro c hc
    obtain ⟨d, hd, rfl⟩ := List.mem_map.mp hc
    exact (digitChar_basic (hcl d hd)).2

theorem decode_encode {phys cap : Nat} {u : List Nat} (hp : cap ≤ phys) (hc : cap ≤ 3855)
    (hl : ∀ c ∈ u, c < 0x80 → isLDHU c) (henc : Punycode.Encodable u)
    (hna : ∃ c ∈ u, 0x80 ≤ c) (hcap : u.length ≤ cap) :
    punycode_decode phys cap (Punycode.encode u) = .ok u :=
  (decode_iff hp hc).mpr ⟨encode_LDHU hl, canonPuny_encode u, henc, hna, hcap⟩

/-- Short labels are encoded whenever there is room. -/
theorem encode_ok {phys cap : Nat} {u : List Nat} (hp : cap ≤ phys)
    (h64 : cap < 18446744073709551616)
    (hl : ∀ c ∈ u, c < 0x80 → isLDHU c) (henc : Punycode.Encodable u)
    (hna : ∃ c ∈ u, 0x80 ≤ c) (hu : u.length ≤ 3855) (hcap : (Punycode.encode u).length ≤ cap) :
    punycode_encode phys cap u = .ok (Punycode.encode u) := by
  have h := decode_encode (Nat.le_refl 3855) (Nat.le_refl 3855) hl henc hna hu
  have := C02_punycode_decode_encode hp h64 hcap (by omega) h
  rwa [canonPuny_encode] at this

theorem length_le_encode {u : List Nat} (h : ∀ x ∈ u, x < 0x110000) :
    u.length ≤ (Punycode.encode u).length := by
  have hlu := ins_length (Punycode.insertions u) (Punycode.init (Punycode.basics u).length)
    (Punycode.basics u) rfl (Punycode.chain_insertions u)
  rw [Punycode.foldl_insertions h] at hlu
  have h2 := codes_length_ge (b := (Punycode.basics u).length) (Punycode.insertions u)
    (Punycode.init (Punycode.basics u).length)
  rw [encode_eq_head, headOf]
  simp only [List.length_append, List.length_map]
  omega

end Idn2
