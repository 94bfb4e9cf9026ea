import Verif.Proof.RegisterP
import Verif.Props.Unicode
import Verif.Spec.Register

/-
Properties C22-C25: registration.
-/

namespace Idn2
open Spec

/-- A label of scalar values, not all ASCII, that passes the tests of registration. -/
structure Spec.GoodLabel (D : Data) (U : Uni) (u : List Nat) : Prop where
  scalar : ∀ c ∈ u, isScalar c
  nonascii : ∃ c ∈ u, 0x80 ≤ c
  valid : ∀ e, ¬ Fault D U regTests u e

theorem RegOk_ul {E : Env} {flags : Nat} {s n : List Nat} :
    RegOk E flags (some s) none n ↔ regUP E s flags = .ok n := by
  unfold RegOk idn2_register_u8 registerRec
  simp only
  rw [regU_out]
  cases regUP E s flags <;> simp [retOf]

theorem RegOk_al {E : Env} {flags : Nat} {ul : Option (List Nat)} {a n : List Nat} :
    RegOk E flags ul (some a) n ↔ regAP E ul a = .ok n := by
  have : (idn2_register_u8 E ul (some a) (some (.old 0)) flags : Out _) =
      registerAlabel E ul a (some (.old 0)) := by cases ul <;> rfl
  unfold RegOk
  rw [this, regA_out]
  cases regAP E ul a <;> simp [retOf]

theorem RegErr_ul {E : Env} {flags : Nat} {s : List Nat} {e : Rc} :
    RegErr E flags (some s) none e ↔ regUP E s flags = .err e := by
  unfold RegErr idn2_register_u8 registerRec
  simp only
  rw [regU_out]
  cases regUP E s flags <;> simp [retOf]

theorem RegErr_al {E : Env} {flags : Nat} {ul : Option (List Nat)} {a : List Nat} {e : Rc} :
    RegErr E flags ul (some a) e ↔ regAP E ul a = .err e := by
  have : (idn2_register_u8 E ul (some a) (some (.old 0)) flags : Out _) =
      registerAlabel E ul a (some (.old 0)) := by cases ul <;> rfl
  unfold RegErr
  rw [this, regA_out]
  cases regAP E ul a <;> simp [retOf]

/-! ### What the tests say about ASCII characters -/

theorem good_prop {D : Data} {U : Uni} {u : List Nat} (h : ∀ e, ¬ Fault D U regTests u e) :
    ∀ c ∈ u, D.prop c = .pvalid ∨ D.prop c = .contextj ∨ D.prop c = .contexto := by
  intro c hc
  cases hp : D.prop c with
  | pvalid => simp
  | contextj => simp
  | contexto => simp
  | disallowed =>
    exfalso
    refine h _ (.disallowed c (by decide) hc hp ?_)
    rintro ⟨h1, _⟩
    have : regTests.testBit 12 = false ∧ regTests.testBit 13 = false := by decide
    rw [this.1, this.2] at h1
    simp at h1
  | unassigned => exact absurd (Fault.unassigned c (by decide) hc hp) (h _)

theorem good_ascii {D : Data} (hD : D.Laws) {U : Uni} {u : List Nat}
    (h : ∀ e, ¬ Fault D U regTests u e) : ∀ c ∈ u, c < 0x80 → isLowerLDH c := by
  intro c hc hlt
  apply Classical.byContradiction
  intro hn
  have hd : D.prop c = .disallowed := by
    by_cases h1 : c = 0x2E
    · rw [h1]; exact hD.dot.2
    · by_cases h2 : 0x41 ≤ c ∧ c ≤ 0x5A
      · exact (hD.upper c h2.1 h2.2).2.2
      · exact (hD.other c hlt hn h1 h2).2
  have := good_prop h c hc
  rw [hd] at this
  simp at this

theorem isLowerLDH_LDHU {c : Nat} (h : isLowerLDH c) : isLDHU c := by
  unfold isLowerLDH at h; unfold isLDHU; omega

theorem encodable_scalar {u : List Nat} (h : ∀ c ∈ u, isScalar c) : Punycode.Encodable u := by
  intro c hc
  have := h c hc
  unfold isScalar at this
  omega

theorem scalar_lt {u : List Nat} (h : ∀ c ∈ u, isScalar c) : ∀ c ∈ u, c < 0x110000 := by
  intro c hc
  have := h c hc
  unfold isScalar at this
  omega

theorem registerMask_eq : registerMask = regTests := by decide

theorem not_ascii_utf8s {u : List Nat} (hu : ∀ c ∈ u, isScalar c) (h : ∃ c ∈ u, 0x80 ≤ c) :
    ascii_p (utf8s u) = false := by
  rw [Bool.eq_false_iff]
  intro ha
  rw [ascii_p_iff] at ha
  obtain ⟨c, hc, hge⟩ := h
  have h1 := u8Decode_ascii ha
  rw [u8Decode_some_iff.mpr ⟨hu, rfl⟩] at h1
  injection h1 with h1
  have := ha c (h1 ▸ hc)
  omega

theorem u8nfcP_false (E : Env) {u : List Nat} (hu : ∀ c ∈ u, isScalar c) :
    u8nfcP E (utf8s u) false = .ok u := by
  unfold u8nfcP
  rw [u8Decode_some_iff.mpr ⟨hu, rfl⟩]
  rfl

theorem u8nfcP_stable {E : Env} {D : Data} (W : World E D) {u : List Nat}
    (hu : ∀ c ∈ u, isScalar c) (hn : E.U.nfc u = some u) (b : Bool) :
    u8nfcP E (utf8s u) b = .ok u := by
  cases b with
  | false => exact u8nfcP_false E hu
  | true =>
    unfold u8nfcP
    rw [u8Decode_some_iff.mpr ⟨hu, rfl⟩]
    simp only [↓reduceIte]
    obtain ⟨r, hr⟩ := isNFC_ne_ub W.tables (fun c hc => isScalar_le (hu c hc))
    rw [hr, Res.bind_ok]
    split
    · rw [hn]
    · rfl

theorem good_nfc {D : Data} {U : Uni} {u : List Nat} (h : ∀ e, ¬ Fault D U regTests u e) :
    U.nfc u = some u := by
  cases hn : U.nfc u with
  | none => exact absurd (Fault.nfc (by decide) hn) (h _)
  | some t =>
    apply Classical.byContradiction
    intro hne
    exact h _ (.notNfc t (by decide) hn fun h' => hne (by rw [h']))

theorem good_dot {D : Data} (hD : D.Laws) {U : Uni} {u : List Nat}
    (h : ∀ e, ¬ Fault D U regTests u e) : 0x2E ∉ u := by
  intro hc
  have := good_ascii hD h _ hc (by omega)
  unfold isLowerLDH at this
  omega

/-- Registering a good label, for any flags. -/
theorem regUP_good {E : Env} {D : Data} (W : World E D) {u : List Nat} (g : GoodLabel D E.U u)
    (hlen : (Punycode.encode u).length ≤ 59) (flags : Nat) :
    regUP E (utf8s u) flags = .ok (acePrefix ++ Punycode.encode u) := by
  unfold regUP
  have hl := length_le_encode (scalar_lt g.scalar)
  rw [not_ascii_utf8s g.scalar g.nonascii, u8nfcP_stable W g.scalar (good_nfc g.valid)]
  simp only [Bool.false_eq_true, ↓reduceIte, Res.bind_ok]
  rw [(labelTestP_ok_iff W.tables (fun c hc => isScalar_le (g.scalar c hc)) _).mpr
    (by rw [registerMask_eq]; exact g.valid)]
  simp only [Res.bind_ok]
  rw [encode_ok (by omega) (by omega)
    (fun c hc hlt => isLowerLDH_LDHU (good_ascii W.data g.valid c hc hlt))
    (encodable_scalar g.scalar) g.nonascii (by omega) hlen]
  rfl

/-- C22.  Registration with an A-label succeeds exactly for A-labels of good labels; a
U-label given with it must be the UTF-8 form of that label; the A-label itself is stored. -/
theorem C22_register_alabel {E : Env} {D : Data} (W : World E D) (flags : Nat)
    (ul : Option (List Nat)) (a n : List Nat) :
    RegOk E flags ul (some a) n ↔ n = a ∧ ∃ u, GoodLabel D E.U u ∧
      a = [0x78, 0x6E, 0x2D, 0x2D] ++ Punycode.encode u ∧ a.length ≤ 63 ∧
      (ul = none ∨ ul = some (utf8s u)) := by
  rw [RegOk_al]
  constructor
  · intro h
    unfold regAP at h
    by_cases h1 : a.length > 63
    · rw [if_pos h1] at h; cases h
    rw [if_neg h1] at h
    by_cases h2 : a.length ≤ 4
    · rw [if_pos h2] at h; cases h
    rw [if_neg h2] at h
    by_cases h3 : a.take 4 ≠ acePrefix
    · rw [if_pos h3] at h; cases h
    rw [if_neg h3] at h
    split at h
    · cases h
    · rw [Res.bind_eq_ok] at h
      obtain ⟨u, hd, h⟩ := h
      obtain ⟨_, hcan, henc, hna, hlu⟩ := (decode_iff (by omega) (by omega)).mp hd
      cases hu : u8Encode u with
      | none => rw [hu] at h; cases h
      | some s =>
        rw [hu] at h
        simp only at h
        split at h
        · cases h
        · rename_i hul
          obtain ⟨hsc, rfl⟩ := u8Encode_some_iff.mp hu
          rw [Res.bind_eq_ok] at h
          obtain ⟨t, ht, h⟩ := h
          split at h
          · cases h
          · rename_i hat
            injection h with h
            refine ⟨h.symm, u, ?_⟩
            unfold regUP at ht
            rw [not_ascii_utf8s hsc hna] at ht
            simp only [Bool.false_eq_true, ↓reduceIte] at ht
            rw [show has 0 IDN2_NFC_INPUT = false from rfl, u8nfcP_false E hsc, Res.bind_ok,
              Res.bind_eq_ok] at ht
            obtain ⟨_, ht1, ht⟩ := ht
            rw [Res.bind_eq_ok] at ht
            obtain ⟨enc, he, ht⟩ := ht
            injection ht with ht
            have he := (C04_encode_correct (phys := 60) (cap := 59) u enc (by omega) (by omega)).mp he
            have hv := (labelTestP_ok_iff W.tables (fun c hc => isScalar_le (hsc c hc)) _).mp ht1
            rw [registerMask_eq] at hv
            refine ⟨⟨hsc, hna, hv⟩, ?_, by omega, ?_⟩
            · have : a = t := Classical.byContradiction hat
              rw [this, ← ht, he.1]; rfl
            · cases ul with
              | none => left; rfl
              | some x => right; simpa using hul
  · rintro ⟨rfl, u, g, ha, hlen, hul⟩
    have hl := length_le_encode (scalar_lt g.scalar)
    have hpos : 0 < u.length := by
      obtain ⟨c, hc, _⟩ := g.nonascii
      exact List.length_pos_of_mem hc
    have hlenE : n.length = 4 + (Punycode.encode u).length := by rw [ha]; simp; omega
    have htake : n.take 4 = acePrefix := by rw [ha]; rfl
    have hdrop : n.drop 4 = Punycode.encode u := by rw [ha]; rfl
    have hld : ∀ c ∈ u, c < 0x80 → isLDHU c := fun c hc hlt =>
      isLowerLDH_LDHU (good_ascii W.data g.valid c hc hlt)
    have hasc : ascii_p n = true := by
      rw [ascii_p_iff]
      intro c hc
      rw [ha, List.mem_append] at hc
      rcases hc with hc | hc
      · simp at hc; omega
      · have := encode_LDHU hld c hc
        unfold isLDHU at this; omega
    unfold regAP
    rw [if_neg (by omega), if_neg (by omega), if_neg (by simpa using htake), hasc, hdrop,
      decode_encode (by omega) (by omega) hld (encodable_scalar g.scalar) g.nonascii (by omega)]
    simp only [Bool.not_true, Bool.false_eq_true, ↓reduceIte, Res.bind_ok, u8Encode_utf8s g.scalar]
    have : (ul.isSome && ul != some (utf8s u)) = false := by
      rcases hul with h | h
      · rw [h]; rfl
      · rw [h]; simp
    rw [this, regUP_good W g (by omega)]
    simp only [Bool.false_eq_true, ↓reduceIte, Res.bind_ok]
    rw [if_neg]
    intro hne
    exact hne ha

-- "xn--f-0fa" with and without "fä"; wrong U-label; upper case; an A-label of ASCII
example :
    RegOk Sample.E 0 none (some [0x78, 0x6E, 0x2D, 0x2D, 0x66, 0x2D, 0x30, 0x66, 0x61])
      [0x78, 0x6E, 0x2D, 0x2D, 0x66, 0x2D, 0x30, 0x66, 0x61] ∧
    RegOk Sample.E 0 (some [0x66, 0xC3, 0xA4])
      (some [0x78, 0x6E, 0x2D, 0x2D, 0x66, 0x2D, 0x30, 0x66, 0x61])
      [0x78, 0x6E, 0x2D, 0x2D, 0x66, 0x2D, 0x30, 0x66, 0x61] ∧
    RegErr Sample.E 0 (some [0x66, 0xC3, 0xA5])
      (some [0x78, 0x6E, 0x2D, 0x2D, 0x66, 0x2D, 0x30, 0x66, 0x61]) .ualabelMismatch ∧
    RegErr Sample.E 0 none (some [0x78, 0x6E, 0x2D, 0x2D, 0x66, 0x2D, 0x30, 0x46, 0x61])
      .ualabelMismatch ∧
    RegErr Sample.E 0 none (some [0x78, 0x6E, 0x2D, 0x2D, 0x66, 0x2D]) .punycodeBadInput := by
  decide +kernel

/-! ### C23: the three ways to register agree -/

/-- C23.  If an A-label can be registered then so can its U-label, alone (with any flags) or
together with it, with the same result. -/
theorem C23_register_consistent {E : Env} {D : Data} (W : World E D) {flags : Nat}
    {ul : Option (List Nat)} {a n : List Nat} (h : RegOk E flags ul (some a) n) :
    ∃ u, punycode_decode 252 252 (a.drop 4) = .ok u ∧ (∀ c ∈ u, isScalar c) ∧
      ∀ flags', RegOk E flags' (some (utf8s u)) none n ∧
        RegOk E flags' (some (utf8s u)) (some a) n ∧ RegOk E flags' none (some a) n := by
  obtain ⟨rfl, u, g, ha, hlen, _⟩ := (C22_register_alabel W flags ul a n).mp h
  have hlenE : n.length = 4 + (Punycode.encode u).length := by rw [ha]; simp; omega
  have hl := length_le_encode (scalar_lt g.scalar)
  have hdrop : n.drop 4 = Punycode.encode u := by rw [ha]; rfl
  refine ⟨u, ?_, g.scalar, fun flags' => ⟨?_, ?_, ?_⟩⟩
  · rw [hdrop]
    exact decode_encode (by omega) (by omega) (fun c hc hlt =>
      isLowerLDH_LDHU (good_ascii W.data g.valid c hc hlt)) (encodable_scalar g.scalar)
      g.nonascii (by omega)
  · rw [RegOk_ul, regUP_good W g (by omega), ha]; rfl
  · exact (C22_register_alabel W flags' _ n n).mpr ⟨rfl, u, g, ha, hlen, Or.inr rfl⟩
  · exact (C22_register_alabel W flags' _ n n).mpr ⟨rfl, u, g, ha, hlen, Or.inl rfl⟩

example : RegOk Sample.E 0 (some [0x66, 0xC3, 0xA4]) none
    [0x78, 0x6E, 0x2D, 0x2D, 0x66, 0x2D, 0x30, 0x66, 0x61] := by decide +kernel

/-! ### C24: output and safety -/

/-- Registration of a U-label: what succeeds. -/
theorem regUP_ok {E : Env} {D : Data} (W : World E D) {s n : List Nat} {flags : Nat}
    (h : regUP E s flags = .ok n) :
    ((∀ c ∈ s, c < 0x80) ∧ s.length ≤ 63 ∧ n = s) ∨
    ∃ q p, u8Decode s = some q ∧ (∃ c ∈ q, 0x80 ≤ c) ∧
      u8nfcP E s (has flags IDN2_NFC_INPUT) = .ok p ∧ (∀ c ∈ p, isScalar c) ∧
      (∀ e, ¬ Fault D E.U regTests p e) ∧ n = acePrefix ++ Punycode.encode p ∧
      punycode_encode 60 59 p = .ok (Punycode.encode p) := by
  unfold regUP at h
  split at h
  · rename_i ha
    rw [ascii_p_iff] at ha
    split at h
    · cases h
    · injection h with h
      exact Or.inl ⟨ha, by omega, h.symm⟩
  · rename_i ha
    right
    rw [Res.bind_eq_ok] at h
    obtain ⟨p, hp, h⟩ := h
    obtain ⟨hs, q, hq, _⟩ := (u8nfcP_spec W.tables W.uni s _).2 p hp
    rw [Res.bind_eq_ok] at h
    obtain ⟨_, ht, h⟩ := h
    rw [Res.bind_eq_ok] at h
    obtain ⟨enc, he, h⟩ := h
    injection h with h
    have hE := (C04_encode_correct (phys := 60) (cap := 59) p enc (by omega) (by omega)).mp he
    refine ⟨q, p, hq, ?_, hp, hs, ?_, by rw [← h, hE.1], by rw [← hE.1]; exact he⟩
    · apply Classical.byContradiction
      intro hn
      have hall : ∀ c ∈ q, c < 0x80 := by
        intro c hc
        apply Classical.byContradiction
        intro hge
        exact hn ⟨c, hc, by omega⟩
      have h1 := u8Encode_decode hq
      rw [u8Encode_ascii hall] at h1
      injection h1 with h1
      rw [← h1] at ha
      exact ha ((ascii_p_iff q).mpr hall)
    · rw [← registerMask_eq]
      exact (labelTestP_ok_iff W.tables (fun c hc => isScalar_le (hs c hc)) _).mp ht

/-- C24.  A registered name is ASCII and has at most 63 bytes, and registration has no
undefined behaviour. -/
theorem C24_register_output {E : Env} {D : Data} (W : World E D) (flags : Nat)
    (ul al : Option (List Nat)) (out : Option Cell) :
    (idn2_register_u8 E ul al out flags : Out _) ≠ .ub ∧
    ∀ n, RegOk E flags ul al n → (∀ c ∈ n, c < 0x80) ∧ n.length ≤ 63 := by
  have hret : ∀ r : Res (List Nat), r ≠ .ub → retOf out r ≠ .ub := by
    intro r hr
    cases r with
    | ub => exact absurd rfl hr
    | err e => simp [retOf]
    | ok n => simp [retOf]
  cases al with
  | some a =>
    constructor
    · have : (idn2_register_u8 E ul (some a) out flags : Out _) = registerAlabel E ul a out := by
        cases ul <;> rfl
      rw [this, regA_out]
      exact hret _ (regAP_ne_ub W ul a)
    · intro n h
      obtain ⟨rfl, u, g, ha, hlen, _⟩ := (C22_register_alabel W flags ul a n).mp h
      refine ⟨?_, hlen⟩
      intro c hc
      rw [ha, List.mem_append] at hc
      rcases hc with hc | hc
      · simp at hc; omega
      · have := encode_LDHU (fun c hc hlt =>
          isLowerLDH_LDHU (good_ascii W.data g.valid c hc hlt)) c hc
        unfold isLDHU at this; omega
  | none =>
    cases ul with
    | none =>
      constructor
      · simp [idn2_register_u8, registerRec]
      · intro n h; simp [RegOk, idn2_register_u8, registerRec] at h
    | some s =>
      constructor
      · show (registerUlabel E s out flags : Out _) ≠ .ub
        rw [regU_out]
        exact hret _ (regUP_ne_ub W s flags)
      · intro n h
        rw [RegOk_ul] at h
        rcases regUP_ok W h with ⟨h1, h2, rfl⟩ | ⟨q, p, _, _, _, hs, hv, rfl, he⟩
        · exact ⟨h1, h2⟩
        · have hsh := enc_shape (by omega) (by omega) he
          constructor
          · intro c hc
            rw [List.mem_append] at hc
            rcases hc with hc | hc
            · unfold acePrefix at hc; simp at hc; omega
            · rcases hsh.chars c hc with h | h
              · exact h.2
              · unfold isLowerLDH at h; omega
          · have := hsh.cap
            simp [acePrefix]; omega

/-- C24, recursion: giving `idn2_register_u8` room for more than two activations changes nothing,
whatever the allocator does, so it calls itself at most once. -/
theorem C24_recursion {m : Type → Type} [CMem m] (E : Env) (k : Nat) (ul al : Option (List Nat))
    (out : Option Cell) (flags : Nat) :
    (registerRec E (k + 2) ul al out flags : m _) = idn2_register_u8 E ul al out flags := by
  have h1 : ∀ (j : Nat) (s : List Nat) (o : Option Cell) (f : Nat),
      (registerRec E (j + 1) (some s) none o f : m _) = registerUlabel E s o f := fun _ _ _ _ => rfl
  cases al with
  | none => cases ul <;> rfl
  | some a =>
    have h2 : ∀ j, (registerRec E (j + 1) ul (some a) out flags : m _) =
        registerAlabelWith (registerRec E j) ul a out := by intro j; cases ul <;> rfl
    unfold idn2_register_u8
    rw [h2 (k + 1), h2 1]
    unfold registerAlabelWith
    have h3 : ∀ (s : List Nat) (o : Option Cell) (f : Nat),
        (registerRec E 1 (some s) none o f : m _) = registerUlabel E s o f := h1 0
    simp only [h1 k, h3]

-- one activation is not enough for an A-label
example : (registerRec Sample.E 1 none
      (some [0x78, 0x6E, 0x2D, 0x2D, 0x66, 0x2D, 0x30, 0x66, 0x61]) (some (.old 0)) 0 : Out _) = .ub ∧
    RegOk Sample.E 0 none (some [0x78, 0x6E, 0x2D, 0x2D, 0x66, 0x2D, 0x30, 0x66, 0x61])
      [0x78, 0x6E, 0x2D, 0x2D, 0x66, 0x2D, 0x30, 0x66, 0x61] := by decide +kernel

/-- C47.  A U-label of ASCII characters is not tested at all: it is returned unchanged if it has
at most 63 bytes. -/
theorem C47_register_ascii {E : Env} (flags : Nat) {s : List Nat} (h : ∀ c ∈ s, c < 0x80) :
    if s.length ≤ 63 then RegOk E flags (some s) none s
    else RegErr E flags (some s) none .tooBigLabel := by
  have : regUP E s flags = if s.length > 63 then .err .tooBigLabel else .ok s := by
    unfold regUP; rw [if_pos ((ascii_p_iff s).mpr h)]
  split
  · rw [RegOk_ul, this, if_neg (by omega)]
  · rw [RegErr_ul, this, if_pos (by omega)]

-- even "a b", "-.-" and an A-label that cannot be decoded
example : RegOk Sample.E 0 (some [0x61, 0x20, 0x62]) none [0x61, 0x20, 0x62] ∧
    RegOk Sample.E 0 (some [0x2D, 0x2E, 0x2D]) none [0x2D, 0x2E, 0x2D] ∧
    RegOk Sample.E 0 (some [0x78, 0x6E, 0x2D, 0x2D]) none [0x78, 0x6E, 0x2D, 0x2D] := by
  decide +kernel

/-! ### C25: what can be registered can be looked up -/

/-- The tests of registration imply those of nontransitional lookup. -/
theorem fault_weaken {D : Data} (hD : D.Laws) {U : Uni} {u : List Nat} {m : Nat}
    (h5 : m.testBit 5 = false) (h7 : m.testBit 7 = false) (h12 : m.testBit 12 = false)
    (h : ∀ e, ¬ Fault D U regTests u e) : ∀ e, ¬ Fault D U m u e := by
  intro e hf
  cases hf with
  | nfc h1 h2 => exact h _ (.nfc (by decide) h2)
  | notNfc t h1 h2 h3 => exact h _ (.notNfc t (by decide) h2 h3)
  | twoHyphen h1 h2 h3 => exact h _ (.twoHyphen (by decide) h2 h3)
  | hyphenStartEnd h1 h2 => exact h _ (.hyphenStartEnd (by decide) h2)
  | leadingCombining c h1 h2 h3 => exact h _ (.leadingCombining c (by decide) h2 h3)
  | disallowed c h1 h2 h3 h4 =>
    have := good_prop h c h2
    rw [h3] at this; simp at this
  | contextjAny c h1 => rw [h5] at h1; cases h1
  | contextj pos c h1 h2 h3 h4 h6 => exact h _ (.contextj pos c (by decide) h2 h3 h4 h6)
  | contextjNoRule c h1 h2 h3 h4 h6 => exact h _ (.contextjNoRule c (by decide) h2 h3 h4 h6)
  | contextoAny c h1 => rw [h7] at h1; cases h1
  | contextoNoRule c h1 h2 h3 h4 => exact h _ (.contextoNoRule c (by decide) h2 h3 h4)
  | contexto pos c h1 h2 h3 h4 h6 => exact h _ (.contexto pos c (by decide) h2 h3 h4 h6)
  | unassigned c h1 h2 h3 => exact h _ (.unassigned c (by decide) h2 h3)
  | bidi h1 h2 => exact h _ (.bidi (by decide) h2)
  | dotInLabel h1 h2 => exact good_dot hD h h2
  | invalidTransitional c h1 => rw [h12] at h1; cases h1
  | invalidNontransitional c h1 h2 h3 h4 =>
    apply h4
    rcases hD.pvalid c (good_prop h c h3) with h' | h'
    · exact Or.inl h'
    · exact Or.inr (Or.inl ⟨rfl, h'⟩)

theorem labelMask_bits (f : Nat) : (labelMask f).testBit 5 = false ∧
    (labelMask f).testBit 7 = false ∧ (labelMask f).testBit 12 = false := by
  unfold labelMask
  split <;> split <;> decide

theorem tr46Mask_bits {f : Nat} (h : has f IDN2_TRANSITIONAL = false) :
    (tr46Mask f).testBit 5 = false ∧ (tr46Mask f).testBit 7 = false ∧
      (tr46Mask f).testBit 12 = false := by
  unfold tr46Mask addStd3
  rw [h]
  simp only [Bool.false_eq_true, ↓reduceIte]
  split <;> decide

theorem utf8s_zero_iff {u : List Nat} (hu : ∀ c ∈ u, isScalar c) : 0 ∈ utf8s u ↔ 0 ∈ u :=
  mem_u8Encode_ascii (u8Encode_utf8s hu) (by omega)

theorem good_zero {D : Data} (hD : D.Laws) {U : Uni} {u : List Nat}
    (h : ∀ e, ¬ Fault D U regTests u e) : 0 ∉ u := by
  intro hc
  have := good_ascii hD h _ hc (by omega)
  unfold isLowerLDH at this
  omega

/-- `label` of a U-label whose NFC form passes the tests of registration. -/
theorem labelP_good {E : Env} {D : Data} (W : World E D) {s p : List Nat} {f : Nat} (h0 : 0 ∉ s)
    (hp : u8nfcP E s (has f IDN2_NFC_INPUT) = .ok p) (hs : ∀ c ∈ p, isScalar c)
    (hv : ∀ e, ¬ Fault D E.U regTests p e) (hna : ∃ c ∈ p, 0x80 ≤ c)
    (hlen : (Punycode.encode p).length ≤ 59) (hsna : ¬ ∀ c ∈ s, c < 0x80) :
    labelP E s f = .ok (acePrefix ++ Punycode.encode p) := by
  have hld : ∀ c ∈ p, c < 0x80 → isLDHU c := fun c hc hlt =>
    isLowerLDH_LDHU (good_ascii W.data hv c hc hlt)
  have hl := length_le_encode (scalar_lt hs)
  rw [labelP_ok_iff W.tables W.uni h0]
  refine Or.inr (Or.inr ⟨hsna, p, Punycode.encode p, hp, ⟨hs, ?_, ?_, ?_⟩, rfl⟩)
  · unfold labelTestIf
    split
    · rfl
    · obtain ⟨h5, h7, h12⟩ := labelMask_bits f
      exact (labelTestP_ok_iff W.tables (fun c hc => isScalar_le (hs c hc)) _).mpr
        (fault_weaken W.data h5 h7 h12 hv)
  · exact encode_ok (by omega) (by omega) hld (encodable_scalar hs) hna (by omega) hlen
  · intro _
    exact decode_encode (by omega) (by omega) hld (encodable_scalar hs) hna (by omega)

theorem ace_length (e : List Nat) : (acePrefix ++ e).length = 4 + e.length := by
  simp [acePrefix]; omega

theorem ace_ne_nil (e : List Nat) : acePrefix ++ e ≠ [] := by simp [acePrefix]

theorem loopL_single {E : Env} {f : Nat} {s d : List Nat} (h : labelP E s f = .ok d)
    (hd : d ≠ []) (hlen : d.length ≤ 253) : loopL E f [s] [] = .ok d := by
  rw [loopL_ok_iff (by simp)]
  refine ⟨[d], by rw [mapLabels_ok_cons]; exact ⟨d, [], rfl, h, rfl⟩, rfl, ?_⟩
  unfold nameLimit
  split <;> omega

theorem emit_good {D : Data} {std3 : Bool} {c : Nat}
    (h : D.status c = .valid ∨ D.status c = .deviation) : emit D false std3 c = [c] := by
  unfold emit
  rcases h with h | h <;> rw [h] <;> simp

theorem flatMap_self {u : List Nat} {f : Nat → List Nat} (h : ∀ c ∈ u, f c = [c]) :
    u.flatMap f = u := by
  induction u with
  | nil => rfl
  | cons c u ih =>
    rw [List.flatMap_cons, h c List.mem_cons_self, ih fun x hx => h x (List.mem_cons_of_mem _ hx)]
    rfl

theorem no_ace_prefix {D : Data} {U : Uni} {u : List Nat} (h : ∀ e, ¬ Fault D U regTests u e) :
    ¬ (u.length ≥ 4 ∧ u.take 4 = acePrefix) := by
  rintro ⟨h1, h2⟩
  match u, h1, h2 with
  | a :: b :: c :: d :: r, _, h2 =>
    simp [acePrefix] at h2
    exact h _ (.twoHyphen (by decide) (by simp [h2]) (by simp [h2]))

/-- UTS #46 processing leaves a good label alone. -/
theorem tr46P_good {E : Env} {D : Data} (W : World E D) {u : List Nat} (g : GoodLabel D E.U u)
    {f : Nat} (hf : has f IDN2_TRANSITIONAL = false) (hlen : u.length < 255) :
    tr46P E D f (utf8s u) = .ok (utf8s u) := by
  have hst : ∀ c ∈ u, D.status c = .valid ∨ D.status c = .deviation := fun c hc =>
    W.data.pvalid c (good_prop g.valid c hc)
  have hmap : mapText D f u = u := by
    unfold mapText
    rw [hf]
    exact flatMap_self fun c hc => emit_good (hst c hc)
  rw [tr46P_ok_iff]
  refine ⟨u, u, u8Decode_some_iff.mpr ⟨g.scalar, rfl⟩, ?_, by rw [hmap]; exact hlen,
    by rw [hmap]; exact good_nfc g.valid, ?_, u8Encode_utf8s g.scalar⟩
  · intro c hc hd
    rcases hst c hc with h | h <;> rw [h] at hd <;> cases hd
  · intro l hl
    rw [splitDot_nodot (good_dot W.data g.valid)] at hl
    simp at hl
    subst hl
    unfold tr46LabelP
    rw [if_neg (no_ace_prefix g.valid)]
    obtain ⟨h5, h7, h12⟩ := tr46Mask_bits hf
    rw [(labelTestP_ok_iff W.tables (fun c hc => isScalar_le (g.scalar c hc)) _).mpr
      (fault_weaken W.data h5 h7 h12 g.valid)]
    rfl

/-- C25.  A non-ASCII U-label that can be registered (without IDN2_NFC_INPUT, bit 0) is looked up
successfully with the same result, with any flags that do not conflict and do not ask for
transitional processing (bit 2). -/
theorem C25_registered_lookup {E : Env} {D : Data} (W : World E D) {flags : Nat} {s n : List Nat}
    (hnfc : flags.testBit 0 = false) (hna : ¬ ∀ c ∈ s, c < 0x80)
    (h : RegOk E flags (some s) none n) {g : Nat} (hg : ¬ Conflict g) (h2 : g.testBit 2 = false) :
    LookupOk E g s n := by
  rw [RegOk_ul] at h
  rcases regUP_ok W h with ⟨h1, _⟩ | ⟨q, p, hq, hqna, hp, hs, hv, rfl, he⟩
  · exact absurd h1 hna
  · rw [(flag_bits flags).1, hnfc] at hp
    obtain ⟨hqs, rfl⟩ := u8Decode_some_iff.mp hq
    rw [u8nfcP_false E hqs] at hp
    injection hp with hp
    subst hp
    have gl : GoodLabel D E.U q := ⟨hqs, hqna, hv⟩
    have hcap := (enc_shape (by omega) (by omega) he).cap
    have hl := length_le_encode (scalar_lt hqs)
    have h0 : 0 ∉ utf8s q := fun hc => good_zero W.data hv ((utf8s_zero_iff hqs).mp hc)
    have hdot : 0x2E ∉ utf8s q := fun hc => good_dot W.data hv
      ((mem_u8Encode_ascii (u8Encode_utf8s hqs) (by omega)).mp hc)
    rw [LookupOk_iff W h0, lookupF_ok_iff]
    obtain ⟨f, hf⟩ := set_default_flags_ok hg
    refine ⟨f, hf, ?_⟩
    have hft : has f IDN2_TRANSITIONAL = false := by
      rw [set_default_flags_bits hf _ (by decide), (flag_bits g).2.2.1, h2]
    unfold lookupP
    have : (if has f IDN2_NO_TR46 then .ok (utf8s q) else tr46P E D f (utf8s q)) =
        .ok (utf8s q) := by
      split
      · rfl
      · exact tr46P_good W gl hft (by omega)
    rw [this, Res.bind_ok, splitDot_nodot hdot]
    apply loopL_single _ (ace_ne_nil _) (by rw [ace_length]; omega)
    exact labelP_good W h0 (u8nfcP_stable W hqs (good_nfc hv) _) hqs hv hqna hcap hna

/-- C25 for registration with IDN2_NFC_INPUT: lookup with IDN2_NO_TR46 (bit 6) and
IDN2_NFC_INPUT (bit 0) gives the same result.  Used of NFC: only letters, digits and hyphens
are normalised to letters, digits and hyphens. -/
theorem C25_registered_lookup_nfc {E : Env} {D : Data} (W : World E D)
    (hk : ∀ a b, E.U.nfc a = some b → (∀ c ∈ b, isLowerLDH c) → a = b)
    {flags : Nat} {s n : List Nat} (h0 : 0 ∉ s) (hnfc : flags.testBit 0 = true)
    (hna : ¬ ∀ c ∈ s, c < 0x80) (h : RegOk E flags (some s) none n) {g : Nat}
    (hg : ¬ Conflict g) (hg0 : g.testBit 0 = true) (hg6 : g.testBit 6 = true) :
    LookupOk E g s n := by
  rw [RegOk_ul] at h
  rcases regUP_ok W h with ⟨h1, _⟩ | ⟨q, p, hq, hqna, hp, hs, hv, rfl, he⟩
  · exact absurd h1 hna
  · rw [(flag_bits flags).1, hnfc] at hp
    obtain ⟨hqs, rfl⟩ := u8Decode_some_iff.mp hq
    have hqp : E.U.nfc q = some p := by
      obtain ⟨_, q', hq', h'⟩ := (u8nfcP_spec W.tables W.uni (utf8s q) true).2 p hp
      rw [hq] at hq'
      injection hq' with hq'
      subst hq'
      rcases h' with rfl | h'
      · exact good_nfc hv
      · exact h'.2
    have hpna : ∃ c ∈ p, 0x80 ≤ c := by
      apply Classical.byContradiction
      intro hn
      have hall : ∀ c ∈ p, isLowerLDH c := by
        intro c hc
        apply good_ascii W.data hv c hc
        apply Classical.byContradiction
        intro hge
        exact hn ⟨c, hc, by omega⟩
      have := hk q p hqp hall
      subst this
      exact hn hqna
    have hcap := (enc_shape (by omega) (by omega) he).cap
    rw [LookupOk_iff W h0, lookupF_ok_iff]
    obtain ⟨f, hf⟩ := set_default_flags_ok hg
    refine ⟨f, hf, ?_⟩
    have hf6 : has f IDN2_NO_TR46 = true := by
      rw [set_default_flags_bits hf _ (by decide), (flag_bits g).2.2.2.2.2.1, hg6]
    have hf0 : has f IDN2_NFC_INPUT = true := by
      rw [set_default_flags_bits hf _ (by decide), (flag_bits g).1, hg0]
    have hdot : 0x2E ∉ utf8s q := by
      intro hc
      have hc := (mem_u8Encode_ascii (u8Encode_utf8s hqs) (by omega)).mp hc
      obtain ⟨a, b, rfl⟩ := List.append_of_mem hc
      rw [W.uni.nfc_sep a 0x2E b (Or.inr rfl)] at hqp
      cases ha : E.U.nfc a with
      | none => rw [ha] at hqp; cases hqp
      | some x =>
        cases hb : E.U.nfc b with
        | none => rw [ha, hb] at hqp; cases hqp
        | some y =>
          rw [ha, hb] at hqp
          injection hqp with hqp
          apply good_dot W.data hv
          rw [← hqp]; simp
    rw [lookupP_noTr46 hf6, splitDot_nodot hdot]
    apply loopL_single _ (ace_ne_nil _) (by rw [ace_length]; omega)
    exact labelP_good W h0 (by rw [hf0]; exact hp) hs hv hpna hcap hna

-- "fä" precomposed with default flags and with IDN2_NO_TR46; "fa" and a combining accent
example : LookupOk Sample.E 0 [0x66, 0xC3, 0xA4]
      [0x78, 0x6E, 0x2D, 0x2D, 0x66, 0x2D, 0x30, 0x66, 0x61] ∧
    LookupOk Sample.E 64 [0x66, 0xC3, 0xA4]
      [0x78, 0x6E, 0x2D, 0x2D, 0x66, 0x2D, 0x30, 0x66, 0x61] ∧
    RegOk Sample.E 1 (some [0x66, 0x61, 0xCC, 0x80]) none
      [0x78, 0x6E, 0x2D, 0x2D, 0x66, 0x2D, 0x73, 0x66, 0x61] ∧
    LookupOk Sample.E 65 [0x66, 0x61, 0xCC, 0x80]
      [0x78, 0x6E, 0x2D, 0x2D, 0x66, 0x2D, 0x73, 0x66, 0x61] := by decide +kernel

end Idn2
