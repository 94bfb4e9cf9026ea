import Verif.Proof.LookupExact
import Verif.Spec.Register

/-
Properties C65 and C66: the complete account of registration.
-/

namespace Idn2
open Spec

/-- The outcome of `idn2_register_u8`. -/
def RegIs (E : Env) (flags : Nat) (ul al : Option (List Nat)) : Except Rc (List Nat) → Prop
  | .ok n => RegOk E flags ul al n
  | .error e => RegErr E flags ul al e

theorem regIs_unique {E : Env} {flags : Nat} {ul al : Option (List Nat)}
    {r r' : Except Rc (List Nat)} (h : RegIs E flags ul al r) (h' : RegIs E flags ul al r') :
    r = r' := by
  cases r <;> cases r' <;> simp only [RegIs, RegOk, RegErr] at h h' <;> rw [h] at h' <;>
    simp at h' <;> rw [h']

/-! ### The accounts leave nothing out -/

theorem ascii_or (t : List Nat) : (∀ c ∈ t, c < 0x80) ∨ ∃ c ∈ t, 0x80 ≤ c := by
  by_cases h : ∀ c ∈ t, c < 0x80
  · exact Or.inl h
  · right
    obtain ⟨c, hc⟩ := Classical.not_forall.mp h
    obtain ⟨hc, hlt⟩ := Classical.not_imp.mp hc
    exact ⟨c, hc, by omega⟩

theorem fault_or {E : Env} {D : Data} (W : World E D) (what : Nat) {u : List Nat}
    (hu : ∀ c ∈ u, isScalar c) :
    (∃ e, FirstFault D E.U what u e) ∨ ∀ e, ¬ Fault D E.U what u e := by
  have hle : ∀ c ∈ u, c ≤ 0x10FFFF := fun c hc => isScalar_le (hu c hc)
  cases h : labelTestP E what u with
  | ub => exact absurd h (labelTestP_ne_ub W.tables hle what)
  | err e => exact Or.inl ⟨e, (labelTestP_first W.tables hle).mp h⟩
  | ok _ => exact Or.inr ((labelTestP_ok_iff W.tables hle what).mp h)

theorem registerU_total {E : Env} {D : Data} (W : World E D) (flags : Nat) (t : List Nat) :
    ∃ r, RegisterU D E.U flags t r := by
  rcases ascii_or t with ha | hna
  · by_cases hl : t.length ≤ 63
    · exact ⟨_, .ascii ha hl⟩
    · exact ⟨_, .long ha (by omega)⟩
  · by_cases hw : WellFormed t
    · obtain ⟨q, hq, rfl⟩ := hw
      have hqna : ∃ c ∈ q, 0x80 ≤ c := by
        rcases ascii_or q with h | h
        · have e2 := (u8Decode_some_iff.mp (u8Decode_ascii h)).2
          rw [← e2] at hna
          exact (not_both h hna).elim
        · exact h
      have norm : (flags.testBit 0 = true ∧ NormFails D E.U q) ∨ ∃ u, NormIf D E.U flags q u := by
        cases hb : flags.testBit 0 with
        | false => exact Or.inr ⟨q, by unfold NormIf; rw [hb]; rfl⟩
        | true =>
          rcases u8nfcP_true W hq with ⟨v, _, h⟩ | ⟨_, h⟩
          · exact Or.inr ⟨v, by unfold NormIf; rw [hb]; exact h⟩
          · exact Or.inl ⟨rfl, h⟩
      rcases norm with ⟨hb, h⟩ | ⟨u, hn⟩
      · exact ⟨_, .nfc q hb hq hqna rfl h⟩
      · have hus : ∀ c ∈ u, isScalar c := by
          unfold NormIf at hn
          split at hn
          · exact hn.scalar W.uni hq
          · rw [hn]; exact hq
        rcases fault_or W regTests hus with ⟨e, h⟩ | h
        · exact ⟨_, .fault q u e hq hqna rfl hn h⟩
        · by_cases hl : (Punycode.encode u).length ≤ 59
          · exact ⟨_, .ulabel q u hq hqna rfl hn h hl⟩
          · exact ⟨_, .tooLong q u _ hq hqna rfl hn h ⟨by omega, rfl⟩⟩
    · exact ⟨_, .malformed hw⟩

theorem decoding252_iff {p u : List Nat} (hp : p.length ≤ 59) :
    Punycode.Decoding 252 p (.ok u) ↔ Decodes p u := by
  rw [C62_decode_exact (phys := 252) p (.ok u) (by omega) (by omega), ← decodes_iff]
  simp only
  rw [decode_iff (by omega) (by omega), decode_iff (by omega) (by omega)]
  have short : Punycode.Encodable u → canonPuny p = Punycode.encode u → u.length ≤ 59 := by
    intro h1 h2
    have := length_le_encode (u := u) fun c hc => by have := (h1 c hc).1; omega
    rw [← h2, canonPuny_length] at this
    omega
  constructor
  · rintro ⟨h1, h2, h3, h4, h5⟩
    have := short h3 h2
    exact ⟨h1, h2, h3, h4, by omega⟩
  · rintro ⟨h1, h2, h3, h4, h5⟩
    exact ⟨h1, h2, h3, h4, by omega⟩

theorem registerA_total {E : Env} {D : Data} (W : World E D) (ul : Option (List Nat)) (a : List Nat) :
    ∃ r, RegisterA D E.U ul a r := by
  by_cases hl : a.length ≤ 63
  · by_cases hs : ∃ p, p ≠ [] ∧ a = xn ++ p ∧ ∀ c ∈ p, c < 0x80
    · obtain ⟨p, hp, ha, hpa⟩ := hs
      have hlp : p.length ≤ 59 := by
        rw [ha, List.length_append, show xn.length = 4 from rfl] at hl; omega
      obtain ⟨y, hy, _⟩ := C62_unique (cap := 252) p (by omega)
      cases y with
      | error e => exact ⟨_, .undecodable p e hl ha hp hpa hy⟩
      | ok u =>
        have hd := (decoding252_iff hlp).mp hy
        by_cases hu : ∀ c ∈ u, isScalar c
        · have hul : (∃ t, ul = some t ∧ t ≠ utf8s u) ∨ (ul = none ∨ ul = some (utf8s u)) := by
            cases ul with
            | none => exact Or.inr (Or.inl rfl)
            | some t =>
              by_cases ht : t = utf8s u
              · exact Or.inr (Or.inr (by rw [ht]))
              · exact Or.inl ⟨t, rfl, ht⟩
          rcases hul with ⟨t, h1, h2⟩ | hul
          · exact ⟨_, .other p u t hl ha hd hu h1 h2⟩
          · rcases fault_or W regTests hu with ⟨e, h⟩ | h
            · exact ⟨_, .fault p u e hl ha hd hu hul h⟩
            · by_cases hpe : p = Punycode.encode u
              · exact ⟨_, .alabel p u hl ha hd hu hul h hpe⟩
              · exact ⟨_, .differs p u hl ha hd hu hul h hpe⟩
        · exact ⟨_, .surrogate p u hl ha hd hu⟩
    · exact ⟨_, .shape hl hs⟩
  · exact ⟨_, .long (by omega)⟩

/-- The outcome as a result of a closed form. -/
def ofExcept {α : Type} : Except Rc α → Res α
  | .ok a => .ok a
  | .error e => .err e

theorem ofExcept_ok {α : Type} (a : α) : ofExcept (.ok a) = .ok a := rfl
theorem ofExcept_error {α : Type} (e : Rc) : (ofExcept (.error e) : Res α) = .err e := rfl

/-! ### The library agrees with them -/

theorem u8nfcP_normIf {E : Env} {D : Data} (W : World E D) {flags : Nat} {q u : List Nat}
    (hq : ∀ c ∈ q, isScalar c) (h : NormIf D E.U flags q u) :
    u8nfcP E (utf8s q) (has flags IDN2_NFC_INPUT) = .ok u ∧ ∀ c ∈ u, isScalar c := by
  rw [has_nfc]
  unfold NormIf at h
  cases hb : flags.testBit 0 with
  | true =>
    rw [hb] at h
    exact ⟨(u8nfcP_iff_norm W hq).mpr h, Norm.scalar W.uni h hq⟩
  | false =>
    rw [hb] at h
    simp only [Bool.false_eq_true, ↓reduceIte] at h
    subst h
    exact ⟨u8nfcP_false E hq, hq⟩

theorem encode_tooLong {v : List Nat} {e : Rc} (hv : ∀ c ∈ v, isScalar c) (h : TooLong v e) :
    punycode_encode 60 59 v = .err e := by
  cases hp : punycode_encode 60 59 v with
  | ub => exact absurd hp (C03_encode_safe v (by omega) (by omega))
  | ok y =>
    have := ((C04_encode_correct _ _ (by omega) (by omega)).mp hp)
    have h1 := h.1
    have h2 := this.2.2.2.2
    omega
  | err e' => rw [h.unique (encode_fail (by omega) (encodable_scalar hv) hp)]

theorem regUP_of {E : Env} {D : Data} (W : World E D) {flags : Nat} {t : List Nat}
    {r : Except Rc (List Nat)} (h : RegisterU D E.U flags t r) :
    regUP E t flags = ofExcept r := by
  unfold regUP
  cases h with
  | ascii h1 h2 => rw [if_pos ((ascii_p_iff _).mpr h1), if_neg (by omega)]; rfl
  | long h1 h2 => rw [if_pos ((ascii_p_iff _).mpr h1), if_pos (by omega)]; rfl
  | malformed h =>
    have hd : u8Decode t = none := by
      cases hd : u8Decode t with
      | none => rfl
      | some u => exact absurd ⟨u, u8Decode_some_iff.mp hd⟩ h
    have ha : ¬ ascii_p t = true := by
      rw [ascii_p_iff]
      intro ha
      exact h ⟨t, u8Decode_some_iff.mp (u8Decode_ascii ha)⟩
    unfold u8nfcP
    rw [if_neg ha, hd]
    rfl
  | nfc q hb hq hna ht hn =>
    subst ht
    rw [not_ascii_utf8s hq hna, has_nfc, hb]
    rcases u8nfcP_true W hq with ⟨v, _, h⟩ | ⟨h, _⟩
    · exact (h.not_fails hn).elim
    · rw [h]; rfl
  | fault q u e hq hna ht hn hf =>
    subst ht
    obtain ⟨h1, h2⟩ := u8nfcP_normIf W hq hn
    rw [not_ascii_utf8s hq hna, h1]
    simp only [Bool.false_eq_true, ↓reduceIte, Res.bind_ok]
    rw [registerMask_eq, (labelTestP_first W.tables fun c hc => isScalar_le (h2 c hc)).mpr hf]
    rfl
  | tooLong q u e hq hna ht hn hf hl =>
    subst ht
    obtain ⟨h1, h2⟩ := u8nfcP_normIf W hq hn
    rw [not_ascii_utf8s hq hna, h1]
    simp only [Bool.false_eq_true, ↓reduceIte, Res.bind_ok]
    rw [registerMask_eq,
      (labelTestP_ok_iff W.tables (fun c hc => isScalar_le (h2 c hc)) regTests).mpr hf, Res.bind_ok,
      encode_tooLong h2 hl]
    rfl
  | ulabel q u hq hna ht hn hf hl =>
    subst ht
    obtain ⟨h1, h2⟩ := u8nfcP_normIf W hq hn
    rw [not_ascii_utf8s hq hna, h1]
    simp only [Bool.false_eq_true, ↓reduceIte, Res.bind_ok]
    rw [registerMask_eq,
      (labelTestP_ok_iff W.tables (fun c hc => isScalar_le (h2 c hc)) regTests).mpr hf, Res.bind_ok,
      encode_ok_short (by omega) (by omega) (encodable_scalar h2) hl]
    rfl

theorem regAP_start {E : Env} {ul : Option (List Nat)} {p : List Nat} (hl : (xn ++ p).length ≤ 63)
    (hp : p ≠ []) (ha : ∀ c ∈ p, c < 0x80) :
    regAP E ul (xn ++ p) = (punycode_decode 1020 252 p >>= fun u =>
      match u8Encode u with
      | none => .err .encodingError
      | some s =>
        if ul.isSome && ul != some s then .err .ualabelMismatch
        else do
          let tmp ← regUP E s 0
          if xn ++ p ≠ tmp then .err .ualabelMismatch else .ok (xn ++ p)) := by
  have h4 : ¬ (xn ++ p).length ≤ 4 := by
    cases p with
    | nil => exact absurd rfl hp
    | cons x p => simp [xn]
  have hasc : ascii_p (xn ++ p) = true := by
    rw [ascii_p_iff]
    intro c hc
    rcases List.mem_append.mp hc with hc | hc
    · simp [xn] at hc; omega
    · exact ha c hc
  unfold regAP
  rw [if_neg (show ¬ (xn ++ p).length > 63 by omega), if_neg h4,
    if_neg (show ¬ (xn ++ p).take 4 ≠ acePrefix from fun h => h rfl), hasc]
  rfl

theorem decodes_nonempty {p u : List Nat} (h : Decodes p u) : p ≠ [] := by
  rintro rfl
  have h1 := h.canon
  obtain ⟨c, hc, _⟩ := h.nonascii
  have h2 := length_le_encode (u := u) fun c hc => by have := (h.encodable c hc).1; omega
  rw [← h1] at h2
  have : (canonPuny []).length = 0 := canonPuny_length []
  rw [this] at h2
  have : u = [] := List.eq_nil_of_length_eq_zero (by omega)
  subst this
  cases hc

theorem regAP_of {E : Env} {D : Data} (W : World E D) {ul : Option (List Nat)} {a : List Nat}
    {r : Except Rc (List Nat)} (h : RegisterA D E.U ul a r) :
    regAP E ul a = ofExcept r := by
  have hdec : ∀ {p u : List Nat}, a.length ≤ 63 → a = xn ++ p → Decodes p u → p ≠ [] ∧
      (∀ c ∈ p, c < 0x80) ∧ p.length ≤ 59 ∧ punycode_decode 1020 252 p = .ok u := by
    intro p u hl ha hd
    have hlp : p.length ≤ 59 := by
      rw [ha, List.length_append, show xn.length = 4 from rfl] at hl; omega
    exact ⟨decodes_nonempty hd, fun c hc => LDHU_lt (hd.chars c hc), hlp,
      (C62_decode_exact (phys := 1020) p (.ok u) (by omega) (by omega)).mp
        ((decoding252_iff hlp).mpr hd)⟩
  have hul : ∀ {u : List Nat}, (ul = none ∨ ul = some (utf8s u)) →
      (ul.isSome && ul != some (utf8s u)) = false := by
    rintro u (rfl | rfl) <;> simp
  have hna : ∀ {p u : List Nat}, Decodes p u → ∃ c ∈ u, 0x80 ≤ c := fun h => h.nonascii
  cases h with
  | long h => unfold regAP; rw [if_pos h]; rfl
  | shape hl hs =>
    unfold regAP
    rw [if_neg (show ¬ a.length > 63 by omega)]
    by_cases h4 : a.length ≤ 4
    · rw [if_pos h4]; rfl
    rw [if_neg h4]
    by_cases hx : a.take 4 ≠ acePrefix
    · rw [if_pos hx]; rfl
    rw [if_neg hx]
    have hx : a.take 4 = acePrefix := Classical.byContradiction hx
    have ha : a = xn ++ a.drop 4 := by
      rw [show xn = acePrefix from rfl, ← hx, List.take_append_drop]
    have hb : ascii_p a = false := by
      rw [Bool.eq_false_iff]
      intro hb
      rw [ascii_p_iff] at hb
      refine hs ⟨a.drop 4, ?_, ha, fun c hc => hb c (List.mem_of_mem_drop hc)⟩
      intro h
      have := congrArg List.length h
      rw [List.length_drop] at this
      simp at this
      omega
    rw [hb]
    rfl
  | undecodable p e hl ha hp hpa hd =>
    subst ha
    rw [regAP_start hl hp hpa,
      (C62_decode_exact (phys := 1020) p (.error e) (by omega) (by omega)).mp hd]
    rfl
  | surrogate p u hl ha hd hu =>
    obtain ⟨h1, h2, h3, h4⟩ := hdec hl ha hd
    subst ha
    rw [regAP_start hl h1 h2, h4, Res.bind_ok, u8Encode_none hu]
    rfl
  | other p u t hl ha hd hu ht hne =>
    obtain ⟨h1, h2, h3, h4⟩ := hdec hl ha hd
    subst ha
    rw [regAP_start hl h1 h2, h4, Res.bind_ok, u8Encode_utf8s hu]
    simp only
    rw [if_pos (by rw [ht]; simpa using hne)]
    rfl
  | fault p u e hl ha hd hu hul' hf =>
    obtain ⟨h1, h2, h3, h4⟩ := hdec hl ha hd
    subst ha
    have := regUP_of W (flags := 0) (RegisterU.fault u u e hu (hna hd) rfl (by unfold NormIf; simp) hf)
    rw [regAP_start hl h1 h2, h4, Res.bind_ok, u8Encode_utf8s hu]
    simp only
    rw [hul hul', this]
    rfl
  | differs p u hl ha hd hu hul' hf hpe =>
    obtain ⟨h1, h2, h3, h4⟩ := hdec hl ha hd
    subst ha
    have := regUP_of W (flags := 0) (RegisterU.ulabel u u hu (hna hd) rfl (by unfold NormIf; simp) hf
      (by rw [← hd.canon, canonPuny_length]; exact h3))
    rw [regAP_start hl h1 h2, h4, Res.bind_ok, u8Encode_utf8s hu]
    simp only
    rw [hul hul', this, ofExcept_ok]
    simp only [Bool.false_eq_true, ↓reduceIte, Res.bind_ok]
    rw [if_pos (fun h => hpe (xn_cancel h))]
    rfl
  | alabel p u hl ha hd hu hul' hf hpe =>
    obtain ⟨h1, h2, h3, h4⟩ := hdec hl ha hd
    subst ha
    have := regUP_of W (flags := 0) (RegisterU.ulabel u u hu (hna hd) rfl (by unfold NormIf; simp) hf
      (by rw [← hd.canon, canonPuny_length]; exact h3))
    rw [regAP_start hl h1 h2, h4, Res.bind_ok, u8Encode_utf8s hu]
    simp only
    rw [hul hul', this, ofExcept_ok]
    simp only [Bool.false_eq_true, ↓reduceIte, Res.bind_ok]
    rw [if_neg (fun h => h (by rw [← hpe]))]
    rfl

/-- C65.  Registration of a U-label: this is the outcome of the library if and only if it is the
outcome of the account, for all flags and all strings. -/
theorem C65_register_ulabel {E : Env} {D : Data} (W : World E D) (flags : Nat) (t : List Nat)
    (r : Except Rc (List Nat)) :
    RegIs E flags (some t) none r ↔ RegisterU D E.U flags t r := by
  have back : ∀ {r}, RegisterU D E.U flags t r → RegIs E flags (some t) none r := by
    intro r h
    have := regUP_of W h
    cases r with
    | ok n => exact RegOk_ul.mpr this
    | error e => exact RegErr_ul.mpr this
  refine ⟨fun h => ?_, back⟩
  obtain ⟨r', hr'⟩ := registerU_total W flags t
  rw [regIs_unique h (back hr')]
  exact hr'

/-- C66.  The same for an A-label, with or without a U-label. -/
theorem C66_register_alabel {E : Env} {D : Data} (W : World E D) (flags : Nat)
    (ul : Option (List Nat)) (a : List Nat) (r : Except Rc (List Nat)) :
    RegIs E flags ul (some a) r ↔ RegisterA D E.U ul a r := by
  have back : ∀ {r}, RegisterA D E.U ul a r → RegIs E flags ul (some a) r := by
    intro r h
    have := regAP_of W h
    cases r with
    | ok n => exact RegOk_al.mpr this
    | error e => exact RegErr_al.mpr this
  refine ⟨fun h => ?_, back⟩
  obtain ⟨r', hr'⟩ := registerA_total W ul a
  rw [regIs_unique h (back hr')]
  exact hr'

/-- C65, C66.  The accounts give one outcome. -/
theorem C65_unique {E : Env} {D : Data} (W : World E D) (flags : Nat) (t : List Nat) :
    ∃ r, RegisterU D E.U flags t r ∧ ∀ r', RegisterU D E.U flags t r' → r' = r := by
  obtain ⟨r, hr⟩ := registerU_total W flags t
  exact ⟨r, hr, fun r' hr' => regIs_unique ((C65_register_ulabel W flags t r').mpr hr')
    ((C65_register_ulabel W flags t r).mpr hr)⟩

theorem C66_unique {E : Env} {D : Data} (W : World E D) (ul : Option (List Nat)) (a : List Nat) :
    ∃ r, RegisterA D E.U ul a r ∧ ∀ r', RegisterA D E.U ul a r' → r' = r := by
  obtain ⟨r, hr⟩ := registerA_total W ul a
  exact ⟨r, hr, fun r' hr' => regIs_unique ((C66_register_alabel W 0 ul a r').mpr hr')
    ((C66_register_alabel W 0 ul a r).mpr hr)⟩

/-- "-Ă" begins with a hyphen and contains an unassigned code point (in the sample): the hyphen is
reported.  "xn--f-0Fa" decodes to "fä" but is not its encoding. -/
example : RegisterU Sample.D Sample.U 0 [0x2D, 0xC4, 0x82] (.error .hyphenStartEnd) ∧
    RegisterU Sample.D Sample.U 0 (List.replicate 60 0x61 ++ [0xC3, 0xA4]) (.error .punycodeBigOutput) ∧
    RegisterA Sample.D Sample.U (some [0x66, 0xC3, 0xA4]) (xn ++ [0x66, 0x2D, 0x30, 0x66, 0x61])
      (.ok (xn ++ [0x66, 0x2D, 0x30, 0x66, 0x61])) ∧
    RegisterA Sample.D Sample.U none (xn ++ [0x66, 0x2D, 0x30, 0x46, 0x61]) (.error .ualabelMismatch) ∧
    RegisterA Sample.D Sample.U none (xn ++ [0x61, 0x2D]) (.error .punycodeBadInput) := by
  have h : RegErr Sample.E 0 (some [0x2D, 0xC4, 0x82]) none .hyphenStartEnd ∧
      RegErr Sample.E 0 (some (List.replicate 60 0x61 ++ [0xC3, 0xA4])) none .punycodeBigOutput ∧
      RegOk Sample.E 0 (some [0x66, 0xC3, 0xA4]) (some (xn ++ [0x66, 0x2D, 0x30, 0x66, 0x61]))
        (xn ++ [0x66, 0x2D, 0x30, 0x66, 0x61]) ∧
      RegErr Sample.E 0 none (some (xn ++ [0x66, 0x2D, 0x30, 0x46, 0x61])) .ualabelMismatch ∧
      RegErr Sample.E 0 none (some (xn ++ [0x61, 0x2D])) .punycodeBadInput := by decide +kernel
  obtain ⟨h1, h2, h3, h4, h5⟩ := h
  have W := World.sample
  exact ⟨(C65_register_ulabel W 0 _ (.error _)).mp h1, (C65_register_ulabel W 0 _ (.error _)).mp h2,
    (C66_register_alabel W 0 _ _ (.ok _)).mp h3, (C66_register_alabel W 0 _ _ (.error _)).mp h4,
    (C66_register_alabel W 0 _ _ (.error _)).mp h5⟩

end Idn2
