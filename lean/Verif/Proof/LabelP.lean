import Verif.Proof.Tr46P
import Verif.Props.Puny

/-
Facts about one label in lookup: no undefined behaviour, and what success means.
-/

namespace Idn2
open Spec

theorem ascii_p_iff (s : List Nat) : ascii_p s = true ↔ ∀ c ∈ s, c < 0x80 := by
  unfold ascii_p; simp

/-! ### Shape of encodings -/

theorem digitChar_lower {d : Nat} (h : d < 36) : isLowerLDH (Punycode.digitChar d) := by
  unfold isLowerLDH Punycode.digitChar
  split <;> omega

theorem basics_length {p : List Nat} (hp : Punycode.Encodable p) :
    p.length = (Punycode.basics p).length + (Punycode.insertions p).length := by
  have h1 := ins_length (b := (Punycode.basics p).length) (Punycode.insertions p)
    (Punycode.init (Punycode.basics p).length) (Punycode.basics p) rfl (Punycode.chain_insertions p)
  rw [Punycode.foldl_insertions (fun x hx => by have := (hp x hx).1; omega)] at h1
  exact h1

/-- What a successful encoding looks like. -/
structure EncShape (cap : Nat) (p enc : List Nat) : Prop where
  chars : ∀ c ∈ enc, (c ∈ p ∧ c < 0x80) ∨ isLowerLDH c
  keep : ∀ c ∈ p, c < 0x80 → c ∈ enc
  cap : enc.length ≤ cap
  len : p.length ≤ enc.length
  encodable : Punycode.Encodable p
  basic : (∀ c ∈ p, c < 0x80) → enc = headOf p

theorem enc_shape {phys cap : Nat} {p enc : List Nat} (hp : cap ≤ phys)
    (h64 : cap < 18446744073709551616) (h : punycode_encode phys cap p = .ok enc) :
    EncShape cap p enc := by
  obtain ⟨rfl, _, h3, _, h5⟩ := (C04_encode_correct p enc hp h64).mp h
  refine ⟨?_, ?_, h5, ?_, h3, ?_⟩
  · intro c hc
    rw [encode_eq_head, List.mem_append, headOf, List.mem_append] at hc
    rcases hc with (hc | hc) | hc
    · left
      unfold Punycode.basics at hc
      simpa using hc
    · right
      split at hc
      · cases hc
      · rw [List.mem_singleton] at hc; subst hc; exact Or.inr (Or.inr rfl)
    · right
      rw [List.mem_map] at hc
      obtain ⟨d, hd, rfl⟩ := hc
      exact digitChar_lower (codes_lt _ _ d hd)
  · intro c hc hlt
    rw [encode_eq_head, headOf]
    have : c ∈ Punycode.basics p := by unfold Punycode.basics; simp [hc, hlt]
    simp [this]
  · rw [encode_eq_head, basics_length h3, List.length_append, List.length_map, headOf,
      List.length_append]
    have := codes_length_ge (b := (Punycode.basics p).length) (Punycode.insertions p)
      (Punycode.init (Punycode.basics p).length)
    omega
  · intro hb
    rw [encode_eq_head, Punycode.insertions_basic hb, Punycode.basics_basic hb]
    simp [Punycode.codes]

/-- A string that decodes is not empty and does not end with a hyphen. -/
theorem decode_last {phys cap : Nat} {s u : List Nat} (h32 : cap < 4294967295)
    (h : punycode_decode phys cap s = .ok u) : ∃ c, s.getLast? = some c ∧ c ≠ 0x2D := by
  obtain ⟨bs, ds, d⟩ := punycode_decode_sound h32 h
  rw [d.split]
  obtain ⟨c, hc⟩ : ∃ c, ds.getLast? = some c := by
    cases hl : ds.getLast? with
    | none => exact absurd (List.getLast?_eq_none_iff.mp hl) d.ne
    | some c => exact ⟨c, rfl⟩
  refine ⟨c, ?_, d.nodelim c (List.mem_of_getLast? hc)⟩
  rw [List.getLast?_append, hc]; rfl

/-! ### No undefined behaviour -/

theorem isNFCLoop_ne_ub {E : Env} {D : Data} (hI : Implements E.T D) {p : List Nat}
    (hp : ∀ c ∈ p, c ≤ 0x10FFFF) (skip : Bool) (last : Nat) (r : Int) :
    ∃ v, isNFCLoop E skip p last r = .ok v := by
  induction p generalizing skip last r with
  | nil => exact ⟨r, by cases skip <;> rfl⟩
  | cons c p ih =>
    have ih := ih (fun x hx => hp x (List.mem_cons_of_mem _ hx))
    cases skip with
    | true => exact ih false last r
    | false =>
      simp only [isNFCLoop]
      split
      · exact ⟨0, rfl⟩
      · rw [hI.nfcqc c (hp c List.mem_cons_self), Res.bind_ok]
        cases D.qc c with
        | none => exact ih _ _ _
        | some k =>
          simp only
          split
          · exact ⟨0, rfl⟩
          · exact ih _ _ _

theorem isNFC_ne_ub {E : Env} {D : Data} (hI : Implements E.T D) {p : List Nat}
    (hp : ∀ c ∈ p, c ≤ 0x10FFFF) : ∃ v, isNFC E p = .ok v :=
  isNFCLoop_ne_ub hI hp false 0 1

theorem labelTestP_ne_ub {E : Env} {D : Data} (hI : Implements E.T D) {p : List Nat}
    (hp : ∀ c ∈ p, c ≤ 0x10FFFF) (what : Nat) : labelTestP E what p ≠ .ub := by
  rcases blk_label_test hI what hp with ⟨h, _⟩ | ⟨e, h, _⟩ <;> rw [h] <;> simp

theorem labelTestP_ok_iff {E : Env} {D : Data} (hI : Implements E.T D) {p : List Nat}
    (hp : ∀ c ∈ p, c ≤ 0x10FFFF) (what : Nat) :
    labelTestP E what p = .ok () ↔ ∀ e, ¬ Fault D E.U what p e := by
  rcases blk_label_test hI what hp with ⟨h, h'⟩ | ⟨e, h, h'⟩
  · rw [h]; exact ⟨fun _ => h', fun _ => rfl⟩
  · rw [h]; exact ⟨fun h => (by cases h), fun h => absurd h' (h e)⟩

theorem u8nfcP_spec {E : Env} {D : Data} (hI : Implements E.T D) (hU : E.U.Laws) (src : List Nat)
    (nfc : Bool) : u8nfcP E src nfc ≠ .ub ∧ ∀ p, u8nfcP E src nfc = .ok p →
      (∀ c ∈ p, isScalar c) ∧ ∃ q, u8Decode src = some q ∧
        (p = q ∨ (nfc = true ∧ E.U.nfc q = some p)) := by
  unfold u8nfcP
  cases hq : u8Decode src with
  | none => simp
  | some q =>
    have hqs := u8Decode_isScalar hq
    simp only
    cases nfc with
    | false =>
      simp only [Bool.false_eq_true, ↓reduceIte]
      refine ⟨by simp, fun p h => ?_⟩
      injection h with h
      subst h
      exact ⟨hqs, q, rfl, Or.inl rfl⟩
    | true =>
      obtain ⟨v, hv⟩ := isNFC_ne_ub hI (fun c hc => isScalar_le (hqs c hc))
      simp only [↓reduceIte]
      rw [hv, Res.bind_ok]
      split
      · cases hx : E.U.nfc q with
        | none => simp
        | some t =>
          refine ⟨by simp, fun p h => ?_⟩
          injection h with h
          subst h
          exact ⟨hU.nfc_scalar q t hqs hx, q, rfl, Or.inr (by simp [hx])⟩
      · refine ⟨by simp, fun p h => ?_⟩
        injection h with h
        subst h
        exact ⟨hqs, q, rfl, Or.inl rfl⟩

/-- Lower-casing of strings. -/
def lowerS (s : List Nat) : List Nat := s.map c_tolower

theorem c_strncasecmp_spec {a b : List Nat} (h0 : 0 ∉ a) (hl : a.length = b.length) :
    c_strncasecmp a.length a b = .ok (lowerS a == lowerS b) := by
  induction a generalizing b with
  | nil =>
    cases b with
    | nil => rfl
    | cons => simp at hl
  | cons x a ih =>
    cases b with
    | nil => simp at hl
    | cons y b =>
      rw [List.mem_cons, not_or] at h0
      have hx0 : c_tolower x ≠ 0 := by
        unfold c_tolower; split <;> omega
      simp only [List.length_cons, Nat.add_right_cancel_iff] at hl
      have ih := ih h0.2 hl
      simp only [c_strncasecmp, List.length_cons]
      by_cases ha : a.length = 0
      · rw [if_pos (Or.inl ha)]
        have : a = [] := List.length_eq_zero_iff.mp ha
        subst this
        have : b = [] := List.length_eq_zero_iff.mp (by rw [← hl]; rfl)
        subst this
        simp [lowerS]
      · rw [if_neg (by rintro (h | h); exact ha h; exact hx0 h)]
        by_cases hxy : c_tolower x = c_tolower y
        · rw [if_pos hxy, ih]; simp [lowerS, hxy]
        · rw [if_neg hxy]; simp [lowerS, hxy]

theorem lowerS_length (s : List Nat) : (lowerS s).length = s.length := by simp [lowerS]

theorem labelFinish_ok_iff {rt : Option (List Nat)} {p dst : List Nat} {flags : Nat}
    (h0 : ∀ s, rt = some s → 0 ∉ s) :
    labelFinish rt p flags = .ok dst ↔ ∃ enc, punycode_encode 59 59 p = .ok enc ∧
      dst = acePrefix ++ enc ∧
      (∀ s, rt = some s → lowerS s = lowerS dst) ∧
      (rt = none → has flags IDN2_NO_ALABEL_ROUNDTRIP = false → punycode_decode 63 63 enc = .ok p) := by
  unfold labelFinish
  rw [Res.bind_eq_ok]
  constructor
  · rintro ⟨enc, he, h⟩
    refine ⟨enc, he, ?_⟩
    cases rt with
    | none =>
      simp only at h
      by_cases hf : has flags IDN2_NO_ALABEL_ROUNDTRIP = true
      · rw [if_pos hf] at h
        injection h with h
        refine ⟨h.symm, (by intro s hs; cases hs), ?_⟩
        intro _ hf'; rw [hf] at hf'; cases hf'
      · rw [if_neg hf] at h
        cases hd : punycode_decode 63 63 enc with
        | ub => rw [hd] at h; cases h
        | err e => rw [hd] at h; cases h
        | ok u =>
          rw [hd] at h
          simp only at h
          split at h
          · cases h
          · rename_i hne
            injection h with h
            refine ⟨h.symm, (by intro s hs; cases hs), fun _ _ => ?_⟩
            rw [not_or] at hne
            rw [Decidable.of_not_not hne.2]
    | some s =>
      simp only at h
      split at h
      · cases h
      · rename_i hl
        have hl := Decidable.of_not_not hl
        rw [c_strncasecmp_spec (h0 s rfl) hl, Res.bind_ok] at h
        split at h
        · rename_i hb
          injection h with h
          refine ⟨h.symm, ?_, by intro h; cases h⟩
          intro s' hs'
          injection hs' with hs'
          subst hs'
          rw [← h]; exact eq_of_beq hb
        · cases h
  · rintro ⟨enc, he, hd, hs, hn⟩
    refine ⟨enc, he, ?_⟩
    subst hd
    cases rt with
    | none =>
      simp only
      by_cases hf : has flags IDN2_NO_ALABEL_ROUNDTRIP = true
      · rw [if_pos hf]
      · rw [if_neg hf, hn rfl (by simpa using hf)]
        simp
    | some s =>
      simp only
      have hs := hs s rfl
      have hl : s.length = (acePrefix ++ enc).length := by
        rw [← lowerS_length s, hs, lowerS_length]
      rw [if_neg (by simpa using hl), c_strncasecmp_spec (h0 s rfl) hl, Res.bind_ok, if_pos]
      rw [hs]; simp

theorem labelFinish_ne_ub {rt : Option (List Nat)} {p : List Nat} {flags : Nat}
    (h0 : ∀ s, rt = some s → 0 ∉ s) : labelFinish rt p flags ≠ .ub := by
  unfold labelFinish
  have h1 := C03_encode_safe (phys := 59) (cap := 59) p (by omega) (by omega)
  cases he : punycode_encode 59 59 p with
  | ub => exact absurd he h1
  | err e => simp
  | ok enc =>
    rw [Res.bind_ok]
    cases rt with
    | none =>
      simp only
      split
      · simp
      · have h2 := C03_decode_safe (phys := 63) (cap := 63) enc (by omega) (by omega)
        cases hd : punycode_decode 63 63 enc with
        | ub => exact absurd hd h2
        | err e => simp
        | ok u => simp only; split <;> simp
    | some s =>
      simp only
      split
      · simp
      · rename_i hl
        rw [c_strncasecmp_spec (h0 s rfl) (Decidable.of_not_not hl), Res.bind_ok]
        split <;> simp

theorem labelConvertP_ne_ub {E : Env} {D : Data} (hI : Implements E.T D) (hU : E.U.Laws)
    {src : List Nat} {rt : Option (List Nat)} {flags : Nat} (h0 : ∀ s, rt = some s → 0 ∉ s) :
    labelConvertP E src rt flags ≠ .ub := by
  unfold labelConvertP
  obtain ⟨h1, h2⟩ := u8nfcP_spec hI hU src (has flags IDN2_NFC_INPUT)
  cases hp : u8nfcP E src (has flags IDN2_NFC_INPUT) with
  | ub => exact absurd hp h1
  | err e => simp
  | ok p =>
    have hs := (h2 p hp).1
    rw [Res.bind_ok]
    have : labelTestIf E flags p ≠ .ub := by
      unfold labelTestIf
      split
      · simp
      · exact labelTestP_ne_ub hI (fun c hc => isScalar_le (hs c hc)) _
    cases ht : labelTestIf E flags p with
    | ub => exact absurd ht this
    | err e => simp
    | ok _ => rw [Res.bind_ok]; exact labelFinish_ne_ub h0

theorem labelP_ne_ub {E : Env} {D : Data} (hI : Implements E.T D) (hU : E.U.Laws)
    {src : List Nat} (h0 : 0 ∉ src) (flags : Nat) : labelP E src flags ≠ .ub := by
  unfold labelP
  split
  · split
    · have h2 := C03_decode_safe (phys := 63) (cap := 63) (src.drop 4) (by omega) (by omega)
      cases hd : punycode_decode 63 63 (src.drop 4) with
      | ub => exact absurd hd h2
      | err e => simp
      | ok u =>
        rw [Res.bind_ok]
        cases u8Encode u with
        | none => simp
        | some s => exact labelConvertP_ne_ub hI hU (by intro s hs; injection hs with hs; subst hs; exact h0)
    · split <;> simp
  · exact labelConvertP_ne_ub hI hU (by intro s hs; cases hs)

theorem loopL_ne_ub {E : Env} {D : Data} (hI : Implements E.T D) (hU : E.U.Laws) (flags : Nat)
    {ls : List (List Nat)} (h0 : ∀ l ∈ ls, 0 ∉ l) (name : List Nat) : loopL E flags ls name ≠ .ub := by
  induction ls generalizing name with
  | nil => simp [loopL]
  | cons l ls ih =>
    have hl := labelP_ne_ub hI hU (h0 l List.mem_cons_self) flags
    by_cases hls : ls = []
    · subst hls
      simp only [loopL]
      cases hd : labelP E l flags with
      | ub => exact absurd hd hl
      | err e => simp
      | ok d =>
        rw [Res.bind_ok]
        by_cases hc : name.length + d.length > 255 - (if d.length = 0 then 1 else 2)
        · rw [if_pos hc]; simp
        · rw [if_neg hc]; simp
    · rw [loopL_cons hls]
      cases hd : labelP E l flags with
      | ub => exact absurd hd hl
      | err e => simp
      | ok d =>
        rw [Res.bind_ok]
        split
        · simp
        · exact ih (fun x hx => h0 x (List.mem_cons_of_mem _ hx)) _

theorem tr46LabelP_ne_ub {E : Env} {D : Data} (hI : Implements E.T D) {lbl : List Nat}
    (hs : ∀ c ∈ lbl, isScalar c) (flags : Nat) : tr46LabelP E flags lbl ≠ .ub := by
  unfold tr46LabelP
  have key : ∀ what p, (∀ c ∈ p, c ≤ 0x10FFFF) → asOpt (labelTestP E what p) ≠ .ub := by
    intro what p hp
    have := labelTestP_ne_ub hI hp what
    cases h : labelTestP E what p with
    | ub => exact absurd h this
    | err e => simp [asOpt]
    | ok _ => simp [asOpt]
  split
  · cases u8Encode (lbl.drop 4) with
    | none => simp
    | some a =>
      simp only
      have h2 := C03_decode_safe (phys := 63) (cap := 63) a (by omega) (by omega)
      cases hd : punycode_decode 63 63 a with
      | ub => exact absurd hd h2
      | err e => simp
      | ok u =>
        rw [Res.bind_ok]
        apply key
        intro c hc
        rcases (C05_decode_output (by omega) hd).1 c hc with h | h
        · have := h.1; unfold isLDHU at this; omega
        · omega
  · exact key _ _ (fun c hc => isScalar_le (hs c hc))

theorem tr46LabelsP_ne_ub {E : Env} {D : Data} (hI : Implements E.T D) {ls : List (List Nat)}
    (hs : ∀ l ∈ ls, ∀ c ∈ l, isScalar c) (flags : Nat) (err : Option Rc) :
    tr46LabelsP E flags ls err ≠ .ub := by
  induction ls generalizing err with
  | nil => simp [tr46LabelsP]
  | cons l ls ih =>
    simp only [tr46LabelsP]
    have h1 := tr46LabelP_ne_ub hI (hs l List.mem_cons_self) flags
    cases h : tr46LabelP E flags l with
    | ub => exact absurd h h1
    | err e => simp
    | ok rc => rw [Res.bind_ok]; exact ih (fun x hx => hs x (List.mem_cons_of_mem _ hx)) _

/-- Success of the label loop of `_tr46`. -/
theorem tr46LabelsP_none {E : Env} {flags : Nat} {ls : List (List Nat)} {err : Option Rc} :
    tr46LabelsP E flags ls err = .ok none ↔
      err = none ∧ ∀ l ∈ ls, tr46LabelP E flags l = .ok none := by
  induction ls generalizing err with
  | nil => simp [tr46LabelsP]
  | cons l ls ih =>
    simp only [tr46LabelsP, Res.bind_eq_ok, List.forall_mem_cons]
    constructor
    · rintro ⟨rc, h1, h2⟩
      rw [ih] at h2
      cases rc with
      | some e => simp at h2
      | none => exact ⟨h2.1, h1, h2.2⟩
    · rintro ⟨rfl, h1, h2⟩
      exact ⟨none, h1, ih.mpr ⟨rfl, h2⟩⟩

theorem tr46P_ne_ub {E : Env} {D : Data} (hI : Implements E.T D) (hU : E.U.Laws) (hD : D.Laws)
    (flags : Nat) (s : List Nat) : tr46P E D flags s ≠ .ub := by
  unfold tr46P
  cases hu : u8Decode s with
  | none => simp
  | some u =>
    simp only
    split
    · simp
    · split
      · simp
      · cases hx : E.U.nfc (mapText D flags u) with
        | none => simp
        | some x =>
          have hxs := hU.nfc_scalar _ x (mapText_scalar hD flags (u8Decode_isScalar hu)) hx
          simp only
          have := tr46LabelsP_ne_ub (ls := splitDot x) hI
            (fun l hl c hc => hxs c (mem_of_mem_splitDot hl hc)) flags none
          cases h : tr46LabelsP E flags (splitDot x) none with
          | ub => exact absurd h this
          | err e => simp
          | ok rc =>
            rw [Res.bind_ok]
            cases rc with
            | some e => simp
            | none => cases u8Encode x <;> simp

/-- What success of `_tr46` means. -/
theorem tr46P_ok_iff {E : Env} {D : Data} {flags : Nat} {s o : List Nat} :
    tr46P E D flags s = .ok o ↔ ∃ u x, u8Decode s = some u ∧
      (∀ c ∈ u, D.status c ≠ .disallowed) ∧ (mapText D flags u).length < 255 ∧
      E.U.nfc (mapText D flags u) = some x ∧ (∀ l ∈ splitDot x, tr46LabelP E flags l = .ok none) ∧
      u8Encode x = some o := by
  unfold tr46P
  constructor
  · intro h
    cases hu : u8Decode s with
    | none => rw [hu] at h; cases h
    | some u =>
      rw [hu] at h
      simp only at h
      split at h
      · cases h
      · rename_i hdis
        split at h
        · cases h
        · rename_i hlen
          cases hx : E.U.nfc (mapText D flags u) with
          | none => rw [hx] at h; cases h
          | some x =>
            rw [hx] at h
            obtain ⟨rc, h1, h2⟩ := Res.bind_eq_ok.mp h
            cases rc with
            | some e => cases h2
            | none =>
              cases ho : u8Encode x with
              | none => rw [ho] at h2; cases h2
              | some o' =>
                rw [ho] at h2
                injection h2 with h2
                subst h2
                refine ⟨u, x, rfl, ?_, by omega, hx, (tr46LabelsP_none.mp h1).2, ho⟩
                intro c hc hd
                exact hdis ⟨c, hc, hd⟩
  · rintro ⟨u, x, hu, hdis, hlen, hx, hl, ho⟩
    rw [hu]
    simp only
    rw [if_neg (by rintro ⟨c, hc, hd⟩; exact hdis c hc hd), if_neg (by omega), hx]
    simp only
    rw [tr46LabelsP_none.mpr ⟨rfl, hl⟩, Res.bind_ok]
    simp only
    rw [ho]

theorem lookupP_ne_ub {E : Env} {D : Data} (hI : Implements E.T D) (hU : E.U.Laws) (hD : D.Laws)
    (flags : Nat) {s : List Nat} (h0 : 0 ∉ s) : lookupP E D flags s ≠ .ub := by
  unfold lookupP
  have key : ∀ src : List Nat, 0 ∉ src → loopL E flags (splitDot src) [] ≠ .ub :=
    fun src h => loopL_ne_ub hI hU flags (fun l hl hc => h (mem_of_mem_splitDot hl hc)) []
  split
  · rw [Res.bind_ok]; exact key s h0
  · have h1 := tr46P_ne_ub hI hU hD flags s
    cases h : tr46P E D flags s with
    | ub => exact absurd h h1
    | err e => simp
    | ok o => rw [Res.bind_ok]; exact key o (tr46P_zero hU hD h0 h)

/-- The labels of an encoded name are the encoded labels. -/
theorem splitDot_u8Encode {x o : List Nat} (h : u8Encode x = some o) :
    (splitDot x).map u8Encode = (splitDot o).map some := by
  generalize hn : x.length = n
  induction n using Nat.strongRecOn generalizing x o with
  | _ n ih =>
    have hsp : x = x.takeWhile (· != 0x2E) ++ x.dropWhile (· != 0x2E) :=
      (List.takeWhile_append_dropWhile).symm
    rw [hsp, u8Encode_append] at h
    have hnd := mem_takeWhile_ne (d := 0x2E) x
    rw [splitDot_eq x]
    cases ht : u8Encode (x.takeWhile (· != 0x2E)) with
    | none => rw [ht] at h; simp at h
    | some a =>
      rw [ht] at h
      have ha : 0x2E ∉ a := fun hc => hnd ((mem_u8Encode_ascii ht (by omega)).mp hc)
      cases hx : x.dropWhile (· != 0x2E) with
      | nil =>
        rw [hx] at h
        simp [u8Encode] at h
        subst h
        simp only [List.map_cons, List.map_nil, ht, splitDot_nodot ha]
      | cons c r =>
        have hc0 : c = 0x2E := by
          have := List.head_dropWhile_not (p := (· != 0x2E)) (l := x) (by rw [hx]; simp)
          simp only [hx, List.head_cons] at this
          simpa using this
        subst hc0
        rw [hx, show (0x2E :: r : List Nat) = [0x2E] ++ r from rfl, u8Encode_append,
          u8Encode_ascii (u := [0x2E]) (by simp)] at h
        cases hr : u8Encode r with
        | none => rw [hr] at h; simp at h
        | some b =>
          rw [hr] at h
          simp at h
          subst h
          have := dropWhile_length_le (· != 0x2E) x
          rw [hx, List.length_cons] at this
          rw [splitDot_append_dot ha]
          simp only [List.map_cons, ht, ih r.length (by omega) hr rfl]

/-! ### What success of `label` means -/

/-- `p` is the decoded form of an A-label `xn--enc` that lookup produces. -/
structure Converted (E : Env) (flags : Nat) (p enc : List Nat) : Prop where
  scalar : ∀ c ∈ p, isScalar c
  test : labelTestIf E flags p = .ok ()
  encode : punycode_encode 59 59 p = .ok enc
  dec : has flags IDN2_NO_ALABEL_ROUNDTRIP = false → punycode_decode 63 63 enc = .ok p

theorem c_tolower_hyphen {c : Nat} (h : c_tolower c = 0x2D) : c = 0x2D := by
  unfold c_tolower at h; split at h <;> omega

theorem c_tolower_LDHU {c d : Nat} (h : c_tolower c = c_tolower d) (hd : isLDHU d) : isLDHU c := by
  unfold c_tolower at h; unfold isLDHU at *; split at h <;> split at h <;> omega

theorem lowerS_append_cancel {a b c : List Nat} (h : lowerS (a ++ b) = lowerS (a ++ c)) :
    lowerS b = lowerS c := by
  unfold lowerS at *
  rw [List.map_append, List.map_append] at h
  exact List.append_cancel_left h

theorem lowerS_mem {a b : List Nat} (h : lowerS a = lowerS b) {c : Nat} (hc : c ∈ a) :
    ∃ d ∈ b, c_tolower c = c_tolower d := by
  have : c_tolower c ∈ lowerS b := by
    rw [← h]; exact List.mem_map_of_mem hc
  obtain ⟨d, hd, he⟩ := List.mem_map.mp this
  exact ⟨d, hd, he.symm⟩

theorem lowerS_getLast {a b : List Nat} (h : lowerS a = lowerS b) {c : Nat}
    (hc : a.getLast? = some c) : ∃ d, b.getLast? = some d ∧ c_tolower c = c_tolower d := by
  have h1 : (lowerS a).getLast? = some (c_tolower c) := by
    unfold lowerS; rw [List.getLast?_map, hc]; rfl
  rw [h] at h1
  unfold lowerS at h1
  rw [List.getLast?_map] at h1
  cases hb : b.getLast? with
  | none => rw [hb] at h1; simp at h1
  | some d =>
    rw [hb] at h1
    simp at h1
    exact ⟨d, rfl, h1.symm⟩

/-- The re-encoded form of a decoded A-label decodes again. -/
theorem redecode {t u p enc : List Nat} (h : punycode_decode 63 63 t = .ok u)
    (he : punycode_encode 59 59 p = .ok enc) (hl : lowerS t = lowerS enc) :
    punycode_decode 63 63 enc = .ok p := by
  have hsh := enc_shape (by omega) (by omega) he
  obtain ⟨bs, ds, d⟩ := punycode_decode_sound (by rw [maxint_def]; omega) h
  have hna : ∃ c ∈ p, 0x80 ≤ c := by
    apply Classical.byContradiction
    intro hn
    have hb : ∀ c ∈ p, c < 0x80 := by
      intro c hc
      apply Classical.byContradiction
      intro hlt
      exact hn ⟨c, hc, by omega⟩
    have := hsh.basic hb
    obtain ⟨c, hc, hne⟩ := decode_last (by omega) h
    obtain ⟨d, hd, hcd⟩ := lowerS_getLast hl hc
    rw [this] at hd
    unfold headOf at hd
    split at hd
    · rename_i hp; subst hp; simp at hd
    · rw [List.getLast?_append] at hd
      simp at hd
      subst hd
      exact hne (c_tolower_hyphen hcd)
  have hld : ∀ c ∈ p, c < 0x80 → isLDHU c := by
    intro c hc hlt
    obtain ⟨x, hx, hxc⟩ := lowerS_mem hl.symm (hsh.keep c hc hlt)
    exact c_tolower_LDHU hxc ((decBasic_iff x).mp (d.basic x hx))
  have h1 := hsh.len
  have h2 := hsh.cap
  rcases C01_punycode_roundtrip (physE := 59) (capE := 59) (physD := 63) (capD := 63) (by omega)
    (by omega) (by omega) (by omega) (by omega) hld hna he with h | h
  · exact h
  · omega

theorem isAce_iff {flags : Nat} {src : List Nat} : isAce flags src = true ↔
    has flags IDN2_NO_ALABEL_ROUNDTRIP = false ∧ ∃ t, src = acePrefix ++ t := by
  unfold isAce
  simp only [Bool.and_eq_true, Bool.not_eq_true', decide_eq_true_eq, beq_iff_eq]
  constructor
  · rintro ⟨⟨h1, _⟩, h3⟩
    refine ⟨h1, src.drop 4, ?_⟩
    rw [← h3, List.take_append_drop]
  · rintro ⟨h1, t, rfl⟩
    exact ⟨⟨h1, by simp [acePrefix]⟩, by simp [acePrefix]⟩

/-- What success of `label` means. -/
theorem labelP_ok_iff {E : Env} {D : Data} (hI : Implements E.T D) (hU : E.U.Laws)
    {src dst : List Nat} (h0 : 0 ∉ src) {flags : Nat} : labelP E src flags = .ok dst ↔
      ((∀ c ∈ src, c < 0x80) ∧ isAce flags src = false ∧ src.length ≤ 63 ∧ dst = src) ∨
      ((∀ c ∈ src, c < 0x80) ∧ has flags IDN2_NO_ALABEL_ROUNDTRIP = false ∧
        ∃ t u src8 p enc, src = acePrefix ++ t ∧ punycode_decode 63 63 t = .ok u ∧
          u8Encode u = some src8 ∧ u8nfcP E src8 (has flags IDN2_NFC_INPUT) = .ok p ∧
          Converted E flags p enc ∧ dst = acePrefix ++ enc ∧ lowerS t = lowerS enc) ∨
      ((¬ ∀ c ∈ src, c < 0x80) ∧
        ∃ p enc, u8nfcP E src (has flags IDN2_NFC_INPUT) = .ok p ∧
          Converted E flags p enc ∧ dst = acePrefix ++ enc) := by
  unfold labelP
  by_cases ha : ∀ c ∈ src, c < 0x80
  · rw [if_pos ((ascii_p_iff src).mpr ha)]
    cases hace : isAce flags src with
    | false =>
      simp only [Bool.false_eq_true, ↓reduceIte]
      have hno : ¬ (has flags IDN2_NO_ALABEL_ROUNDTRIP = false ∧ ∃ t, src = acePrefix ++ t) := by
        rw [← isAce_iff, hace]; simp
      constructor
      · intro h
        split at h
        · cases h
        · injection h with h
          exact Or.inl ⟨ha, trivial, by omega, h.symm⟩
      · rintro (⟨_, _, h, rfl⟩ | ⟨_, h, t, _, _, _, _, h', _⟩ | ⟨h, _⟩)
        · rw [if_neg (by omega)]
        · exact absurd ⟨h, t, h'⟩ hno
        · exact absurd ha h
    | true =>
      obtain ⟨hrt, t, rfl⟩ := isAce_iff.mp hace
      simp only [↓reduceIte, Res.bind_eq_ok]
      have hdrop : (acePrefix ++ t).drop 4 = t := by simp [acePrefix]
      rw [hdrop]
      constructor
      · rintro ⟨u, hu, h⟩
        cases h8 : u8Encode u with
        | none => rw [h8] at h; cases h
        | some src8 =>
          rw [h8] at h
          unfold labelConvertP at h
          obtain ⟨p, hp, h⟩ := Res.bind_eq_ok.mp h
          obtain ⟨_, ht, h⟩ := Res.bind_eq_ok.mp h
          obtain ⟨enc, he, hd, hr, _⟩ := (labelFinish_ok_iff (by
            intro s hs; injection hs with hs; subst hs; exact h0)).mp h
          have hl := hr _ rfl
          rw [hd] at hl
          have hl := lowerS_append_cancel hl
          exact Or.inr (Or.inl ⟨ha, hrt, t, u, src8, p, enc, rfl, hu, h8, hp,
            ⟨((u8nfcP_spec hI hU _ _).2 p hp).1, ht, he, fun _ => redecode hu he hl⟩, hd, hl⟩)
      · rintro (⟨_, h, _⟩ | ⟨_, _, t', u, src8, p, enc, h1, hu, h8, hp, hc, hd, hl⟩ | ⟨h, _⟩)
        · cases h
        · have := List.append_cancel_left h1
          subst this
          refine ⟨u, hu, ?_⟩
          rw [h8]
          unfold labelConvertP
          rw [Res.bind_eq_ok]
          refine ⟨p, hp, Res.bind_eq_ok.mpr ⟨(), hc.test, ?_⟩⟩
          refine (labelFinish_ok_iff (by
            intro s hs; injection hs with hs; subst hs; exact h0)).mpr ⟨enc, hc.encode, hd, ?_, ?_⟩
          · intro s hs
            injection hs with hs
            subst hs
            rw [hd]
            unfold lowerS at hl ⊢
            rw [List.map_append, List.map_append, hl]
          · intro h; cases h
        · exact absurd ha h
  · have : ascii_p src ≠ true := fun h => ha ((ascii_p_iff src).mp h)
    rw [if_neg this]
    unfold labelConvertP
    rw [Res.bind_eq_ok]
    constructor
    · rintro ⟨p, hp, h⟩
      obtain ⟨_, ht, h⟩ := Res.bind_eq_ok.mp h
      obtain ⟨enc, he, hd, _, hr⟩ := (labelFinish_ok_iff (by intro s hs; cases hs)).mp h
      exact Or.inr (Or.inr ⟨ha, p, enc, hp, ⟨((u8nfcP_spec hI hU _ _).2 p hp).1, ht, he, hr rfl⟩, hd⟩)
    · rintro (⟨h, _⟩ | ⟨h, _⟩ | ⟨_, p, enc, hp, hc, hd⟩)
      · exact absurd h ha
      · exact absurd h ha
      · refine ⟨p, hp, Res.bind_eq_ok.mpr ⟨(), hc.test, ?_⟩⟩
        exact (labelFinish_ok_iff (by intro s hs; cases hs)).mpr
          ⟨enc, hc.encode, hd, (by intro s hs; cases hs), fun _ => hc.dec⟩

end Idn2
