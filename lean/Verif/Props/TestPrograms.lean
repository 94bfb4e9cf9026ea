import Verif.Model.TestPrograms
import Verif.Model.Error
import Verif.Model.Puny
import Verif.Spec.TestPrograms
import Verif.Proof.DecodeP
import Verif.Props.Register
import Verif.Props.Entry
import Verif.Props.PunyAscii

/-
Property C95: what the exit status of the other test programs says about the library.
-/

namespace Idn2

open Spec Spec.TestPrograms

namespace TestPrograms

/-! ### test-register.c -/

private theorem registerRow_spec {reg : RegLib} {lk : LookLib} (hr : RegSets reg) (hl : LookSets lk)
    {row : RegRow} (h : row.rc = none → (∃ s, row.ulabel = some s ∧ 0 ∉ s) ∧ row.out ≠ none) :
    ∃ b, registerRow reg lk row = .val b ∧
      (b = true ↔ RegMeets reg lk row.ulabel row.alabel row.out row.rc row.flags) := by
  obtain ⟨al, ul, out, rc, f⟩ := row
  simp only at h
  unfold registerRow RegMeets
  simp only
  cases rc with
  | some e =>
    generalize reg ul al (some (.old 0x1234)) f = r
    obtain ⟨r1, r2⟩ := r
    by_cases h1 : r1 = some e
    · subst h1
      simp [pure]
    · simp [h1, pure]
  | none =>
    obtain ⟨⟨s, rfl, hs⟩, ho⟩ := h rfl
    cases out with
    | none => exact absurd rfl ho
    | some n =>
    have h1 := hr (some s) al (.old 0x1234) f (Or.inl (by simp))
    have h2 := hl s (.old 0) f hs
    revert h1 h2
    generalize reg (some s) al (some (.old 0x1234)) f = r
    generalize lk (some s) (some (.old 0)) f = l
    intro h1 h2
    obtain ⟨r1, r2⟩ := r
    obtain ⟨l1, l2⟩ := l
    simp only at h1 h2
    cases r1 with
    | some e => exact ⟨false, by simp [pure], by simp⟩
    | none =>
      obtain ⟨p, m, rfl⟩ := h1 rfl
      by_cases hm : m = n
      · subst hm
        cases l1 with
        | some e => exact ⟨false, by simp [pure, bind, Out.bind, strEq], by simp⟩
        | none =>
          obtain ⟨q, k, rfl⟩ := h2 rfl
          refine ⟨decide (m = k), by simp [pure, bind, Out.bind, strEq, pointee], ?_⟩
          simp only [decide_eq_true_eq]
          constructor
          · rintro rfl; exact ⟨m, p, q, rfl, rfl, rfl⟩
          · rintro ⟨n', p', q', h3, h4, h5⟩
            simp only [Option.some.injEq, Prod.mk.injEq, Cell.buf.injEq, true_and] at h3 h5
            rw [h5.2, h3]
      · refine ⟨false, by simp [pure, bind, Out.bind, strEq, hm], ?_⟩
        simp only [Bool.false_eq_true, false_iff]
        rintro ⟨n', p', q', h3, h4, h5⟩
        simp only [Option.some.injEq, Prod.mk.injEq, Cell.buf.injEq, true_and] at h3 h4
        exact hm (h4.2.trans h3.symm)

private theorem registerRows_spec {reg : RegLib} {lk : LookLib} (hr : RegSets reg) (hl : LookSets lk)
    {rows : List RegRow}
    (h : ∀ row ∈ rows, row.rc = none → (∃ s, row.ulabel = some s ∧ 0 ∉ s) ∧ row.out ≠ none) :
    ∃ b, registerRows reg lk rows = .val b ∧
      (b = true ↔ ∀ row ∈ rows, RegMeets reg lk row.ulabel row.alabel row.out row.rc row.flags) := by
  induction rows with
  | nil => exact ⟨true, rfl, by simp⟩
  | cons row r ih =>
    obtain ⟨b, hb, hb'⟩ := registerRow_spec hr hl (h row (by simp))
    obtain ⟨c, hc, hc'⟩ := ih fun x hx => h x (by simp [hx])
    unfold registerRows
    rw [hb]
    cases b with
    | false =>
      refine ⟨false, rfl, ?_⟩
      simp only [Bool.false_eq_true, false_iff] at hb' ⊢
      exact fun hh => hb' (hh row (by simp))
    | true =>
      refine ⟨c, by simpa [bind, Out.bind] using hc, ?_⟩
      rw [hc']
      simp only [true_iff] at hb'
      simp [hb']

private theorem registerSpecial_spec {reg regl : RegLib} :
    registerSpecial reg regl = true ↔ RegSpecial reg regl := by
  unfold registerSpecial RegSpecial
  simp only [Bool.and_eq_true, decide_eq_true_eq]
  have hf : utf8s [0x66, 0x61, 0xDF] = fass := by decide
  rw [hf]
  show _ ↔ _ ∧ _ ∧ reg none (some badPrefix) (some .null) 0 = _ ∧
    reg none (some badByte) (some .null) 0 = _ ∧ _ ∧ (reg (some fass) none none IDN2_NFC_INPUT).1 = none
  constructor
  · rintro ⟨⟨⟨⟨⟨⟨⟨⟨h1, h2⟩, h3⟩, h4⟩, h5⟩, h6⟩, h7⟩, h8⟩, h9⟩
    rw [h3] at h4 h5 h6 h7
    rw [h5] at h6 h7
    exact ⟨h1, Prod.ext h2 h3, Prod.ext h4 h5, Prod.ext h6 h7, h8, h9⟩
  · rintro ⟨h1, h2, h3, h4, h5, h6⟩
    simp only [h2, h3, h4, h1, h5, h6, and_self]

/-- C95: for functions that set their output parameter when they succeed, and a table in which every row
that is to succeed has a U-label and a result, tests/test-register.c ends with 0 exactly when every row
and every one of the special calls gives what it asks for, and with 1 otherwise. -/
theorem C95_register {reg : RegLib} (regl : RegLib) {lk : LookLib} (hr : RegSets reg)
    (hl : LookSets lk) {rows : List RegRow}
    (h : ∀ row ∈ rows, row.rc = none → (∃ s, row.ulabel = some s ∧ 0 ∉ s) ∧ row.out ≠ none) :
    ∃ c, registerMain reg regl lk rows = .val c ∧ (c = 0 ∨ c = 1) ∧
      (c = 0 ↔ (∀ row ∈ rows, RegMeets reg lk row.ulabel row.alabel row.out row.rc row.flags) ∧
        RegSpecial reg regl) := by
  obtain ⟨b, hb, hb'⟩ := registerRows_spec hr hl h
  unfold registerMain
  rw [hb, ← hb', ← registerSpecial_spec]
  cases b <;> cases registerSpecial reg regl <;> simp [bind, Out.bind, pure]

/-- C95 is false for functions that do not set their output parameter: the program compares the string
before it looks whether there is one (test-register.c:149 and 155), so that its end is undefined where it
should be a failure. -/
theorem C95_register_violated (regl : RegLib) (lk : LookLib) :
    registerMain (fun _ _ c _ => (none, c)) regl lk
      [{ alabel := none, ulabel := some [0x61], out := some [0x61], rc := none, flags := 0 }] = .ub := by
  rfl

/-- The library itself. -/
def regOf (E : Env) : RegLib := fun ul al c f =>
  match (idn2_register_u8 E ul al c f : Out _) with
  | .val r => r
  | .ub => (some .malloc, c)

/-- The library itself. -/
def lookOf (E : Env) : LookLib := fun s c f =>
  match (idn2_lookup_u8 E s c f : Out _) with
  | .val r => r
  | .ub => (some .malloc, c)

/-- C95 speaks of the library, too: it sets the output parameter when it succeeds. -/
theorem C95_register_library {E : Env} {D : Data} (W : World E D) :
    RegSets (regOf E) ∧ LookSets (lookOf E) ∧
    (∀ ul al c f, (idn2_register_u8 E ul al c f : Out _) = .val (regOf E ul al c f)) ∧
    ∀ s c f, 0 ∉ s → (idn2_lookup_u8 E (some s) c f : Out _) = .val (lookOf E (some s) c f) := by
  have hret : ∀ {c : Cell} {r : Res (List Nat)} {x : Option Rc × Option Cell},
      retOf (some c) r = .val x → x.1 = none → ∃ p n, x.2 = some (.buf p n) := by
    intro c r x h hx
    cases r with
    | ub => simp [retOf] at h
    | err e =>
      simp only [retOf, Out.val.injEq] at h
      rw [← h] at hx
      cases hx
    | ok n =>
      simp only [retOf, Out.val.injEq] at h
      exact ⟨0, n, by rw [← h]; rfl⟩
  have hreg : ∀ ul al c f, (idn2_register_u8 E ul al c f : Out _) = .val (regOf E ul al c f) := by
    intro ul al c f
    have := (C24_register_output W f ul al c).1
    unfold regOf
    split
    · assumption
    · contradiction
  have hlook : ∀ s c f, 0 ∉ s →
      (idn2_lookup_u8 E (some s) c f : Out _) = .val (lookOf E (some s) c f) := by
    intro s c f h0
    have hr := lookupF_ne_ub W f h0
    unfold lookOf
    rw [lookup_retOf W f h0]
    revert hr
    cases lookupF E D f s <;> simp [retOf]
  refine ⟨?_, ?_, hreg, hlook⟩
  · intro ul al c f hu h
    cases al with
    | some a =>
      have e := hreg ul (some a) (some c) f
      have : (idn2_register_u8 E ul (some a) (some c) f : Out _) = registerAlabel E ul a (some c) := by
        cases ul <;> rfl
      rw [this, regA_out] at e
      exact hret e h
    | none =>
      cases ul with
      | none => simp at hu
      | some s =>
        have e := hreg (some s) none (some c) f
        have : (idn2_register_u8 E (some s) none (some c) f : Out _) = registerUlabel E s (some c) f := rfl
        rw [this, regU_out] at e
        exact hret e h
  · intro s c f h0 h
    have e := hlook s (some c) f h0
    rw [lookup_retOf W f h0] at e
    exact hret e h

/-- The special calls of the library, but for the last, are as asked for whatever the tables are. -/
theorem C95_special_library {E : Env} : RegSpecial (regOf E) (fun ul al c f =>
      match (idn2_register_ul E ul al c f : Out _) with
      | .val r => r
      | .ub => (some .malloc, c)) ↔
    (regOf E (some (utf8s [0x66, 0x61, 0xDF])) none none 1).1 = none := by
  unfold RegSpecial
  constructor
  · exact fun h => h.2.2.2.2.2
  · intro h
    exact ⟨rfl, rfl, rfl, rfl, rfl, h⟩

/-- A register function that copies U-labels, and a lookup function that does. -/
private def copyReg : RegLib := fun ul al c _ =>
  match ul, al, c with
  | none, none, some _ => (none, some .null)
  | none, none, none => (none, none)
  | some s, _, some _ => (none, some (.buf 0 s))
  | some _, _, none => (none, none)
  | none, some _, c => (some .invalidAlabel, c)

private def copyLook : LookLib := fun s c _ =>
  match s, c with
  | some s, some _ => (none, some (.buf 1 s))
  | _, c => (none, c)

example : registerMain copyReg copyReg copyLook
    [{ alabel := none, ulabel := some [0x61], out := some [0x61], rc := none, flags := 0 },
     { alabel := some [0x61], ulabel := none, out := none, rc := some .invalidAlabel, flags := 0 }] =
    .val 0 := by decide

example : registerMain copyReg copyReg copyLook
    [{ alabel := none, ulabel := some [0x61], out := some [0x62], rc := none, flags := 0 }] = .val 1 := by
  decide

example : registerMain copyReg copyReg copyLook
    [{ alabel := some [0x61], ulabel := none, out := none, rc := some .ualabelMismatch, flags := 0 }] =
    .val 1 := by
  decide

/-! ### test-tounicode.c -/

/-- What the program takes for granted about the results for a row: strings in UTF-8 are well-formed, the
locale's encoding can be converted, and the array has room for the code points and one more element. -/
structure UniSane (L : UniLib) (conv : List Nat → Option (List Nat)) (t : UniRow) : Prop where
  array : ∀ w u, L.f44i w = .ok u → u.length ≤ 127
  utf8 : ∀ b, L.f8z8z t.punycode = .ok b → WellFormed b
  locale : ∀ l, L.f8zlz t.punycode = .ok l → ∃ b, conv l = some b ∧ WellFormed b
  both : ∀ l, L.flzlz t.punycode = .ok l → ∃ b, conv l = some b ∧ WellFormed b

/-- What a row asks of the six functions. -/
def UniRowMeets (L : UniLib) (utf8 : Bool) (conv : List Nat → Option (List Nat)) (t : UniRow) : Prop :=
  UniMeets t.expected t.rc (L.f8z4z t.punycode) ∧
  (∀ w, (∀ c ∈ w, isScalar c) → t.punycode = utf8s w →
    UniMeets t.expected t.rc (L.f4z4z w) ∧ UniMeets t.expected t.rc (L.f44i w)) ∧
  UniMeets (utf8s t.expected) t.rc (L.f8z8z t.punycode) ∧
  (utf8 = true →
    UniMeets (utf8s t.expected) t.rc (mapOk (fun l => (conv l).getD []) (L.f8zlz t.punycode)) ∧
    UniMeets (utf8s t.expected) t.rc (mapOk (fun l => (conv l).getD []) (L.flzlz t.punycode)))

/-- The counter stays the same exactly when `P` holds. -/
private def Step (f : Nat → Out Nat) (P : Prop) : Prop :=
  ∀ n, ∃ m, f n = .val m ∧ n ≤ m ∧ (m = n ↔ P)

private theorem step_seq {f g : Nat → Out Nat} {P Q : Prop} (hf : Step f P) (hg : Step g Q) :
    Step (fun n => (f n).bind g) (P ∧ Q) := by
  intro n
  obtain ⟨m, h1, h2, h3⟩ := hf n
  obtain ⟨k, h4, h5, h6⟩ := hg m
  refine ⟨k, ?_, by omega, ?_⟩
  · simp only [h1, Out.bind, h4]
  · rw [← h3, ← h6]
    omega

private theorem step_err (t : UniRow) (e : Rc) (x : Option (List Nat)) :
    Step (check_4z t (some e) x) (t.rc = some e ∨ (e = .iconvFail ∧ t.rc = some .encodingError)) := by
  intro n
  unfold check_4z
  by_cases h1 : t.rc = some e
  · exact ⟨n, by simp [h1], by omega, by simp [h1]⟩
  · by_cases h2 : e = .iconvFail ∧ t.rc = some .encodingError
    · exact ⟨n, by simp [h2.1, h2.2], by omega, by simp [h2]⟩
    · refine ⟨n + 1, ?_, by omega, by simp only [h1, h2]; simp⟩
      rw [if_pos]
      exact ⟨fun h => h1 h.symm, fun h => h2 ⟨by simpa using h.1, h.2⟩⟩

private theorem step_ok (t : UniRow) (u : List Nat) :
    Step (check_4z t none (some u)) (t.rc = none ∧ u = t.expected) := by
  intro n
  unfold check_4z
  by_cases h1 : t.rc = none
  · by_cases h2 : t.expected = u
    · exact ⟨n, by simp [h1, h2], by omega, by simp [h1, h2]⟩
    · exact ⟨n + 1, by simp [h1, h2], by omega, by
        simp only [Nat.add_eq_left, Nat.one_ne_zero, false_iff, not_and]
        exact fun _ h => h2 h.symm⟩
  · refine ⟨n + 1, ?_, by omega, by simp [h1]⟩
    rw [if_pos]
    exact ⟨fun h => h1 h.symm, by simp⟩

private theorem step_direct (t : UniRow) (r : Except Rc (List Nat)) :
    Step (checkDirect t r) (UniMeets t.expected t.rc r) := by
  cases r with
  | error e => exact step_err t e none
  | ok u => exact step_ok t u

private theorem step_array (t : UniRow) {r : Except Rc (List Nat)}
    (h : ∀ u, r = .ok u → u.length ≤ 127) : Step (check44i t r) (UniMeets t.expected t.rc r) := by
  cases r with
  | error e => exact step_err t e (some [])
  | ok u =>
    have := h u rfl
    have e : check44i t (.ok u) = check_4z t none (some u) := by
      funext n
      unfold check44i
      simp only
      rw [if_neg (by omega)]
    rw [e]
    exact step_ok t u

private theorem step_bytes {t : UniRow} (ht : ∀ c ∈ t.expected, isScalar c) {b : List Nat}
    (h : WellFormed b) : Step (check_4z t none (u8Decode b)) (t.rc = none ∧ b = utf8s t.expected) := by
  obtain ⟨u, hu⟩ := wellFormed_iff.mp h
  rw [hu]
  have e : (b = utf8s t.expected) ↔ u = t.expected := by
    constructor
    · intro hb
      have := u8Decode_some_iff.mpr ⟨ht, hb⟩
      rw [hu] at this
      exact Option.some.inj this
    · rintro rfl
      exact (u8Decode_some_iff.mp hu).2
  rw [e]
  exact step_ok t u

private theorem step_utf8 {t : UniRow} (ht : ∀ c ∈ t.expected, isScalar c) {r : Except Rc (List Nat)}
    (h : ∀ b, r = .ok b → WellFormed b) : Step (check8z t r) (UniMeets (utf8s t.expected) t.rc r) := by
  cases r with
  | error e => exact step_err t e none
  | ok b => exact step_bytes ht (h b rfl)

private theorem step_locale {conv : List Nat → Option (List Nat)} {t : UniRow}
    (ht : ∀ c ∈ t.expected, isScalar c) {r : Except Rc (List Nat)}
    (h : ∀ l, r = .ok l → ∃ b, conv l = some b ∧ WellFormed b) :
    Step (checkLz conv t r)
      (UniMeets (utf8s t.expected) t.rc (mapOk (fun l => (conv l).getD []) r)) := by
  cases r with
  | error e => exact step_err t e none
  | ok l =>
    obtain ⟨b, hb, hw⟩ := h l rfl
    have e : checkLz conv t (.ok l) = check_4z t none (u8Decode b) := by
      funext n
      simp only [checkLz, hb]
    rw [e]
    simp only [mapOk, UniMeets, hb, Option.getD_some]
    exact step_bytes ht hw

private theorem step_iff {f : Nat → Out Nat} {P Q : Prop} (h : Step f P) (e : P ↔ Q) : Step f Q := by
  rw [← propext e]; exact h

private theorem step_skip : Step (fun n => pure n) True :=
  fun n => ⟨n, rfl, by omega, by simp⟩

private theorem step_row {L : UniLib} (utf8 : Bool) {conv : List Nat → Option (List Nat)} {t : UniRow}
    (ht : ∀ c ∈ t.expected, isScalar c) (hs : UniSane L conv t) :
    Step (unicodeRow L utf8 conv t) (UniRowMeets L utf8 conv t) := by
  unfold UniRowMeets
  have h1 := step_direct t (L.f8z4z t.punycode)
  have h4 := step_utf8 ht hs.utf8
  have h23 : Step (fun n => match u8Decode t.punycode with
      | none => pure n
      | some w => (checkDirect t (L.f4z4z w) n).bind fun n => check44i t (L.f44i w) n)
      (∀ w, (∀ c ∈ w, isScalar c) → t.punycode = utf8s w →
        UniMeets t.expected t.rc (L.f4z4z w) ∧ UniMeets t.expected t.rc (L.f44i w)) := by
    cases hd : u8Decode t.punycode with
    | none =>
      refine step_iff step_skip ?_
      simp only [true_iff]
      intro w hw he
      exact absurd ⟨w, hw, he⟩ (u8Decode_none_iff.mp hd)
    | some w =>
      refine step_iff (step_seq (step_direct t (L.f4z4z w)) (step_array t (hs.array w))) ?_
      constructor
      · intro h w' hw he
        have := u8Decode_some_iff.mpr ⟨hw, he⟩
        rw [hd] at this
        rw [← Option.some.inj this]
        exact h
      · intro h
        exact h w (u8Decode_some_iff.mp hd).1 (u8Decode_some_iff.mp hd).2
  have h56 : Step (fun n => if !utf8 then pure n else
      (checkLz conv t (L.f8zlz t.punycode) n).bind fun n => checkLz conv t (L.flzlz t.punycode) n)
      (utf8 = true →
        UniMeets (utf8s t.expected) t.rc (mapOk (fun l => (conv l).getD []) (L.f8zlz t.punycode)) ∧
        UniMeets (utf8s t.expected) t.rc (mapOk (fun l => (conv l).getD []) (L.flzlz t.punycode))) := by
    cases utf8 with
    | false => exact step_iff step_skip (by simp)
    | true =>
      exact step_iff (step_seq (step_locale ht hs.locale) (step_locale ht hs.both)) (by simp)
  exact step_seq h1 (step_seq h23 (step_seq h4 h56))

private theorem step_rows {L : UniLib} (utf8 : Bool) {conv : List Nat → Option (List Nat)}
    {rows : List UniRow} (ht : ∀ t ∈ rows, ∀ c ∈ t.expected, isScalar c)
    (hs : ∀ t ∈ rows, UniSane L conv t) :
    Step (unicodeRows L utf8 conv rows) (∀ t ∈ rows, UniRowMeets L utf8 conv t) := by
  induction rows with
  | nil => exact step_iff step_skip (by simp)
  | cons t r ih =>
    exact step_iff (step_seq (step_row utf8 (ht t (by simp)) (hs t (by simp)))
      (ih (fun x hx => ht x (by simp [hx])) fun x hx => hs x (by simp [hx]))) (by simp)

/-- C95: for functions whose results can be converted and fit, tests/test-tounicode.c ends with 0 exactly
when all the six functions give, for every row, what it asks for; and with 1 otherwise. -/
theorem C95_unicode {L : UniLib} (utf8 : Bool) {conv : List Nat → Option (List Nat)}
    {rows : List UniRow} (ht : ∀ t ∈ rows, ∀ c ∈ t.expected, isScalar c)
    (hs : ∀ t ∈ rows, UniSane L conv t) :
    ∃ c, unicodeMain L utf8 conv rows = .val c ∧ (c = 0 ∨ c = 1) ∧
      (c = 0 ↔ ∀ t ∈ rows, UniRowMeets L utf8 conv t) := by
  obtain ⟨m, h1, _, h3⟩ := step_rows utf8 ht hs 0
  unfold unicodeMain
  rw [h1, ← h3]
  by_cases h : m = 0 <;> simp [h, bind, Out.bind, pure]

/-- Functions that give the code points of ASCII strings, but for the fourth, which gives `a`. -/
private def asciiLib (a : List Nat) : UniLib :=
  ⟨.ok, .ok, .ok, fun _ => .ok a, .ok, .ok⟩

example : unicodeMain (asciiLib [0x61]) true some
    [{ punycode := [0x61], expected := [0x61], rc := none }] = .val 0 := by decide

example : unicodeMain (asciiLib [0x62]) true some
    [{ punycode := [0x61], expected := [0x61], rc := none }] = .val 1 := by decide

/-- C95 is false for a library whose result in UTF-8 is not well-formed: the program follows the null
pointer that `u8_to_u32` gives it (test-tounicode.c:442-450). -/
theorem C95_unicode_violated : unicodeMain (asciiLib [0xFF]) true some
    [{ punycode := [0x61], expected := [0x61], rc := none }] = .ub := by decide

/-- And for any that gives more than 127 code points through the array of 128: one element is read past
what was written, the last of them past the array (test-tounicode.c:434-438). -/
theorem C95_array_violated (t : UniRow) {u : List Nat} (h : 127 < u.length) (n : Nat) :
    check44i t (.ok u) n = .ub := by
  unfold check44i
  simp only
  rw [if_pos (by omega)]

/-! ### test-punycode.c -/

private theorem puny_le (enc dec : List Nat → Except Rc (List Nat)) (row : PunyRow) (n : Nat) :
    n ≤ punycodeRow enc dec row n := by
  unfold punycodeRow
  grind

private theorem puny_eq {enc dec : List Nat → Except Rc (List Nat)} {row : PunyRow} {n : Nat}
    (h : punycodeRow enc dec row n = n) :
    PunyMeets row.out row.rc (enc row.input) ∧
      ((∃ e, row.rc = some e ∧ dec row.out = .error e) ∨
        ∃ q, row.rc = none ∧ dec row.out = .ok q ∧ decBad row q = false) := by
  unfold punycodeRow at h
  cases he : enc row.input with
  | error e =>
    cases hd : dec row.out with
    | error e' =>
      simp only [he, hd, rcOf] at h
      by_cases h1 : some e = row.rc <;> by_cases h2 : some e' = row.rc <;> simp [h1, h2] at h
      exact ⟨h1.symm, .inl ⟨e', h2.symm, rfl⟩⟩
    | ok q =>
      simp only [he, hd, rcOf] at h
      by_cases h1 : some e = row.rc <;> by_cases h2 : none = row.rc <;> simp [h1, h2] at h
      rw [← h2] at h1
      cases h1
  | ok p =>
    cases hd : dec row.out with
    | error e' =>
      simp only [he, hd, rcOf] at h
      by_cases h1 : none = row.rc <;> by_cases h2 : some e' = row.rc <;> simp [h1, h2] at h
      · rw [← h1] at h2
        cases h2
      · cases hb : encBad row p <;> simp [hb] at h
        omega
    | ok q =>
      simp only [he, hd, rcOf] at h
      by_cases h1 : none = row.rc
      · simp only [← h1, ne_eq, not_true_eq_false, if_false] at h
        cases hb : encBad row p <;> cases hq : decBad row q <;> simp [hb, hq] at h
        · simp only [encBad, ne_eq, decide_eq_false_iff_not, Classical.not_not] at hb
          exact ⟨⟨h1.symm, hb.symm⟩, .inr ⟨q, h1.symm, rfl, hq⟩⟩
        · omega
      · simp [h1] at h

private theorem memory_length (w : List Nat) : (memory w).length = 4 * w.length := by
  induction w with
  | nil => rfl
  | cons c r ih =>
    have : memory (c :: r) =
      [c % 256, c / 256 % 256, c / 65536 % 256, c / 16777216 % 256] ++ memory r := rfl
    rw [this, List.length_append, ih]
    simp
    omega

/-- As many code points as are compared in full are the same. -/
private theorem memory_take : ∀ (a b : List Nat) (k : Nat), (∀ c ∈ a, c < 2 ^ 32) →
    (∀ c ∈ b, c < 2 ^ 32) → a.length = b.length →
    (memory a).take (4 * k) = (memory b).take (4 * k) → a.take k = b.take k := by
  intro a
  induction a with
  | nil =>
    intro b k _ _ hl _
    have : b = [] := List.length_eq_zero_iff.mp hl.symm
    rw [this]
  | cons x a ih =>
    intro b k ha hb hl h
    cases b with
    | nil => simp at hl
    | cons y b =>
      cases k with
      | zero => rfl
      | succ k =>
        have e : ∀ (c : Nat) (r : List Nat), (memory (c :: r)).take (4 * (k + 1)) =
            (c % 256) :: (c / 256 % 256) :: (c / 65536 % 256) :: (c / 16777216 % 256) ::
              (memory r).take (4 * k) := by
          intro c r
          have : memory (c :: r) =
            (c % 256) :: (c / 256 % 256) :: (c / 65536 % 256) :: (c / 16777216 % 256) :: memory r := rfl
          rw [this, show 4 * (k + 1) = 4 * k + 1 + 1 + 1 + 1 from by omega]
          simp only [List.take_succ_cons]
        rw [e, e] at h
        simp only [List.cons.injEq] at h
        have hx := ha x (by simp)
        have hy := hb y (by simp)
        have hxy : x = y := by omega
        simp only [List.take_succ_cons, hxy,
          ih b k (fun c hc => ha c (by simp [hc])) (fun c hc => hb c (by simp [hc]))
            (by simpa using hl) h.2.2.2.2]

private theorem foldl_le (enc dec : List Nat → Except Rc (List Nat)) (rows : List PunyRow) (n : Nat) :
    n ≤ rows.foldl (fun n row => punycodeRow enc dec row n) n := by
  induction rows generalizing n with
  | nil => exact Nat.le_refl _
  | cons row r ih => exact Nat.le_trans (puny_le enc dec row n) (ih _)

private theorem foldl_eq {enc dec : List Nat → Except Rc (List Nat)} {rows : List PunyRow} {n : Nat}
    (h : rows.foldl (fun n row => punycodeRow enc dec row n) n = n) :
    ∀ row ∈ rows, punycodeRow enc dec row n = n := by
  induction rows generalizing n with
  | nil => simp
  | cons row r ih =>
    simp only [List.foldl_cons] at h
    have h1 := puny_le enc dec row n
    have h2 := foldl_le enc dec r (punycodeRow enc dec row n)
    have h3 : punycodeRow enc dec row n = n := by omega
    rw [h3] at h
    intro x hx
    rcases List.mem_cons.mp hx with rfl | hx
    · exact h3
    · exact ih h x hx

/-- C95, in part: when tests/test-punycode.c counts no failure, every row is encoded as the table says,
errors included, and decoded to as many code points as the table says, the first quarter of which, rounded
down, are those of the table.  Missing: the other code points, and the exit status. -/
theorem C95_punycode_partial {enc dec : List Nat → Except Rc (List Nat)} {version : Nat}
    {rows : List PunyRow} (h : (punycodeMain enc dec version rows).1 = 0)
    (hr : ∀ row ∈ rows, ∀ c ∈ row.input, c < 2 ^ 32)
    (hd : ∀ s u, dec s = .ok u → ∀ c ∈ u, c < 2 ^ 32) :
    version = 0 ∧ ∀ row ∈ rows, PunyMeets row.out row.rc (enc row.input) ∧
      ((∃ e, row.rc = some e ∧ dec row.out = .error e) ∨
        ∃ q, row.rc = none ∧ dec row.out = .ok q ∧ q.length = row.input.length ∧
          q.take (q.length / 4) = row.input.take (q.length / 4)) := by
  have h0 := foldl_le enc dec rows version
  have hv : version = 0 := Nat.le_zero.mp (Nat.le_trans h0 (Nat.le_of_eq h))
  refine ⟨hv, fun row hrow => ?_⟩
  subst hv
  obtain ⟨h1, h2⟩ := puny_eq (foldl_eq h row hrow)
  refine ⟨h1, ?_⟩
  rcases h2 with h2 | ⟨q, h2, h3, h4⟩
  · exact .inl h2
  · right
    simp only [decBad, ne_eq, Bool.or_eq_false_iff, decide_eq_false_iff_not, Classical.not_not] at h4
    obtain ⟨h4, h5⟩ := h4
    refine ⟨q, h2, h3, h4.symm, ?_⟩
    refine (memory_take _ _ _ (hr row hrow) (hd _ _ h3) h4 ?_).symm
    have := congrArg (List.take (4 * (q.length / 4))) h5
    rw [List.take_take, List.take_take, Nat.min_eq_left (by omega)] at this
    exact this

/-- C95, the count: a row adds one if it is not encoded as the table says, and one if the encoder's code
is that of the table and the decoder's code is not, or what it gives is found wrong. -/
theorem C95_punycode_count (enc dec : List Nat → Except Rc (List Nat)) (row : PunyRow) (n : Nat) :
    ∃ a b, punycodeRow enc dec row n = n + a + b ∧ a ≤ 1 ∧ b ≤ 1 ∧
      (a = 0 ↔ PunyMeets row.out row.rc (enc row.input)) ∧
      (b = 1 ↔ rcOf (enc row.input) = row.rc ∧ ¬ ((∃ e, row.rc = some e ∧ dec row.out = .error e) ∨
        ∃ q, row.rc = none ∧ dec row.out = .ok q ∧ decBad row q = false)) := by
  unfold punycodeRow PunyMeets
  generalize decBad row = bad
  generalize hb : encBad row = ebad
  have hb' : ∀ p, ebad p = true ↔ row.out ≠ p := by
    intro p
    rw [← hb]
    simp [encBad]
  cases he : enc row.input with
  | error e =>
    by_cases h1 : row.rc = some e
    · cases hd : dec row.out with
      | error e' =>
        by_cases h2 : e' = e
        · exact ⟨0, 0, by simp [rcOf, h1, h2], by omega, by omega, by simp [h1], by simp [rcOf, h1, h2]⟩
        · exact ⟨0, 1, by simp [rcOf, h1, h2], by omega, by omega, by simp [h1], by
            simp [rcOf, h1]; exact h2⟩
      | ok q => exact ⟨0, 1, by simp [rcOf, h1], by omega, by omega, by simp [h1], by simp [rcOf, h1]⟩
    · have h2 : some e ≠ row.rc := fun h => h1 h.symm
      exact ⟨1, 0, by simp [rcOf, h2], by omega, by omega, by simp [h1], by simp [rcOf, h2]⟩
  | ok p =>
    by_cases h1 : row.rc = none
    · obtain ⟨a, ha, ha1, ha2⟩ : ∃ a, (if ebad p = true then n + 1 else n) = n + a ∧ a ≤ 1 ∧
          (a = 0 ↔ p = row.out) := by
        by_cases h : p = row.out
        · have : ebad p = false := by
            cases he : ebad p with
            | false => rfl
            | true => exact absurd h.symm ((hb' p).mp he)
          exact ⟨0, by simp [this], by omega, by simp [h]⟩
        · exact ⟨1, by simp [(hb' p).mpr fun e => h e.symm], by omega, by simp [h]⟩
      cases hd : dec row.out with
      | error e' =>
        exact ⟨a, 1, by simp [rcOf, h1, ha], ha1, by omega, by simp [h1, ha2], by simp [rcOf, h1]⟩
      | ok q =>
        cases hq : bad q with
        | true =>
          exact ⟨a, 1, by simp [rcOf, h1, ha, hq], ha1, by omega, by simp [h1, ha2], by
            simp [rcOf, h1, hq]⟩
        | false =>
          exact ⟨a, 0, by simp [rcOf, h1, ha, hq], ha1, by omega, by simp [h1, ha2], by
            simp [rcOf, h1, hq]⟩
    · have h2 : none ≠ row.rc := fun h => h1 h.symm
      exact ⟨1, 0, by simp [rcOf, h2], by omega, by omega, by simp [h1], by simp [rcOf, h2]⟩

/-- C95 is false of tests/test-punycode.c: it ends with 0 whatever the coders do
(test-punycode.c:318-320). -/
theorem C95_punycode_violated (enc dec : List Nat → Except Rc (List Nat)) (version : Nat)
    (rows : List PunyRow) : (punycodeMain enc dec version rows).2 = 0 := rfl

/-- A row with five code points, and a decoder that has but the first of them right: no failure is even
counted, as but five bytes are compared (test-punycode.c:301-311). -/
theorem C95_decoding_violated : ∃ enc dec : List Nat → Except Rc (List Nat), ∃ row : PunyRow,
    dec row.out ≠ .ok row.input ∧ (punycodeMain enc dec 0 [row]).1 = 0 :=
  ⟨fun _ => .ok [0x61], fun _ => .ok [0x644, 0x74A, 0, 0, 0],
    ⟨[0x644, 0x64A, 0x647, 0x645, 0x627], [0x61], none⟩,
    fun h => absurd (Except.ok.inj h) (by decide), by decide⟩

/-- A coder of the library; BUFSIZ elements (test-punycode.c:218-225). -/
def coder (f : Nat → Nat → List Nat → Res (List Nat)) : List Nat → Except Rc (List Nat) := fun s =>
  match f 8192 8192 s with
  | .ok x => .ok x
  | .err e => .error e
  | .ub => .error .malloc

/-- The library with the table of the program: one failure is counted (C72), and the status is 0. -/
theorem C95_punycode_library :
    punycodeMain (coder punycode_encode) (coder punycode_decode) 0
      (Vectors.puny.map fun v => ⟨v.1, v.2, none⟩) = (1, 0) := by decide +kernel

example : decBad ⟨[0x644, 0x64A, 0x647, 0x645, 0x627], [], none⟩ [0x644, 0x64A, 0x647, 0x645, 0x627] =
    false := by decide

example : punycodeMain (fun _ => .ok [0x62]) (fun _ => .ok [0x62]) 0 [⟨[0x61], [0x61], none⟩] = (2, 0) := by
  decide

/-! ### test-strerror.c and test-locale.c -/

private theorem strerrorLoop_spec (str name : Int → Option String) (n : Nat) :
    ∀ (i : Int) (f : Nat), f ≤ strerrorLoop str name n i f ∧ (strerrorLoop str name n i f = f ↔
      ∀ j, i ≤ j → j < i + n → str j ≠ none ∧ name j ≠ none) := by
  induction n with
  | zero => intro i f; exact ⟨Nat.le_refl _, by simp only [strerrorLoop, true_iff]; intro j h1 h2; omega⟩
  | succ n ih =>
    intro i f
    unfold strerrorLoop
    simp only
    obtain ⟨h1, h2⟩ := ih (i + 1)
      (if name i = none then (if str i = none then f + 1 else f) + 1 else if str i = none then f + 1 else f)
    have hsplit : (∀ j, i ≤ j → j < i + ((n + 1 : Nat) : Int) → str j ≠ none ∧ name j ≠ none) ↔
        (str i ≠ none ∧ name i ≠ none) ∧
          ∀ j, i + 1 ≤ j → j < i + 1 + n → str j ≠ none ∧ name j ≠ none := by
      constructor
      · intro h
        exact ⟨h i (by omega) (by omega), fun j h1 h2 => h j (by omega) (by omega)⟩
      · rintro ⟨h, h'⟩ j h1 h2
        by_cases e : j = i
        · rw [e]; exact h
        · exact h' j (by omega) (by omega)
    rw [hsplit, ← h2]
    by_cases ha : str i = none <;> by_cases hb : name i = none <;>
      simp only [ha, hb, if_true, if_false, ne_eq, not_true_eq_false, not_false_eq_true, false_and,
        and_false, and_self, true_and, iff_false, iff_self, and_true] at h1 ⊢ <;> omega

/-- C95: tests/test-strerror.c ends with 0 exactly when there are a message and a name for every number
from -1000 to 1000. -/
theorem C95_strerror (str name : Int → Option String) :
    (strerrorMain str name = 0 ↔ ∀ j, -1000 ≤ j → j ≤ 1000 → str j ≠ none ∧ name j ≠ none) ∧
      (strerrorMain str name = 0 ∨ strerrorMain str name = 1) := by
  obtain ⟨_, h⟩ := strerrorLoop_spec str name 2001 (-1000) 0
  have e : (∀ j : Int, -1000 ≤ j → j ≤ 1000 → str j ≠ none ∧ name j ≠ none) ↔
      strerrorLoop str name 2001 (-1000) 0 = 0 := by
    rw [h]
    constructor
    · intro h j h1 h2; exact h j h1 (by omega)
    · intro h j h1 h2; exact h j h1 (by omega)
  rw [e]
  unfold strerrorMain
  by_cases hz : strerrorLoop str name 2001 (-1000) 0 = 0 <;> simp [hz]

/-- The library passes it. -/
theorem C95_strerror_library :
    strerrorMain (fun i => some (idn2_strerror i)) (fun i => some (idn2_strerror_name i)) = 0 :=
  (C95_strerror _ _).1.mpr fun _ _ _ => ⟨by simp, by simp⟩

example : strerrorMain (fun _ => some "") (fun i => if i = 1000 then none else some "") ≠ 0 := by
  rw [ne_eq, (C95_strerror _ _).1]
  intro h
  exact (h 1000 (by omega) (by omega)).2 (by simp)

/-- C95: tests/test-locale.c is skipped (77) without iconv; otherwise it ends with 0 exactly when the
three calls succeed, and with 1 when one of them does not. -/
theorem C95_locale (iconv : Bool) (lookup_ul to_ascii_lz : LookLib) (reg : RegLib) :
    (localeMain iconv lookup_ul to_ascii_lz reg = 77 ↔ iconv = false) ∧
    (localeMain iconv lookup_ul to_ascii_lz reg = 0 ↔ iconv = true ∧
      (lookup_ul (some [0x61, 0x62, 0x63]) none 0).1 = none ∧
      (to_ascii_lz (some [0x61, 0x62, 0x63]) (some (.old 0)) 0).1 = none ∧
      (reg (some [0x66, 0x6F, 0x6F]) none none 0).1 = none) ∧
    localeMain iconv lookup_ul to_ascii_lz reg ∈ [0, 1, 77] := by
  unfold localeMain abc foo
  cases iconv with
  | false => simp
  | true =>
    by_cases h1 : (lookup_ul (some [0x61, 0x62, 0x63]) none 0).1 = none <;>
      by_cases h2 : (to_ascii_lz (some [0x61, 0x62, 0x63]) (some (.old 0)) 0).1 = none <;>
        by_cases h3 : (reg (some [0x66, 0x6F, 0x6F]) none none 0).1 = none <;> simp [h1, h2, h3]

example : localeMain true copyLook copyLook copyReg = 0 := by decide

example : localeMain true copyLook copyLook (fun _ _ c _ => (some .malloc, c)) = 1 := by decide

end TestPrograms

end Idn2
