import Verif.Props.Lookup
import Verif.Proof.DecodeP
import Verif.Model.Register

/-
Properties C15-C17, C37, C45: the to-ASCII entry points.
-/

namespace Idn2
open Spec

/-! ### C15: null arguments -/

/-- C15.  With a null input every function below returns IDN2_OK and stores a null pointer
(idn2_to_ascii_4i an empty string, idn2_to_unicode_44i the length zero), in whatever state
memory is.  Not true of the other two, see `C15_violated`. -/
theorem C15_null_partial {m : Type → Type} [CMem m] (E : Env) (out : Option Cell) (flags : Nat) :
    (idn2_lookup_u8 E none out flags : m _) = pure (none, out.map fun _ => .null) ∧
    (idn2_lookup_ul E none out flags : m _) = pure (none, out.map fun _ => .null) ∧
    (idn2_to_ascii_8z E none out flags : m _) = pure (none, out.map fun _ => .null) ∧
    (idn2_to_ascii_lz E none out flags : m _) = pure (none, out.map fun _ => .null) ∧
    (idn2_to_ascii_4z E none out flags : m _) = pure (none, out.map fun _ => .null) ∧
    (idn2_to_ascii_4i2 E none out flags : m _) = pure (none, out.map fun _ => .null) ∧
    (idn2_to_ascii_4i E none none flags : m _) = pure (none, none) ∧
    (∀ b buf, (idn2_to_ascii_4i E none (some (b :: buf)) flags : m _) =
      pure (none, some (0 :: buf))) ∧
    (idn2_register_u8 E none none out flags : m _) = pure (none, out.map fun _ => .null) ∧
    (idn2_register_ul E none none out flags : m _) = pure (none, out.map fun _ => .null) ∧
    (idn2_to_unicode_8z4z none out flags : m _) = pure (none, out.map fun _ => .null) ∧
    (idn2_to_unicode_4z4z none out flags : m _) = pure (none, out.map fun _ => .null) ∧
    (∀ buf outlen, (idn2_to_unicode_44i none buf outlen flags : m _) =
      pure (none, buf, outlen.map fun _ => 0)) ∧
    (idn2_to_unicode_lzlz E none out flags : m _) = pure (none, out.map fun _ => .null) := by
  refine ⟨rfl, rfl, rfl, rfl, rfl, rfl, rfl, ?_, rfl, rfl, rfl, rfl, fun _ _ => rfl, rfl⟩
  intro b buf
  unfold idn2_to_ascii_4i
  simp [blit]

/-- The code and C15 disagree: `idn2_to_unicode_8z8z` and `idn2_to_unicode_8zlz` return
IDN2_OK for a null input but leave the output pointer as it was. -/
theorem C15_violated (E : Env) (flags n : Nat) :
    (idn2_to_unicode_8z8z none (some (.old n)) flags : Out _) = .val (none, some (.old n)) ∧
    (idn2_to_unicode_8zlz E none (some (.old n)) flags : Out _) = .val (none, some (.old n)) :=
  ⟨rfl, rfl⟩

/-! ### C16: the UTF-32 entry points -/

theorem utf8_ne_zero {c : Nat} (h : c ≠ 0) : 0 ∉ utf8 c := by
  unfold utf8
  split
  · simpa using h.symm
  · split
    · simp; omega
    · split <;> · simp; omega

theorem zero_mem_utf8s {a : List Nat} (h : 0 ∉ a) : 0 ∉ utf8s a := by
  unfold utf8s
  rw [List.mem_flatMap]
  rintro ⟨c, hc, h0⟩
  exact utf8_ne_zero (fun h' => h (h' ▸ hc)) h0

theorem cstr_utf8s (a : List Nat) :
    cstr (utf8s (a ++ [0])) = some (utf8s (a.takeWhile (· != 0))) := by
  have h1 : 0 ∉ utf8s (a.takeWhile (· != 0)) := zero_mem_utf8s (mem_takeWhile_ne a)
  obtain ⟨r, hr⟩ : ∃ r, a ++ [0] = a.takeWhile (· != 0) ++ 0 :: r := by
    clear h1
    induction a with
    | nil => exact ⟨[], rfl⟩
    | cons c a ih =>
      by_cases hc : c = 0
      · subst hc; exact ⟨a ++ [0], rfl⟩
      · obtain ⟨r, hr⟩ := ih
        refine ⟨r, ?_⟩
        rw [List.takeWhile_cons_of_pos (by simpa using hc), List.cons_append, List.cons_append, hr]
  rw [hr]
  have : utf8s (a.takeWhile (· != 0) ++ 0 :: r) =
      utf8s (a.takeWhile (· != 0)) ++ 0 :: utf8s r := by
    unfold utf8s; rw [List.flatMap_append]; rfl
  rw [this]
  exact cstr_append h1 _

theorem takeWhile_all {a : List Nat} (h : 0 ∉ a) : a.takeWhile (· != 0) = a := by
  induction a with
  | nil => rfl
  | cons c a ih =>
    rw [List.mem_cons, not_or] at h
    rw [List.takeWhile_cons_of_pos (by simpa using fun h' => h.1 h'.symm), ih h.2]

theorem u8Encode_zero {a : List Nat} (h : ∀ c ∈ a, isScalar c) :
    u8Encode (a ++ [0]) = some (utf8s (a ++ [0])) := by
  apply u8Encode_utf8s
  intro c hc
  rcases List.mem_append.mp hc with hc | hc
  · exact h c hc
  · simp at hc; subst hc; left; omega

theorem u8Encode_zero_none {a : List Nat} (h : ¬ ∀ c ∈ a, isScalar c) :
    u8Encode (a ++ [0]) = none := by
  apply u8Encode_none
  intro h'
  exact h fun c hc => h' c (List.mem_append_left _ hc)

theorem lookup_retOf {E : Env} {D : Data} (W : World E D) (flags : Nat) {s : List Nat} (h0 : 0 ∉ s)
    (out : Option Cell) : (idn2_lookup_u8 E (some s) out flags : Out _) =
      retOf out (lookupF E D flags s) :=
  lookup_u8_out W.tables W.uni W.data flags h0 out

/-- C16.  `idn2_to_ascii_8z` is `idn2_lookup_u8`. -/
theorem C16_8z {m : Type → Type} [CMem m] (E : Env) (input : Option (List Nat))
    (out : Option Cell) (flags : Nat) :
    (idn2_to_ascii_8z E input out flags : m _) = idn2_lookup_u8 E input out flags := rfl

/-- C16.  `idn2_to_ascii_4z` of an array `a` is lookup of its UTF-8 form, if it has one. -/
theorem C16_4z (E : Env) {a : List Nat} (h0 : 0 ∉ a) (out : Option Cell) (flags : Nat) :
    ((∀ c ∈ a, isScalar c) → (idn2_to_ascii_4z E (some a) out flags : Out _) =
      idn2_lookup_u8 E (some (utf8s a)) out flags) ∧
    ((¬ ∀ c ∈ a, isScalar c) → (idn2_to_ascii_4z E (some a) out flags : Out _) =
      .val (some .encodingError, out)) := by
  constructor
  · intro h
    unfold idn2_to_ascii_4z
    simp only [u8Encode_zero h, libConv, Out.malloc_eq, Out.bind_val, Out.pure_eq, cstr_utf8s,
      takeWhile_all h0, Out.touch_eq, Out.free_eq]
    cases (idn2_lookup_u8 E (some (utf8s a)) out flags : Out _) <;> rfl
  · intro h
    unfold idn2_to_ascii_4z
    simp [u8Encode_zero_none h, libConv]

/-- C16.  `idn2_to_ascii_4i2` of an array `a` is lookup of the UTF-8 form of the part before
the first zero; but the whole array must consist of scalar values. -/
theorem C16_4i2 {E : Env} {D : Data} (W : World E D) (a : List Nat) (out : Option Cell)
    (flags : Nat) :
    ((∀ c ∈ a, isScalar c) → (idn2_to_ascii_4i2 E (some a) out flags : Out _) =
      idn2_lookup_u8 E (some (utf8s (a.takeWhile (· != 0)))) out flags) ∧
    ((¬ ∀ c ∈ a, isScalar c) → (idn2_to_ascii_4i2 E (some a) out flags : Out _) =
      .val (some .encodingError, out)) := by
  constructor
  · intro h
    have h0 : 0 ∉ utf8s (a.takeWhile (· != 0)) := zero_mem_utf8s (mem_takeWhile_ne a)
    unfold idn2_to_ascii_4i2
    simp only [u8Encode_zero h, libConv, Out.malloc_eq, Out.bind_val, Out.pure_eq, cstr_utf8s,
      Out.touch_eq, Out.free_eq, lookup_retOf W flags h0]
    cases lookupF E D flags (utf8s (a.takeWhile (· != 0))) with
    | ub => rfl
    | err e => rfl
    | ok n => cases out <;> rfl
  · intro h
    unfold idn2_to_ascii_4i2
    simp [u8Encode_zero_none h, libConv]

-- "fä", its Unicode form, with and without something after a zero
example : (idn2_to_ascii_4z Sample.E (some [0x66, 0xE4]) (some (.old 0)) 0 : Out _) =
    .val (none, some (.buf 0 [0x78, 0x6E, 0x2D, 0x2D, 0x66, 0x2D, 0x30, 0x66, 0x61])) := by
  decide +kernel
example : (idn2_to_ascii_4i2 Sample.E (some [0x66, 0xE4, 0, 0xFC]) (some (.old 0)) 0 : Out _) =
    .val (none, some (.buf 0 [0x78, 0x6E, 0x2D, 0x2D, 0x66, 0x2D, 0x30, 0x66, 0x61])) := by
  decide +kernel
example : (idn2_to_ascii_4i2 Sample.E (some [0x66, 0xE4, 0, 0xD800]) (some (.old 5)) 0 : Out _) =
    .val (some .encodingError, some (.old 5)) := by decide +kernel

/-! ### C17: idn2_to_ascii_4i -/

/-- C17, what holds: `idn2_to_ascii_4i` stores the bytes of the result in the first bytes of
the caller's array and leaves the rest of the array alone; results of more than 63 bytes
are refused; other errors are those of lookup.  There is no terminating zero, see
`C17_violated`. -/
theorem C17_4i_partial {E : Env} {D : Data} (W : World E D) {a : List Nat} (flags : Nat)
    {buf : List Nat} (hbuf : 63 ≤ buf.length) (ha : ∀ c ∈ a, isScalar c) :
    (∀ n, LookupOk E flags (utf8s (a.takeWhile (· != 0))) n → n.length ≤ 63 →
      (idn2_to_ascii_4i E (some a) (some buf) flags : Out _) =
        .val (none, some (n ++ buf.drop n.length))) ∧
    (∀ n, LookupOk E flags (utf8s (a.takeWhile (· != 0))) n → 63 < n.length →
      (idn2_to_ascii_4i E (some a) (some buf) flags : Out _) =
        .val (some .tooBigDomain, some buf)) ∧
    (∀ e, LookupErr E flags (utf8s (a.takeWhile (· != 0))) e →
      (idn2_to_ascii_4i E (some a) (some buf) flags : Out _) = .val (some e, some buf)) := by
  have key := (C16_4i2 W a (some (.old 0)) flags).1 ha
  refine ⟨?_, ?_, ?_⟩
  · intro n h hn
    unfold LookupOk at h
    unfold idn2_to_ascii_4i
    simp only [key, h, Out.bind_val, Out.touch_eq]
    rw [if_neg (by omega)]
    unfold blit
    rw [if_pos (by omega)]
    rfl
  · intro n h hn
    unfold LookupOk at h
    unfold idn2_to_ascii_4i
    simp only [key, h, Out.bind_val, Out.touch_eq]
    rw [if_pos (by omega)]
    rfl
  · intro e h
    unfold LookupErr at h
    unfold idn2_to_ascii_4i
    simp only [key, h, Out.bind_val, Out.pure_eq]

/-- The code and C17 disagree: if the array holds no zero before the call it holds none
after a success. -/
theorem C17_violated {E : Env} {D : Data} (W : World E D) {a : List Nat} {flags : Nat}
    {buf n : List Nat} (hbuf : 63 ≤ buf.length) (ha : ∀ c ∈ a, isScalar c) (hz : 0 ∉ buf)
    (hok : LookupOk E flags (utf8s (a.takeWhile (· != 0))) n) (hn : n.length ≤ 63) :
    ∃ buf', (idn2_to_ascii_4i E (some a) (some buf) flags : Out _) = .val (none, some buf') ∧
      0 ∉ buf' := by
  refine ⟨_, (C17_4i_partial W flags hbuf ha).1 n hok hn, ?_⟩
  intro h
  rcases List.mem_append.mp h with h | h
  · have := (C08_lookup_ascii W (zero_mem_utf8s (mem_takeWhile_ne a)) hok 0 h).1
    omega
  · exact hz (List.mem_of_mem_drop h)

-- "a" into an array full of "X"
example : (idn2_to_ascii_4i Sample.E (some [0x61]) (some (List.replicate 64 0x58)) 0 : Out _) =
    .val (none, some (0x61 :: List.replicate 63 0x58)) := by decide +kernel

/-! ### C37: malformed UTF-8 -/

theorem wellFormed_append {a b : List Nat} (ha : WellFormed a) (hb : WellFormed b) :
    WellFormed (a ++ b) := by
  obtain ⟨u, hu, rfl⟩ := ha
  obtain ⟨v, hv, rfl⟩ := hb
  refine ⟨u ++ v, ?_, by unfold utf8s; rw [List.flatMap_append]⟩
  intro c hc
  rcases List.mem_append.mp hc with hc | hc
  · exact hu c hc
  · exact hv c hc

theorem wellFormed_ascii {s : List Nat} (h : ∀ c ∈ s, c < 0x80) : WellFormed s :=
  wellFormed_iff.mpr ⟨s, u8Decode_ascii h⟩

theorem wellFormed_joinDot {ls : List (List Nat)} (h : ∀ l ∈ ls, WellFormed l) :
    WellFormed (joinDot ls) := by
  induction ls with
  | nil => exact wellFormed_ascii (by simp [joinDot])
  | cons l ls ih =>
    by_cases hls : ls = []
    · subst hls; exact h l (by simp)
    · rw [joinDot_cons hls]
      have hdot : WellFormed [0x2E] := wellFormed_ascii (by simp)
      exact wellFormed_append (h l List.mem_cons_self)
        (wellFormed_append hdot (ih fun x hx => h x (List.mem_cons_of_mem _ hx)))

theorem labelP_wellFormed {E : Env} {D : Data} (W : World E D) {src dst : List Nat} (h0 : 0 ∉ src)
    {flags : Nat} (h : labelP E src flags = .ok dst) : WellFormed src := by
  rcases (labelP_ok_iff W.tables W.uni h0).mp h with ⟨h1, _⟩ | ⟨h1, _⟩ | ⟨_, p, _, hp, _⟩
  · exact wellFormed_ascii h1
  · exact wellFormed_ascii h1
  · obtain ⟨_, q, hq, _⟩ := (u8nfcP_spec W.tables W.uni src _).2 p hp
    exact wellFormed_iff.mpr ⟨q, hq⟩

/-- C37.  Only well-formed UTF-8 is looked up successfully. -/
theorem C37_utf8 {E : Env} {D : Data} (W : World E D) {flags : Nat} {s n : List Nat} (h0 : 0 ∉ s)
    (h : LookupOk E flags s n) : WellFormed s := by
  obtain ⟨f, _, hp⟩ := lookupF_ok_iff.mp ((LookupOk_iff W h0).mp h)
  obtain ⟨src, ds, h0', hsrc, heach, _⟩ := lookupP_ok W h0 hp
  split at hsrc
  · subst hsrc
    rw [← joinDot_splitDot src]
    apply wellFormed_joinDot
    intro l hl
    have : ∀ {ls ds : List (List Nat)}, Each (fun l d => labelP E l f = .ok d) ls ds → l ∈ ls →
        ∃ d, labelP E l f = .ok d := by
      intro ls ds he hl
      induction he with
      | nil => cases hl
      | cons ha hb ih =>
        rcases List.mem_cons.mp hl with rfl | hl
        · exact ⟨_, ha⟩
        · exact ih hl
    obtain ⟨d, hd⟩ := this heach hl
    exact labelP_wellFormed W (fun hc => h0 (mem_of_mem_splitDot hl hc)) hd
  · obtain ⟨u, x, hu, _⟩ := tr46P_ok_iff.mp hsrc
    exact wellFormed_iff.mpr ⟨u, hu⟩

theorem set_default_flags_ok {flags : Nat} (h : ¬ Conflict flags) :
    ∃ f, set_default_flags flags = .ok f := by
  rw [set_default_flags_eq, if_neg h]
  split
  · exact ⟨_, rfl⟩
  · exact ⟨_, rfl⟩

/-- C37, the other half: malformed input is an error, with TR46 processing
IDN2_ENCODING_ERROR (bit 6 is IDN2_NO_TR46). -/
theorem C37_malformed {E : Env} {D : Data} (W : World E D) {flags : Nat} {s : List Nat} (h0 : 0 ∉ s)
    (h : ¬ WellFormed s) : (∃ e, LookupErr E flags s e) ∧
      (¬ Conflict flags → flags.testBit 6 = false → LookupErr E flags s .encodingError) := by
  constructor
  · rcases lookup_total W flags h0 with ⟨n, hn⟩ | h'
    · exact absurd (C37_utf8 W h0 hn) h
    · exact h'
  · intro hc h6
    rw [LookupErr_iff W h0]
    obtain ⟨f, hf⟩ := set_default_flags_ok hc
    have h6' : has f IDN2_NO_TR46 = false := by
      rw [set_default_flags_bits hf _ (by decide), (flag_bits flags).2.2.2.2.2.1, h6]
    unfold lookupF
    rw [hf]
    simp only
    unfold lookupP tr46P
    rw [u8Decode_none_iff.mpr h, h6']
    rfl

-- an overlong form, a surrogate, a truncated sequence
example : ¬ WellFormed [0xC0, 0xAE] ∧ LookupErr Sample.E 0 [0x61, 0xC0, 0xAE] .encodingError ∧
    LookupErr Sample.E 0 [0xED, 0xA0, 0x80] .encodingError ∧
    LookupErr Sample.E 64 [0x61, 0x2E, 0xE2, 0x82] .encodingError := by
  refine ⟨u8Decode_none_iff.mp (by decide +kernel), by decide +kernel, by decide +kernel,
    by decide +kernel⟩

/-! ### C45: locale entry points -/

/-- C45.  The locale variants of lookup and registration: conversion failure is
IDN2_ICONV_FAIL, otherwise the result is that of the UTF-8 variant on the converted string
with IDN2_NFC_INPUT (bit 0) added. -/
theorem C45_locale_lookup (E : Env) (s : List Nat) (a : Option (List Nat)) (out : Option Cell)
    (flags : Nat) :
    (E.U.fromLocale s = none →
      (idn2_lookup_ul E (some s) out flags : Out _) = .val (some .iconvFail, out) ∧
      (idn2_to_ascii_lz E (some s) out flags : Out _) = .val (some .iconvFail, out) ∧
      (idn2_register_ul E (some s) a out flags : Out _) = .val (some .iconvFail, out)) ∧
    (∀ t, E.U.fromLocale s = some t →
      (idn2_lookup_ul E (some s) out flags : Out _) =
        idn2_lookup_u8 E (some t) out (flags ||| 1) ∧
      (idn2_to_ascii_lz E (some s) out flags : Out _) =
        idn2_lookup_u8 E (some t) out (flags ||| 1) ∧
      (idn2_register_ul E (some s) a out flags : Out _) =
        idn2_register_u8 E (some t) a out (flags ||| 1)) ∧
    (idn2_register_ul E none a out flags : Out _) =
      idn2_register_u8 E none a out (flags ||| 1) := by
  refine ⟨?_, ?_, rfl⟩
  · intro h
    refine ⟨?_, ?_, ?_⟩
    · unfold idn2_lookup_ul; simp [libConv, h]
    · unfold idn2_to_ascii_lz idn2_lookup_ul; simp [libConv, h]
    · unfold idn2_register_ul; simp [libConv, h]
  · intro t h
    have h1 : (idn2_lookup_ul E (some s) out flags : Out _) =
        idn2_lookup_u8 E (some t) out (flags ||| 1) := by
      unfold idn2_lookup_ul
      simp only [libConv, h, Out.malloc_eq, Out.bind_val, Out.pure_eq, Out.touch_eq, Out.free_eq,
        show IDN2_NFC_INPUT = 1 from rfl]
      cases (idn2_lookup_u8 E (some t) out (flags ||| 1) : Out _) <;> rfl
    refine ⟨h1, h1, ?_⟩
    unfold idn2_register_ul
    simp only [libConv, h, Out.malloc_eq, Out.bind_val, Out.pure_eq, Out.touch_eq, Out.free_eq,
      show IDN2_NFC_INPUT = 1 from rfl]
    cases (idn2_register_u8 E (some t) a out (flags ||| 1) : Out _) <;> rfl

/-- C45.  Locale variants of to-unicode. -/
theorem C45_locale_unicode (E : Env) (s : List Nat) (out : Option Cell) (flags : Nat) :
    (E.U.fromLocale s = none →
      (idn2_to_unicode_lzlz E (some s) out flags : Out _) = .val (some .iconvFail, out)) ∧
    (∀ t, E.U.fromLocale s = some t →
      (idn2_to_unicode_lzlz E (some s) out flags : Out _) =
        idn2_to_unicode_8zlz E (some t) out flags) ∧
    (∀ u, (idn2_to_unicode_8z8z (some s) (some (.old 0)) flags : Out _) =
        .val (none, some (.buf 0 u)) →
      (E.U.toLocale u = none → (idn2_to_unicode_8zlz E (some s) out flags : Out _) =
        .val (some .encodingError, out)) ∧
      (∀ l, E.U.toLocale u = some l → (idn2_to_unicode_8zlz E (some s) out flags : Out _) =
        .val (none, out.map fun _ => .buf 0 l))) ∧
    (∀ e, (idn2_to_unicode_8z8z (some s) (some (.old 0)) flags : Out _) =
        .val (some e, some (.old 0)) →
      (idn2_to_unicode_8zlz E (some s) out flags : Out _) = .val (some e, out)) := by
  refine ⟨?_, ?_, ?_, ?_⟩
  · intro h
    unfold idn2_to_unicode_lzlz; simp [libConv, h]
  · intro t h
    unfold idn2_to_unicode_lzlz
    simp only [libConv, h, Out.malloc_eq, Out.bind_val, Out.pure_eq, Out.touch_eq, Out.free_eq]
    cases (idn2_to_unicode_8zlz E (some t) out flags : Out _) <;> rfl
  · intro u h
    constructor
    · intro hl
      unfold idn2_to_unicode_8zlz
      simp [libConv, h, hl]
    · intro l hl
      unfold idn2_to_unicode_8zlz
      cases out <;> simp [libConv, h, hl]
  · intro e h
    unfold idn2_to_unicode_8zlz
    simp [h]

/-- The sample environment in a Latin-1 locale. -/
def latin1 : Env := ⟨Sample.T, { Sample.U with
  fromLocale := fun s => some (utf8s s)
  toLocale := fun s => match u8Decode s with
    | some u => if u.all (· < 256) then some u else none
    | none => none }⟩

example :
    (idn2_lookup_ul latin1 (some [0x66, 0xE4]) (some (.old 0)) 0 : Out _) =
      .val (none, some (.buf 0 [0x78, 0x6E, 0x2D, 0x2D, 0x66, 0x2D, 0x30, 0x66, 0x61])) ∧
    (idn2_to_unicode_8zlz latin1 (some [0x78, 0x6E, 0x2D, 0x2D, 0x66, 0x2D, 0x30, 0x66, 0x61])
      (some (.old 0)) 0 : Out _) = .val (none, some (.buf 0 [0x66, 0xE4])) ∧
    (idn2_to_unicode_8zlz latin1 (some [0xCE, 0xB1]) (some (.old 4)) 0 : Out _) =
      .val (some .encodingError, some (.old 4)) := by decide +kernel

end Idn2
