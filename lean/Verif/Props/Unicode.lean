import Verif.Props.Entry

/-
Properties C06, C18-C20: the to-unicode functions.
-/

namespace Idn2
open Spec

theorem ToUniOk_iff {s u : List Nat} : ToUniOk s u ↔ uniP s = .ok u := by
  unfold ToUniOk
  rw [to_unicode_8z4z_out]
  cases uniP s <;> simp [retOf]

theorem ToUniErr_iff {s : List Nat} {e : Rc} : ToUniErr s e ↔ uniP s = .err e := by
  unfold ToUniErr
  rw [to_unicode_8z4z_out]
  cases uniP s <;> simp [retOf]

theorem toUni_total (s : List Nat) : (∃ u, ToUniOk s u) ∨ ∃ e, ToUniErr s e := by
  cases h : uniP s with
  | ub => exact absurd h (uniP_ne_ub s)
  | err e => exact Or.inr ⟨e, ToUniErr_iff.mpr h⟩
  | ok u => exact Or.inl ⟨u, ToUniOk_iff.mpr h⟩

/-! ### C20: limits and safety -/

theorem uniLabelP_ok {l u : List Nat} (hl : 0x2E ∉ l) (h : uniLabelP l = .ok u) :
    u.length ≤ 63 ∧ 0x2E ∉ u := by
  unfold uniLabelP at h
  split at h
  · obtain ⟨h1, _, _, h4⟩ := C05_decode_output (by omega) h
    refine ⟨h4, fun hd => ?_⟩
    rcases h1 _ hd with h' | h'
    · have := h'.1; unfold isLDHU at this; omega
    · omega
  · cases hd : u8Decode l with
    | none => rw [hd] at h; cases h
    | some x =>
      rw [hd] at h
      simp only at h
      split at h
      · cases h
      · injection h with h
        subst h
        exact ⟨by omega, fun hc => hl ((mem_u8Encode_ascii (u8Encode_decode hd) (by omega)).mpr hc)⟩

theorem uniP_labels {s u : List Nat} (h : uniP s = .ok u) :
    Each (fun l x => uniLabelP l = .ok x) (splitDot s) (splitDot u) ∧
      ∀ x ∈ splitDot u, x.length ≤ 63 := by
  obtain ⟨us, h1, h2, _⟩ := (uniLoop_ok_iff (splitDot_ne_nil s)).mp h
  rw [List.nil_append] at h2
  have hall : ∀ x ∈ us, x.length ≤ 63 ∧ 0x2E ∉ x := by
    intro x hx
    obtain ⟨l, hl, hr⟩ := each_mem_right h1 hx
    exact uniLabelP_ok (mem_splitDot_nodot hl) hr
  have hne : us ≠ [] := by
    rintro rfl
    cases hs : splitDot s with
    | nil => exact splitDot_ne_nil s hs
    | cons a b => rw [hs] at h1; cases h1
  rw [h2, splitDot_joinDot hne (fun l hl => (hall l hl).2)]
  exact ⟨h1, fun x hx => (hall x hx).1⟩

/-- C20.  To-unicode of any string is free of undefined behaviour, and a result has at most
255 code points and at most 63 in each label. -/
theorem C20_unicode_limits (s : List Nat) :
    (∀ out flags, (idn2_to_unicode_8z4z (some s) out flags : Out _) ≠ .ub) ∧
    (∀ u, ToUniOk s u → u.length ≤ 255 ∧ ∀ l ∈ splitDot u, l.length ≤ 63) := by
  constructor
  · intro out flags
    rw [to_unicode_8z4z_out]
    have := uniP_ne_ub s
    cases h : uniP s with
    | ub => exact absurd h this
    | err e => simp [retOf]
    | ok u => simp [retOf]
  · intro u h
    rw [ToUniOk_iff] at h
    exact ⟨uniP_length h, (uniP_labels h).2⟩

-- "xn--f-0fa.x", 63 and 64 characters, four labels of 63
example : ToUniOk [0x78, 0x6E, 0x2D, 0x2D, 0x66, 0x2D, 0x30, 0x66, 0x61, 0x2E, 0x78]
    [0x66, 0xE4, 0x2E, 0x78] ∧ ToUniOk (List.replicate 63 0x61) (List.replicate 63 0x61) ∧
    ToUniErr (List.replicate 64 0x61) .tooBigLabel ∧
    ToUniOk (joinDot (List.replicate 4 (List.replicate 63 0x61)))
      (joinDot (List.replicate 4 (List.replicate 63 0x61))) ∧
    ToUniErr (joinDot (List.replicate 4 (List.replicate 63 0x61)) ++ [0x2E]) .tooBigDomain := by
  decide +kernel

/-! ### C06: scalar values -/

theorem aceAnyCase_iff {l : List Nat} : aceAnyCase l = true ↔ XnPrefix l := by
  have hx : ∀ a x : Nat, 0x61 ≤ x → x ≤ 0x7A → (asciiLower a = x ↔ a = x ∨ a = x - 0x20) := by
    intro a x h1 h2
    unfold asciiLower; split <;> omega
  have hd : ∀ a : Nat, asciiLower a = 0x2D ↔ a = 0x2D := by
    intro a; unfold asciiLower; split <;> omega
  unfold aceAnyCase XnPrefix
  split
  · simp [hx _ 0x78 (by omega) (by omega), hx _ 0x6E (by omega) (by omega), hd, and_assoc]
  · rename_i h
    match l, h with
    | [], _ => simp
    | [a], _ => simp
    | [a, b], _ => simp
    | [a, b, c], _ => simp
    | a :: b :: c :: d :: r, h => exact absurd rfl (h a b c d r)

/-- C06, what holds: the output consists of ASCII characters other than zero that occur in
the input (or full stops) and of code points that are scalar values or low surrogates.
Without a label that begins with "xn--" all are scalar values.  Low surrogates can occur,
see `C06_violated`. -/
theorem C06_scalar_partial {s u : List Nat} (h0 : 0 ∉ s) (h : ToUniOk s u) :
    (∀ c ∈ u, c ≠ 0 ∧ (isScalar c ∨ (0xDC00 ≤ c ∧ c ≤ 0xDFFF))) ∧
    ((∀ l ∈ splitDot s, ¬ XnPrefix l) → ∀ c ∈ u, isScalar c) := by
  rw [ToUniOk_iff] at h
  constructor
  · intro c hc
    rcases uniP_chars h c hc with ⟨h1, h2⟩ | rfl | h1
    · exact ⟨fun hz => h0 (hz ▸ h1), Or.inl (Or.inl (by omega))⟩
    · exact ⟨by omega, Or.inl (by decide)⟩
    · refine ⟨by omega, ?_⟩
      unfold isScalar; omega
  · intro hx c hc
    rw [← joinDot_splitDot u] at hc
    rcases mem_joinDot hc with rfl | ⟨x, hx', hcx⟩
    · decide
    · obtain ⟨l, hl, hr⟩ := each_mem_right (uniP_labels h).1 hx'
      unfold uniLabelP at hr
      rw [if_neg (fun ha => hx l hl (aceAnyCase_iff.mp ha))] at hr
      cases hd : u8Decode l with
      | none => rw [hd] at hr; cases hr
      | some y =>
        rw [hd] at hr
        simp only at hr
        split at hr
        · cases hr
        · injection hr with hr
          subst hr
          exact u8Decode_isScalar hd c hcx

/-- The code and C06 disagree: "xn--r49b" (as it happens) decodes to the lone surrogate
U+DC00. -/
theorem C06_violated : ∃ s u, ToUniOk s u ∧ ∃ c ∈ u, ¬ isScalar c :=
  ⟨[0x78, 0x6E, 0x2D, 0x2D, 0x72, 0x34, 0x39, 0x62], [0xDC00], by decide +kernel, 0xDC00, by simp, by decide⟩

/-! ### C19: names without A-labels -/

theorem splitDot_utf8s {u : List Nat} (hu : ∀ c ∈ u, isScalar c) :
    splitDot (utf8s u) = (splitDot u).map utf8s := by
  have h := splitDot_u8Encode (u8Encode_utf8s hu)
  have h2 : (splitDot u).map u8Encode = ((splitDot u).map utf8s).map some := by
    rw [List.map_map]
    apply List.map_congr_left
    intro l hl
    exact u8Encode_utf8s fun c hc => hu c (mem_of_mem_splitDot hl hc)
  rw [h2] at h
  exact ((List.map_inj_right (fun _ _ h => Option.some.inj h)).mp h).symm

theorem utf8s_take {k : Nat} {l : List Nat} (h : ∀ c ∈ (utf8s l).take k, c < 0x80) :
    (utf8s l).take k = l.take k := by
  induction k generalizing l with
  | zero => rfl
  | succ k ih =>
    cases l with
    | nil => rfl
    | cons a r =>
      by_cases ha : a < 0x80
      · have e : utf8s (a :: r) = a :: utf8s r := by
          unfold utf8s; rw [List.flatMap_cons]; unfold utf8; rw [if_pos ha]; rfl
        rw [e, List.take_succ_cons, List.take_succ_cons]
        rw [e, List.take_succ_cons] at h
        rw [ih fun c hc => h c (List.mem_cons_of_mem _ hc)]
      · exfalso
        obtain ⟨b, t, hb, e⟩ : ∃ b t, 0x80 ≤ b ∧ utf8 a = b :: t := by
          unfold utf8
          rw [if_neg ha]
          split
          · exact ⟨_, _, (by omega), rfl⟩
          · split
            · exact ⟨_, _, (by omega), rfl⟩
            · exact ⟨_, _, (by omega), rfl⟩
        have : b ∈ (utf8s (a :: r)).take (k + 1) := by
          unfold utf8s; rw [List.flatMap_cons, e]; simp
        have := h b this
        omega

theorem xnPrefix_utf8s {l : List Nat} : XnPrefix (utf8s l) → XnPrefix l := by
  intro h
  unfold XnPrefix at *
  rw [utf8s_take] at h
  · exact h
  · intro c hc
    have : asciiLower c ∈ ((utf8s l).take 4).map asciiLower := List.mem_map_of_mem hc
    rw [h] at this
    simp at this
    unfold asciiLower at this
    split at this <;> omega

theorem uniLabelP_plain {l : List Nat} (hl : ∀ c ∈ l, isScalar c) (hx : ¬ XnPrefix l) :
    uniLabelP (utf8s l) = if l.length ≤ 63 then .ok l else .err .tooBigLabel := by
  unfold uniLabelP
  rw [if_neg fun h => hx (xnPrefix_utf8s (aceAnyCase_iff.mp h)), u8Decode_some_iff.mpr ⟨hl, rfl⟩]
  simp only
  by_cases h : l.length ≤ 63
  · rw [if_pos h, if_neg (by omega)]
  · rw [if_neg h, if_pos (by omega)]

theorem uniLoop_err {ls : List (List Nat)} {out : List Nat} {e : Rc} (h : uniLoop ls out = .err e) :
    e = .tooBigDomain ∨ ∃ l ∈ ls, uniLabelP l = .err e := by
  induction ls generalizing out with
  | nil => cases h
  | cons l ls ih =>
    by_cases hne : ls = []
    · subst hne
      simp only [uniLoop] at h
      cases hl : uniLabelP l with
      | ub => exact absurd hl (uniLabelP_ne_ub l)
      | err e' => rw [hl] at h; injection h with h; subst h; exact Or.inr ⟨l, by simp, hl⟩
      | ok u =>
        rw [hl, Res.bind_ok] at h
        split at h
        · injection h with h; exact Or.inl h.symm
        · cases h
    · rw [uniLoop_cons hne] at h
      cases hl : uniLabelP l with
      | ub => exact absurd hl (uniLabelP_ne_ub l)
      | err e' => rw [hl] at h; injection h with h; subst h; exact Or.inr ⟨l, by simp, hl⟩
      | ok u =>
        rw [hl, Res.bind_ok] at h
        split at h
        · injection h with h; exact Or.inl h.symm
        · rcases ih h with h | ⟨x, hx, he⟩
          · exact Or.inl h
          · exact Or.inr ⟨x, List.mem_cons_of_mem _ hx, he⟩

theorem each_map_left {α β γ : Type} {R : β → γ → Prop} {f : α → β} {as : List α} {bs : List γ}
    (h : Each (fun a b => R (f a) b) as bs) : Each R (as.map f) bs := by
  induction h with
  | nil => exact .nil
  | cons ha _ ih => exact .cons ha ih

theorem each_refl {α : Type} {R : α → α → Prop} {as : List α} (h : ∀ a ∈ as, R a a) :
    Each R as as := by
  induction as with
  | nil => exact .nil
  | cons a as ih =>
    exact .cons (h a List.mem_cons_self) (ih fun x hx => h x (List.mem_cons_of_mem _ hx))

/-- C19.  A well-formed name without a label that begins with "xn--" is returned unchanged
if its labels have at most 63 code points and the name at most 255, and refused otherwise. -/
theorem C19_unicode_identity {u : List Nat} (hu : ∀ c ∈ u, isScalar c)
    (hx : ∀ l ∈ splitDot u, ¬ XnPrefix l) :
    if u.length ≤ 255 ∧ ∀ l ∈ splitDot u, l.length ≤ 63 then ToUniOk (utf8s u) u
    else ToUniErr (utf8s u) .tooBigLabel ∨ ToUniErr (utf8s u) .tooBigDomain := by
  have hlab : ∀ l ∈ splitDot u, uniLabelP (utf8s l) =
      if l.length ≤ 63 then .ok l else .err .tooBigLabel := fun l hl =>
    uniLabelP_plain (fun c hc => hu c (mem_of_mem_splitDot hl hc)) (hx l hl)
  split
  · rename_i h
    rw [ToUniOk_iff]
    unfold uniP
    rw [uniLoop_ok_iff (splitDot_ne_nil _), splitDot_utf8s hu]
    refine ⟨splitDot u, ?_, by rw [joinDot_splitDot]; rfl, h.1⟩
    apply each_map_left
    apply each_refl
    intro l hl
    rw [hlab l hl, if_pos (h.2 l hl)]
  · rename_i h
    rw [ToUniErr_iff, ToUniErr_iff]
    cases hr : uniP (utf8s u) with
    | ub => exact absurd hr (uniP_ne_ub _)
    | ok n =>
      exfalso
      apply h
      obtain ⟨us, h1, h2, h3⟩ := (uniLoop_ok_iff (splitDot_ne_nil _)).mp hr
      rw [splitDot_utf8s hu] at h1
      have key : ∀ {ls us : List (List Nat)}, Each (fun l u => uniLabelP l = .ok u) (ls.map utf8s) us →
          (∀ l ∈ ls, uniLabelP (utf8s l) = if l.length ≤ 63 then .ok l else .err .tooBigLabel) →
          us = ls ∧ ∀ l ∈ ls, l.length ≤ 63 := by
        intro ls
        induction ls with
        | nil => intro us h _; cases h; simp
        | cons l ls ih =>
          intro us h hl
          rw [List.map_cons] at h
          cases h with
          | cons ha hb =>
            obtain ⟨rfl, h2⟩ := ih hb fun x hx => hl x (List.mem_cons_of_mem _ hx)
            rw [hl l List.mem_cons_self] at ha
            split at ha
            · injection ha with ha
              subst ha
              refine ⟨rfl, ?_⟩
              intro x hx
              rcases List.mem_cons.mp hx with rfl | hx
              · assumption
              · exact h2 x hx
            · cases ha
      obtain ⟨rfl, hle⟩ := key h1 hlab
      rw [joinDot_splitDot, List.nil_append] at h2
      subst h2
      exact ⟨h3, hle⟩
    | err e =>
      rcases uniLoop_err hr with rfl | ⟨l, hl, he⟩
      · exact Or.inr rfl
      · left
        rw [splitDot_utf8s hu] at hl
        obtain ⟨x, hx', rfl⟩ := List.mem_map.mp hl
        rw [hlab x hx'] at he
        split at he
        · cases he
        · injection he with he; rw [← he]

-- "ä.b" and a label that only contains "xn--"
example : ToUniOk [0xC3, 0xA4, 0x2E, 0x62] [0xE4, 0x2E, 0x62] ∧
    ToUniOk [0x61, 0x78, 0x6E, 0x2D, 0x2D, 0x61] [0x61, 0x78, 0x6E, 0x2D, 0x2D, 0x61] ∧
    ToUniErr [0x58, 0x6E, 0x2D, 0x2D] .punycodeBadInput := by decide +kernel

/-! ### C18: the other to-unicode entry points -/

/-- C18.  `flags` do not matter, nor does a null output pointer. -/
theorem C18_8z4z (s : List Nat) (out : Option Cell) (flags : Nat) :
    (∀ u, ToUniOk s u → (idn2_to_unicode_8z4z (some s) out flags : Out _) =
      .val (none, out.map fun _ => .buf 0 u)) ∧
    (∀ e, ToUniErr s e → (idn2_to_unicode_8z4z (some s) out flags : Out _) =
      .val (some e, out)) := by
  rw [to_unicode_8z4z_out]
  constructor
  · intro u h; rw [ToUniOk_iff.mp h]; rfl
  · intro e h; rw [ToUniErr_iff.mp h]; rfl

/-- C18.  `idn2_to_unicode_4z4z` is `idn2_to_unicode_8z4z` of the UTF-8 form. -/
theorem C18_4z4z {a : List Nat} (h0 : 0 ∉ a) (out : Option Cell) (flags : Nat) :
    ((∀ c ∈ a, isScalar c) → (idn2_to_unicode_4z4z (some a) out flags : Out _) =
      idn2_to_unicode_8z4z (some (utf8s a)) out flags) ∧
    ((¬ ∀ c ∈ a, isScalar c) → (idn2_to_unicode_4z4z (some a) out flags : Out _) =
      .val (some .encodingError, out)) := by
  constructor
  · intro h
    unfold idn2_to_unicode_4z4z
    simp only [u8Encode_zero h, libConv, Out.malloc_eq, Out.bind_val, Out.pure_eq, cstr_utf8s,
      takeWhile_all h0, Out.touch_eq, Out.free_eq, to_unicode_8z4z_out]
    cases uniP (utf8s a) with
    | ub => rfl
    | err e => rfl
    | ok n => cases out <;> rfl
  · intro h
    unfold idn2_to_unicode_4z4z
    simp [u8Encode_zero_none h, libConv]

theorem cstr_takeWhile (a : List Nat) : cstr (a ++ [0]) = some (a.takeWhile (· != 0)) := by
  induction a with
  | nil => rfl
  | cons c a ih =>
    rw [List.cons_append, cstr]
    by_cases h : c = 0
    · subst h; rfl
    · rw [if_neg h, ih, List.takeWhile_cons_of_pos (by simpa using h)]; rfl

theorem uniP_nozero {s u : List Nat} (h0 : 0 ∉ s) (h : uniP s = .ok u) : 0 ∉ u := by
  intro hc
  rcases uniP_chars h 0 hc with h' | h' | h'
  · exact h0 h'.1
  · omega
  · omega

/-- C18.  `idn2_to_unicode_44i` on an array (up to its first zero): the caller's array
receives as many code points of the result as `*outlen` allows, the rest of it stays as it
is, and `*outlen` becomes the full length. -/
theorem C18_44i {a : List Nat} (ha : ∀ c ∈ a.takeWhile (· != 0), isScalar c)
    {buf : List Nat} {n : Nat} (hbuf : n ≤ buf.length) (flags : Nat) :
    (∀ u, ToUniOk (utf8s (a.takeWhile (· != 0))) u →
      (idn2_to_unicode_44i (some a) (some buf) (some n) flags : Out _) =
        .val (none, some (u.take n ++ buf.drop (min n u.length)), some u.length) ∧
      (idn2_to_unicode_44i (some a) none (some n) flags : Out _) =
        .val (none, none, some u.length)) ∧
    (∀ e, ToUniErr (utf8s (a.takeWhile (· != 0))) e → ∀ out outlen,
      (idn2_to_unicode_44i (some a) out outlen flags : Out _) = .val (some e, out, outlen)) := by
  have h0 : 0 ∉ a.takeWhile (· != 0) := mem_takeWhile_ne a
  have h0' := zero_mem_utf8s h0
  constructor
  · intro u h
    rw [ToUniOk_iff] at h
    have hz := takeWhile_all (uniP_nozero h0' h)
    unfold idn2_to_unicode_44i
    simp only [Out.malloc_eq, Out.bind_val, Out.touch_eq, cstr_takeWhile,
      (C18_4z4z h0 _ _).1 ha, to_unicode_8z4z_out, h, retOf, Out.free_eq, Option.map_some, hz, blit]
    rw [if_pos (by rw [List.length_take]; omega)]
    simp
  · intro e h out outlen
    rw [ToUniErr_iff] at h
    unfold idn2_to_unicode_44i
    simp only [Out.malloc_eq, Out.bind_val, Out.touch_eq, cstr_takeWhile,
      (C18_4z4z h0 _ _).1 ha, to_unicode_8z4z_out, h, retOf, Out.free_eq, Out.pure_eq]

/-- C18.  `idn2_to_unicode_44i` refuses arrays with something else than scalar values. -/
theorem C18_44i_encoding {a : List Nat} (ha : ¬ ∀ c ∈ a.takeWhile (· != 0), isScalar c)
    (out : Option (List Nat)) (outlen : Option Nat) (flags : Nat) :
    (idn2_to_unicode_44i (some a) out outlen flags : Out _) =
      .val (some .encodingError, out, outlen) := by
  unfold idn2_to_unicode_44i
  simp only [Out.malloc_eq, Out.bind_val, Out.touch_eq, cstr_takeWhile,
    (C18_4z4z (mem_takeWhile_ne a) _ _).2 ha, Out.free_eq, Out.pure_eq]

/-- C18.  `idn2_to_unicode_8z8z` stores the result in UTF-8, or fails with
IDN2_ENCODING_ERROR if it has none. -/
theorem C18_8z8z {s : List Nat} (h0 : 0 ∉ s) (out : Option Cell) (flags : Nat) :
    (∀ u, ToUniOk s u → (∀ c ∈ u, isScalar c) →
      (idn2_to_unicode_8z8z (some s) out flags : Out _) =
        .val (none, out.map fun _ => .buf 0 (utf8s u))) ∧
    (∀ u, ToUniOk s u → (¬ ∀ c ∈ u, isScalar c) →
      (idn2_to_unicode_8z8z (some s) out flags : Out _) = .val (some .encodingError, out)) ∧
    (∀ e, ToUniErr s e → (idn2_to_unicode_8z8z (some s) out flags : Out _) =
      .val (some e, out)) := by
  refine ⟨?_, ?_, ?_⟩
  · intro u h hu
    rw [ToUniOk_iff] at h
    have hz := takeWhile_all (uniP_nozero h0 h)
    unfold idn2_to_unicode_8z8z
    simp only [to_unicode_8z4z_out, h, retOf, Out.bind_val, Option.map_some, Out.touch_eq,
      cstr_takeWhile, hz, u8Encode_zero hu, libConv, Out.malloc_eq, Out.pure_eq, Out.free_eq,
      cstr_utf8s]
    cases out <;> rfl
  · intro u h hu
    rw [ToUniOk_iff] at h
    have hz := takeWhile_all (uniP_nozero h0 h)
    unfold idn2_to_unicode_8z8z
    simp only [to_unicode_8z4z_out, h, retOf, Out.bind_val, Option.map_some, Out.touch_eq,
      cstr_takeWhile, hz, u8Encode_zero_none hu, libConv, Out.malloc_eq, Out.pure_eq, Out.free_eq]
  · intro e h
    rw [ToUniErr_iff] at h
    unfold idn2_to_unicode_8z8z
    simp only [to_unicode_8z4z_out, h, retOf, Out.bind_val, Out.pure_eq]

-- "ä.b" into an array with room for two: the third code point is dropped, its length kept
example : (idn2_to_unicode_44i (some [0xE4, 0x2E, 0x62]) (some [1, 2, 3, 4]) (some 2) 0 : Out _) =
      .val (none, some [0xE4, 0x2E, 3, 4], some 3) ∧
    (idn2_to_unicode_8z8z (some [0x58, 0x4E, 0x2D, 0x2D, 0x34, 0x63, 0x61]) (some (.old 0)) 0 :
      Out _) = .val (none, some (.buf 0 [0xC3, 0xA4])) := by decide +kernel

end Idn2
