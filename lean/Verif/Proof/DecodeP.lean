import Verif.Model.Decode
import Verif.Spec.Utf8
import Verif.Proof.LabelP

/-
Closed forms of the to-unicode functions when allocation succeeds.
-/

namespace Idn2
open Spec

theorem u8_uctomb_utf8 {c : Nat} (h : isScalar c) : u8_uctomb c = some (utf8 c) := by
  unfold isScalar at h
  unfold u8_uctomb utf8
  by_cases h1 : c < 0x80
  · rw [if_pos h1, if_pos h1]
  · rw [if_neg h1, if_neg h1]
    by_cases h2 : c < 0x800
    · rw [if_pos h2, if_pos h2]
    · rw [if_neg h2, if_neg h2]
      by_cases h3 : c < 0x10000
      · rw [if_pos h3, if_pos h3, if_pos (by omega)]
      · rw [if_neg h3, if_neg h3, if_pos (by omega)]

theorem u8Encode_utf8s {u : List Nat} (h : ∀ c ∈ u, isScalar c) : u8Encode u = some (utf8s u) := by
  induction u with
  | nil => rfl
  | cons c u ih =>
    unfold u8Encode
    rw [u8_uctomb_utf8 (h c List.mem_cons_self)]
    simp only
    rw [ih (fun x hx => h x (List.mem_cons_of_mem _ hx))]
    rfl

theorem u8Encode_none {u : List Nat} (h : ¬ ∀ c ∈ u, isScalar c) : u8Encode u = none := by
  cases h' : u8Encode u with
  | none => rfl
  | some s =>
    exfalso
    apply h
    intro c hc
    have := (u8Encode_isSome (u := u)).mp (by rw [h']; rfl) c hc
    unfold isScalar; omega

theorem u8Encode_some_iff {u s : List Nat} :
    u8Encode u = some s ↔ (∀ c ∈ u, isScalar c) ∧ s = utf8s u := by
  by_cases h : ∀ c ∈ u, isScalar c
  · rw [u8Encode_utf8s h]
    constructor
    · intro h'; injection h' with h'; exact ⟨h, h'.symm⟩
    · rintro ⟨_, rfl⟩; rfl
  · rw [u8Encode_none h]
    constructor
    · intro h'; cases h'
    · rintro ⟨h', _⟩; exact absurd h' h

theorem u8Decode_some_iff {u s : List Nat} :
    u8Decode s = some u ↔ (∀ c ∈ u, isScalar c) ∧ s = utf8s u := by
  rw [u8Decode_iff, u8Encode_some_iff]

theorem wellFormed_iff {s : List Nat} : WellFormed s ↔ ∃ u, u8Decode s = some u := by
  unfold WellFormed
  constructor
  · rintro ⟨u, h1, h2⟩; exact ⟨u, u8Decode_some_iff.mpr ⟨h1, h2⟩⟩
  · rintro ⟨u, h⟩; exact ⟨u, u8Decode_some_iff.mp h⟩

theorem u8Decode_none_iff {s : List Nat} : u8Decode s = none ↔ ¬ WellFormed s := by
  rw [wellFormed_iff]
  cases u8Decode s <;> simp

/-! ### The label loop -/

/-- One label of to-unicode. -/
def uniLabelP (lbl : List Nat) : Res (List Nat) :=
  if aceAnyCase lbl then punycode_decode 63 63 (lbl.drop 4)
  else
    match u8Decode lbl with
    | none => .err .encodingError
    | some u => if u.length > 63 then .err .tooBigLabel else .ok u

/-- The label loop over the list of labels. -/
def uniLoop : List (List Nat) → List Nat → Res (List Nat)
  | [], out => .ok out
  | [l], out => do
    let u ← uniLabelP l
    if out.length + u.length > 255 then .err .tooBigDomain else .ok (out ++ u)
  | l :: ls, out => do
    let u ← uniLabelP l
    if out.length + u.length + 1 > 255 then .err .tooBigDomain
    else uniLoop ls (out ++ u ++ [0x2E])

theorem uniLoop_cons {l : List Nat} {ls : List (List Nat)} (h : ls ≠ []) (out : List Nat) :
    uniLoop (l :: ls) out = (do
      let u ← uniLabelP l
      if out.length + u.length + 1 > 255 then .err .tooBigDomain
      else uniLoop ls (out ++ u ++ [0x2E])) := by
  cases ls with
  | nil => exact absurd rfl h
  | cons x xs => rfl

theorem uniLabelP_nil : uniLabelP [] = .ok [] := rfl

theorem uniLabel_out (lbl out : List Nat) (dot : Nat) :
    (toUnicodeLabel lbl out dot : Out _) =
      liftR (do
        let u ← uniLabelP lbl
        if out.length + u.length + dot > 255 then .err .tooBigDomain else .ok u) := by
  unfold toUnicodeLabel uniLabelP
  rw [show IDN2_DOMAIN_MAX_LENGTH = 255 from rfl, show IDN2_LABEL_MAX_LENGTH = 63 from rfl]
  split
  · cases punycode_decode 63 63 (lbl.drop 4) with
    | err e => simp
    | ub => simp
    | ok u =>
      simp only [Out.liftR_ok, Out.bind_val, Res.bind_ok]
      split <;> simp
  · cases u8Decode lbl with
    | none => simp [libConv]
    | some u =>
      simp only [libConv, Out.malloc_eq, Out.bind_val, Out.pure_eq, Out.free_eq, Out.touch_eq]
      split
      · simp
      · simp only [Res.bind_ok]
        split <;> simp

theorem toUnicodeLoop_out (s out : List Nat) (ho : out.length ≤ 255) :
    (toUnicodeLoop s out : Out _) = liftR (uniLoop (splitDot s) out) := by
  generalize hn : s.length = n
  induction n using Nat.strongRecOn generalizing s out with
  | _ n ih =>
    rw [toUnicodeLoop.eq_def]
    by_cases hs : s = []
    · subst hs
      simp only [↓reduceIte, Out.pure_eq, splitDot, uniLoop, uniLabelP_nil, Res.bind_ok,
        List.length_nil, Nat.add_zero, List.append_nil]
      rw [if_neg (by omega)]; rfl
    · rw [if_neg hs]
      rw [uniLabel_out, splitDot_eq s]
      cases hd : s.dropWhile (· != 0x2E) with
      | nil =>
        simp only [↓reduceIte, uniLoop, Nat.add_zero]
        cases hu : uniLabelP (s.takeWhile (· != 0x2E)) with
        | err e => simp
        | ub => simp
        | ok u =>
          simp only [Res.bind_ok]
          by_cases hle : out.length + u.length > 255
          · rw [if_pos hle, if_pos hle]; simp
          · rw [if_neg hle, if_neg hle]
            simp only [Out.liftR_ok, Out.bind_val]
            rw [if_neg (by omega)]
            rfl
      | cons c rest =>
        simp only [reduceCtorEq, ↓reduceIte]
        rw [uniLoop_cons (splitDot_ne_nil rest)]
        cases hu : uniLabelP (s.takeWhile (· != 0x2E)) with
        | err e => simp
        | ub => simp
        | ok u =>
          simp only [Res.bind_ok]
          by_cases hle : out.length + u.length + 1 > 255
          · rw [if_pos hle, if_pos hle]; simp
          · rw [if_neg hle, if_neg hle]
            simp only [Out.liftR_ok, Out.bind_val]
            rw [if_neg (by omega)]
            rw [if_neg (by omega)]
            have := dropWhile_length_le (· != 0x2E) s
            rw [hd, List.length_cons] at this
            exact ih rest.length (by omega) rest _ (by simp; omega) rfl

theorem uniLoop_ok_iff {ls : List (List Nat)} (hls : ls ≠ []) {out n : List Nat} :
    uniLoop ls out = .ok n ↔ ∃ us, Each (fun l u => uniLabelP l = .ok u) ls us ∧
      n = out ++ joinDot us ∧ n.length ≤ 255 := by
  induction ls generalizing out with
  | nil => exact absurd rfl hls
  | cons l ls ih =>
    by_cases hne : ls = []
    · subst hne
      simp only [uniLoop, Res.bind_eq_ok]
      constructor
      · rintro ⟨u, h1, h2⟩
        split at h2
        · cases h2
        · injection h2 with h2
          exact ⟨[u], .cons h1 .nil, h2.symm, by rw [← h2]; simp; omega⟩
      · rintro ⟨us, h1, h2, h3⟩
        cases h1 with
        | cons ha hb =>
          cases hb
          refine ⟨_, ha, ?_⟩
          simp only [joinDot] at h2
          subst h2
          rw [List.length_append] at h3
          rw [if_neg (by omega)]
    · rw [uniLoop_cons hne, Res.bind_eq_ok]
      constructor
      · rintro ⟨u, h1, h2⟩
        split at h2
        · cases h2
        · obtain ⟨us, h3, h4, h5⟩ := (ih hne).mp h2
          have hus : us ≠ [] := by
            rintro rfl; cases h3; exact hne rfl
          exact ⟨u :: us, .cons h1 h3, by rw [joinDot_cons hus, h4]; simp, h5⟩
      · rintro ⟨us, h1, h2, h3⟩
        cases h1 with
        | @cons _ u _ us ha hb =>
          have hus : us ≠ [] := by
            rintro rfl; cases hb; exact hne rfl
          rw [joinDot_cons hus] at h2
          refine ⟨u, ha, ?_⟩
          have hl : n.length = out.length + u.length + 1 + (joinDot us).length := by
            rw [h2]; simp; omega
          rw [if_neg (by omega)]
          exact (ih hne).mpr ⟨us, hb, by rw [h2]; simp, h3⟩

theorem uniLabelP_ne_ub (l : List Nat) : uniLabelP l ≠ .ub := by
  unfold uniLabelP
  split
  · exact C03_decode_safe (phys := 63) (cap := 63) _ (by omega) (by omega)
  · cases u8Decode l with
    | none => simp
    | some u => simp only; split <;> simp

theorem uniLoop_ne_ub (ls : List (List Nat)) (out : List Nat) : uniLoop ls out ≠ .ub := by
  induction ls generalizing out with
  | nil => simp [uniLoop]
  | cons l ls ih =>
    have h1 := uniLabelP_ne_ub l
    by_cases hne : ls = []
    · subst hne
      simp only [uniLoop]
      cases h : uniLabelP l with
      | ub => exact absurd h h1
      | err e => simp
      | ok u => simp only [Res.bind_ok]; split <;> simp
    · rw [uniLoop_cons hne]
      cases h : uniLabelP l with
      | ub => exact absurd h h1
      | err e => simp
      | ok u =>
        simp only [Res.bind_ok]
        split
        · simp
        · exact ih _

/-! ### The entry points -/

/-- To-unicode of a string of bytes. -/
def uniP (s : List Nat) : Res (List Nat) := uniLoop (splitDot s) []

theorem uniP_ne_ub (s : List Nat) : uniP s ≠ .ub := uniLoop_ne_ub _ _

theorem uniP_length {s n : List Nat} (h : uniP s = .ok n) : n.length ≤ 255 := by
  obtain ⟨_, _, _, h⟩ := (uniLoop_ok_iff (splitDot_ne_nil s)).mp h
  exact h

theorem to_unicode_8z4z_out (s : List Nat) (out : Option Cell) (flags : Nat) :
    (idn2_to_unicode_8z4z (some s) out flags : Out _) = retOf out (uniP s) := by
  unfold idn2_to_unicode_8z4z
  simp only
  rw [toUnicodeLoop_out s [] (by simp), show uniLoop (splitDot s) [] = uniP s from rfl]
  cases h : uniP s with
  | err e => simp [retOf]
  | ub => simp [retOf]
  | ok n =>
    have := uniP_length h
    simp only [Out.liftR_ok, Out.bind_val]
    cases out with
    | none => simp [retOf]
    | some c =>
      simp only
      rw [if_neg (by omega)]
      simp [retOf]

/-- The code points of a successful conversion. -/
theorem uniP_chars {s n : List Nat} (h : uniP s = .ok n) : ∀ c ∈ n,
    (c ∈ s ∧ c < 0x80) ∨ c = 0x2E ∨ (0x80 ≤ c ∧ c ≤ 0x10FFFF ∧ ¬ (0xD800 ≤ c ∧ c ≤ 0xDBFF)) := by
  obtain ⟨us, h1, h2, _⟩ := (uniLoop_ok_iff (splitDot_ne_nil s)).mp h
  rw [List.nil_append] at h2
  subst h2
  intro c hc
  rcases mem_joinDot hc with rfl | ⟨u, hu, hcu⟩
  · exact Or.inr (Or.inl rfl)
  · have : ∀ {ls us : List (List Nat)}, Each (fun l u => uniLabelP l = .ok u) ls us → u ∈ us →
        ∃ l ∈ ls, uniLabelP l = .ok u := by
      intro ls us h hu
      induction h with
      | nil => cases hu
      | cons ha hb ih =>
        rcases List.mem_cons.mp hu with rfl | hu
        · exact ⟨_, List.mem_cons_self, ha⟩
        · obtain ⟨l, hl, hr⟩ := ih hu
          exact ⟨l, List.mem_cons_of_mem _ hl, hr⟩
    obtain ⟨l, hl, hr⟩ := this h1 hu
    unfold uniLabelP at hr
    split at hr
    · rcases (C05_decode_output (by omega) hr).1 c hcu with h | h
      · left
        refine ⟨mem_of_mem_splitDot hl (List.mem_of_mem_drop h.2), ?_⟩
        have := h.1; unfold isLDHU at this; omega
      · exact Or.inr (Or.inr h)
    · cases hd : u8Decode l with
      | none => rw [hd] at hr; cases hr
      | some x =>
        rw [hd] at hr
        simp only at hr
        split at hr
        · cases hr
        · injection hr with hr
          subst hr
          by_cases hlt : c < 0x80
          · left
            exact ⟨mem_of_mem_splitDot hl
              ((mem_u8Encode_ascii (u8Encode_decode hd) hlt).mpr hcu), hlt⟩
          · right; right
            have := u8Decode_isScalar hd c hcu
            unfold isScalar at this; omega

theorem cstr_encode {a b : List Nat} (h0 : 0 ∉ a) (h : u8Encode a = some b) :
    u8Encode (a ++ [0]) = some (b ++ [0]) ∧ cstr (b ++ [0]) = some b := by
  constructor
  · rw [u8Encode_append, h]; simp [u8Encode, u8_uctomb]
  · exact cstr_append (fun hc => h0 ((mem_u8Encode_ascii h (by omega)).mp hc)) []

theorem u8Encode_append_zero_none {a : List Nat} (h : u8Encode a = none) :
    u8Encode (a ++ [0]) = none := by
  rw [u8Encode_append, h]; rfl

end Idn2
