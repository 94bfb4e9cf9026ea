import Verif.Proof.LabelTest
import Verif.Proof.Utf8
import Verif.Proof.Domain
import Verif.Model.Lookup
import Verif.Spec.Tr46
import Verif.Spec.Laws

/-
Closed forms of the lookup functions when allocation succeeds: the same computations
without the memory operations, label by label.
-/

namespace Idn2
open Spec

/-! ### `label` -/

/-- `_idn2_u8_to_u32_nfc` without memory. -/
def u8nfcP (E : Env) (src : List Nat) (nfc : Bool) : Res (List Nat) :=
  match u8Decode src with
  | none => .err .encodingError
  | some p =>
    if nfc then do
      let r ← isNFC E p
      if r = 0 then
        match E.U.nfc p with
        | none => .err .nfc
        | some t => .ok t
      else .ok p
    else .ok p

theorem u8_to_u32_nfc_out (E : Env) (src : List Nat) (nfc : Bool) :
    (u8_to_u32_nfc E src nfc : Out _) = liftR ((u8nfcP E src nfc) >>= fun p => .ok (p, 0)) := by
  unfold u8_to_u32_nfc u8nfcP libConv
  cases u8Decode src with
  | none => simp
  | some p =>
    cases nfc with
    | false => simp
    | true =>
      simp only [Out.malloc_eq, Out.bind_val, Out.pure_eq, Out.touch_eq, ↓reduceIte]
      cases isNFC E p with
      | err e => simp
      | ub => simp
      | ok r =>
        simp only [Out.liftR_ok, Out.bind_val, Res.bind_ok]
        split
        · cases E.U.nfc p <;> simp
        · simp

/-- The label test of `label`, which transitional processing skips; lookup.c:190-208. -/
def labelTestIf (E : Env) (flags : Nat) (p : List Nat) : Res Unit :=
  if has flags IDN2_TRANSITIONAL then .ok () else labelTestP E (labelMask flags) p

/-- `label` from the conversion to UTF-32 on, without memory. -/
def labelConvertP (E : Env) (src : List Nat) (roundtrip : Option (List Nat)) (flags : Nat) :
    Res (List Nat) := do
  let p ← u8nfcP E src (has flags IDN2_NFC_INPUT)
  labelTestIf E flags p
  labelFinish roundtrip p flags

theorem labelConvert_out (E : Env) (src : List Nat) (rt : Option (List Nat)) (a : Option Nat)
    (flags : Nat) : (labelConvert E src rt a flags : Out _) = liftR (labelConvertP E src rt flags) := by
  unfold labelConvert labelConvertP
  rw [u8_to_u32_nfc_out]
  cases u8nfcP E src (has flags IDN2_NFC_INPUT) with
  | err e => simp
  | ub => simp
  | ok p =>
    simp only [Res.bind_ok, Out.liftR_ok, Out.bind_val]
    have : (if has flags IDN2_TRANSITIONAL then pure (.ok ())
        else (label_test E (labelMask flags) p : Out (Except Rc Unit))) = liftR (labelTestIf E flags p) := by
      unfold labelTestIf
      split
      · rfl
      · exact label_test_out E _ p
    rw [this]
    cases labelTestIf E flags p with
    | err e => simp
    | ub => simp
    | ok u =>
      simp only [Out.liftR_ok, Out.bind_val, Res.bind_ok, Out.touch_eq, Out.free_eq, Out.freeOpt_eq]
      cases labelFinish rt p flags <;> rfl

/-- Does `label` treat the label as an A-label? -/
def isAce (flags : Nat) (src : List Nat) : Bool :=
  !has flags IDN2_NO_ALABEL_ROUNDTRIP && src.length ≥ 4 && src.take 4 == acePrefix

/-- `label` without memory. -/
def labelP (E : Env) (src : List Nat) (flags : Nat) : Res (List Nat) :=
  if ascii_p src then
    if isAce flags src then do
      let u ← punycode_decode 63 63 (src.drop 4)
      match u8Encode u with
      | none => .err .encodingError
      | some src8 => labelConvertP E src8 (some src) flags
    else if src.length > 63 then .err .tooBigLabel
    else .ok src
  else labelConvertP E src none flags

theorem label_out (E : Env) (src : List Nat) (flags : Nat) :
    (label E src flags : Out _) = liftR (labelP E src flags) := by
  unfold label labelP isAce
  split
  · split
    · cases punycode_decode 63 63 (src.drop 4) with
      | err e => simp
      | ub => simp
      | ok u =>
        simp only [Out.liftR_ok, Out.bind_val, Res.bind_ok, libConv, Out.malloc_eq]
        cases u8Encode u with
        | none => simp
        | some s => simp [labelConvert_out]
    · unfold IDN2_LABEL_MAX_LENGTH
      split
      · simp
      · simp
  · exact labelConvert_out E src none none flags

/-! ### The label loop -/

/-- The label loop over the list of labels. -/
def loopL (E : Env) (flags : Nat) : List (List Nat) → List Nat → Res (List Nat)
  | [], name => .ok name
  | [l], name => do
    let tmp ← labelP E l flags
    if name.length + tmp.length > 255 - (if tmp.length = 0 then 1 else 2) then .err .tooBigDomain
    else .ok (name ++ tmp)
  | l :: ls, name => do
    let tmp ← labelP E l flags
    if name.length + tmp.length > 253 then .err .tooBigDomain
    else loopL E flags ls (name ++ tmp ++ [0x2E])

theorem loopL_cons {E : Env} {flags : Nat} {l : List Nat} {ls : List (List Nat)} (h : ls ≠ [])
    (name : List Nat) : loopL E flags (l :: ls) name = (do
    let tmp ← labelP E l flags
    if name.length + tmp.length > 253 then .err .tooBigDomain
    else loopL E flags ls (name ++ tmp ++ [0x2E])) := by
  cases ls with
  | nil => exact absurd rfl h
  | cons x xs => rfl

theorem lookupLoop_out (E : Env) (flags : Nat) (a : Option Nat) (src name : List Nat) :
    (lookupLoop E flags a src name : Out _) = liftR (loopL E flags (splitDot src) name) := by
  generalize hn : src.length = n
  induction n using Nat.strongRecOn generalizing src name with
  | _ n ih =>
    rw [lookupLoop.eq_def, splitDot_eq]
    rw [Out.touchOpt_eq, Out.bind_val, label_out]
    split
    · rename_i hd
      rw [hd]
      simp only [loopL]
      cases labelP E (src.takeWhile (· != 0x2E)) flags with
      | err e => simp
      | ub => simp
      | ok tmp =>
        simp only [Out.liftR_ok, Out.bind_val, Res.bind_ok]
        rw [show IDN2_DOMAIN_MAX_LENGTH = 255 from rfl]
        by_cases hle : name.length + tmp.length > 255 - (if tmp.length = 0 then 1 else 2)
        · rw [if_pos hle, if_pos hle]; simp
        · rw [if_neg hle, if_neg hle, if_neg (by split at hle <;> omega)]
          simp
    · rename_i c rest hd
      rw [hd]
      simp only
      rw [loopL_cons (splitDot_ne_nil rest)]
      cases labelP E (src.takeWhile (· != 0x2E)) flags with
      | err e => simp
      | ub => simp
      | ok tmp =>
        simp only [Out.liftR_ok, Out.bind_val, Res.bind_ok]
        rw [show IDN2_DOMAIN_MAX_LENGTH = 255 from rfl]
        by_cases hle : name.length + tmp.length > 253
        · rw [if_pos hle, if_pos hle]; simp
        · rw [if_neg hle, if_neg hle, if_neg (by omega), if_neg (by omega), if_neg (by omega)]
          have := dropWhile_length_le (· != 0x2E) src
          rw [hd, List.length_cons] at this
          exact ih rest.length (by omega) rest _ rfl

/-- All labels converted. -/
def mapLabels (E : Env) (flags : Nat) : List (List Nat) → Res (List (List Nat))
  | [] => .ok []
  | l :: ls => do
    let d ← labelP E l flags
    let ds ← mapLabels E flags ls
    .ok (d :: ds)

theorem mapLabels_ok_cons {E : Env} {flags : Nat} {l : List Nat} {ls ds : List (List Nat)} :
    mapLabels E flags (l :: ls) = .ok ds ↔
      ∃ d ds', ds = d :: ds' ∧ labelP E l flags = .ok d ∧ mapLabels E flags ls = .ok ds' := by
  simp only [mapLabels, Res.bind_eq_ok]
  constructor
  · rintro ⟨d, h1, ds', h2, h3⟩
    injection h3 with h3
    exact ⟨d, ds', h3.symm, h1, h2⟩
  · rintro ⟨d, ds', rfl, h1, h2⟩
    exact ⟨d, h1, ds', h2, rfl⟩

/-- The limit for a name: 253, or 254 when the last label is empty. -/
def nameLimit (ds : List (List Nat)) : Nat := if ds.getLast? = some [] then 254 else 253

theorem loopL_ok_iff {E : Env} {flags : Nat} {ls : List (List Nat)} (hls : ls ≠ []) {name n : List Nat} :
    loopL E flags ls name = .ok n ↔ ∃ ds, mapLabels E flags ls = .ok ds ∧ n = name ++ joinDot ds ∧
      n.length ≤ nameLimit ds := by
  induction ls generalizing name with
  | nil => exact absurd rfl hls
  | cons l ls ih =>
    cases ls with
    | nil =>
      simp only [loopL, Res.bind_eq_ok]
      constructor
      · rintro ⟨d, h1, h2⟩
        by_cases hle : name.length + d.length > 255 - (if d.length = 0 then 1 else 2)
        · rw [if_pos hle] at h2; cases h2
        · rw [if_neg hle] at h2
          injection h2 with h2
          refine ⟨[d], by rw [mapLabels_ok_cons]; exact ⟨d, [], rfl, h1, rfl⟩, h2.symm, ?_⟩
          rw [← h2, List.length_append]
          unfold nameLimit
          simp only [List.getLast?_singleton, Option.some.injEq]
          by_cases hd : d = []
          · subst hd; simp only [List.length_nil, ↓reduceIte] at hle ⊢; omega
          · have : d.length ≠ 0 := fun h => hd (List.length_eq_zero_iff.mp h)
            rw [if_neg this] at hle
            rw [if_neg hd]; omega
      · rintro ⟨ds, h1, h2, h3⟩
        obtain ⟨d, ds', rfl, h4, h5⟩ := mapLabels_ok_cons.mp h1
        have : ds' = [] := by simpa [mapLabels] using h5.symm
        subst this
        refine ⟨d, h4, ?_⟩
        simp only [joinDot] at h2
        subst h2
        unfold nameLimit at h3
        simp only [List.getLast?_singleton, Option.some.injEq, List.length_append] at h3
        rw [if_neg]
        by_cases hd : d = []
        · subst hd; simp only [List.length_nil, ↓reduceIte] at h3 ⊢; omega
        · have : d.length ≠ 0 := fun h => hd (List.length_eq_zero_iff.mp h)
          rw [if_neg hd] at h3
          rw [if_neg this]; omega
    | cons x xs =>
      rw [loopL_cons (by simp), Res.bind_eq_ok]
      constructor
      · rintro ⟨d, h1, h2⟩
        split at h2
        · cases h2
        · obtain ⟨ds', h3, h4, h5⟩ := (ih (by simp)).mp h2
          have hne : ds' ≠ [] := by
            obtain ⟨_, _, rfl, _⟩ := mapLabels_ok_cons.mp h3
            simp
          refine ⟨d :: ds', mapLabels_ok_cons.mpr ⟨d, ds', rfl, h1, h3⟩, ?_, ?_⟩
          · rw [joinDot_cons hne, h4]; simp
          · unfold nameLimit at h5 ⊢
            rw [List.getLast?_cons_of_ne_nil hne]
            exact h5
      · rintro ⟨ds, h1, h2, h3⟩
        obtain ⟨d, ds', rfl, h4, h5⟩ := mapLabels_ok_cons.mp h1
        have hne : ds' ≠ [] := by
          obtain ⟨_, _, rfl, _⟩ := mapLabels_ok_cons.mp h5
          simp
        refine ⟨d, h4, ?_⟩
        rw [joinDot_cons hne] at h2
        unfold nameLimit at h3
        rw [List.getLast?_cons_of_ne_nil hne] at h3
        rw [if_neg]
        · refine (ih (by simp)).mpr ⟨ds', h5, ?_, h3⟩
          rw [h2]; simp
        · have : n.length = name.length + d.length + 1 + (joinDot ds').length := by
            rw [h2]; simp; omega
          have hj : ds'.getLast? ≠ some [] → 1 ≤ (joinDot ds').length := by
            intro hl
            obtain ⟨y, hy⟩ : ∃ y, ds'.getLast? = some y := by
              cases h : ds'.getLast? with
              | none => rw [List.getLast?_eq_none_iff] at h; exact absurd h hne
              | some y => exact ⟨y, rfl⟩
            have := length_le_joinDot (List.mem_of_getLast? hy)
            have : y ≠ [] := by rintro rfl; exact hl hy
            have : 0 < y.length := List.length_pos_iff.mpr this
            omega
          split at h3
          · omega
          · rename_i hl
            have := hj hl
            omega

end Idn2
