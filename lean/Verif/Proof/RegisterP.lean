import Verif.Model.Register
import Verif.Props.Entry
import Verif.Props.PunyIff

/-
Closed forms of registration when allocation succeeds.
-/

namespace Idn2
open Spec

/-- Registration of a U-label. -/
def regUP (E : Env) (s : List Nat) (flags : Nat) : Res (List Nat) :=
  if ascii_p s then if s.length > 63 then .err .tooBigLabel else .ok s
  else do
    let p ← u8nfcP E s (has flags IDN2_NFC_INPUT)
    labelTestP E registerMask p
    let enc ← punycode_encode 60 59 p
    .ok (acePrefix ++ enc)

/-- Registration of an A-label. -/
def regAP (E : Env) (ul : Option (List Nat)) (a : List Nat) : Res (List Nat) :=
  if a.length > 63 then .err .tooBigLabel
  else if a.length ≤ 4 then .err .invalidAlabel
  else if a.take 4 ≠ acePrefix then .err .invalidAlabel
  else if !ascii_p a then .err .invalidAlabel
  else do
    let u ← punycode_decode 1020 252 (a.drop 4)
    match u8Encode u with
    | none => .err .encodingError
    | some s =>
      if ul.isSome && ul != some s then .err .ualabelMismatch
      else do
        let tmp ← regUP E s 0
        if a ≠ tmp then .err .ualabelMismatch else .ok a

theorem storeDup_out (s : List Nat) (out : Option Cell) :
    (storeDup s out : Out _) = retOf out (.ok s) := by
  cases out <;> rfl

theorem regU_out (E : Env) (s : List Nat) (out : Option Cell) (flags : Nat) :
    (registerUlabel E s out flags : Out _) = retOf out (regUP E s flags) := by
  unfold registerUlabel regUP
  rw [show IDN2_LABEL_MAX_LENGTH = 63 from rfl]
  split
  · split
    · rfl
    · exact storeDup_out s out
  · rw [u8_to_u32_nfc_out]
    cases u8nfcP E s (has flags IDN2_NFC_INPUT) with
    | err e => simp [retOf]
    | ub => simp [retOf]
    | ok p =>
      simp only [Res.bind_ok, Out.liftR_ok, Out.bind_val, label_test_out]
      cases labelTestP E registerMask p with
      | err e => simp [retOf]
      | ub => simp [retOf]
      | ok _ =>
        simp only [Res.bind_ok, Out.liftR_ok, Out.bind_val, Out.touch_eq, Out.free_eq]
        cases h : punycode_encode 60 59 p with
        | err e => simp [retOf]
        | ub => simp [retOf]
        | ok enc =>
          have := (enc_shape (by omega) (by omega) h).cap
          simp only [Res.bind_ok, Out.liftR_ok, Out.bind_val]
          rw [if_neg (by omega)]
          exact storeDup_out _ out

theorem regUP_ne_ub {E : Env} {D : Data} (W : World E D) (s : List Nat) (flags : Nat) :
    regUP E s flags ≠ .ub := by
  unfold regUP
  split
  · split <;> simp
  · have h := u8nfcP_spec W.tables W.uni s (has flags IDN2_NFC_INPUT)
    cases hp : u8nfcP E s (has flags IDN2_NFC_INPUT) with
    | ub => exact absurd hp h.1
    | err e => simp
    | ok p =>
      have hs := (h.2 p hp).1
      simp only [Res.bind_ok]
      have ht := labelTestP_ne_ub W.tables (fun c hc => isScalar_le (hs c hc)) registerMask
      cases h1 : labelTestP E registerMask p with
      | ub => exact absurd h1 ht
      | err e => simp
      | ok _ =>
        simp only [Res.bind_ok]
        have he := C03_encode_safe (phys := 60) (cap := 59) p (by omega) (by omega)
        cases h2 : punycode_encode 60 59 p with
        | ub => exact absurd h2 he
        | err e => simp
        | ok _ => simp

theorem regAP_ne_ub {E : Env} {D : Data} (W : World E D) (ul : Option (List Nat)) (a : List Nat) :
    regAP E ul a ≠ .ub := by
  unfold regAP
  repeat' split
  all_goals try simp only [ne_eq, reduceCtorEq, not_false_eq_true]
  have hd := C03_decode_safe (phys := 1020) (cap := 252) (a.drop 4) (by omega) (by omega)
  cases h : punycode_decode 1020 252 (a.drop 4) with
  | ub => exact absurd h hd
  | err e => simp
  | ok u =>
    simp only [Res.bind_ok]
    cases u8Encode u with
    | none => simp
    | some s =>
      simp only
      split
      · simp
      · have := regUP_ne_ub W s 0
        cases h' : regUP E s 0 with
        | ub => exact absurd h' this
        | err e => simp
        | ok t => simp only [Res.bind_ok]; split <;> simp

theorem cstr_snoc {s : List Nat} (h : 0 ∉ s) : cstr (s ++ [0]) = some s := cstr_append h []

theorem regA_out (E : Env) (ul : Option (List Nat)) (a : List Nat) (out : Option Cell) :
    (registerAlabel E ul a out : Out _) = retOf out (regAP E ul a) := by
  unfold registerAlabel registerAlabelWith regAP
  rw [show IDN2_LABEL_MAX_LENGTH = 63 from rfl]
  by_cases h1 : a.length > 63
  · rw [if_pos h1, if_pos h1]; rfl
  rw [if_neg h1, if_neg h1]
  by_cases h2 : a.length ≤ 4
  · rw [if_pos h2, if_pos h2]; rfl
  rw [if_neg h2, if_neg h2]
  by_cases h3 : a.take 4 ≠ acePrefix
  · rw [if_pos h3, if_pos h3]; rfl
  rw [if_neg h3, if_neg h3]
  split
  · rfl
  · cases h : punycode_decode 1020 252 (a.drop 4) with
    | err e => simp [retOf]
    | ub => simp [retOf]
    | ok u =>
      obtain ⟨hchars, _, hlen, _⟩ := C05_decode_output (by omega) h
      simp only [Out.liftR_ok, Out.bind_val, Res.bind_ok]
      cases hu : u8Encode u with
      | none => rfl
      | some s =>
        have hsl := u8Encode_length hu
        have h0 : 0 ∉ s := by
          intro hc
          rcases hchars 0 ((mem_u8Encode_ascii hu (by omega)).mp hc) with h' | h'
          · have := h'.1; unfold isLDHU at this; omega
          · omega
        simp only
        rw [List.length_drop] at hlen
        rw [if_neg (by omega), cstr_snoc h0]
        simp only
        split
        · rfl
        · have hself : (registerRec E 1 (some s) none (some (.old 0)) 0 : Out _) =
              registerUlabel E s (some (.old 0)) 0 := rfl
          rw [hself, regU_out]
          cases regUP E s 0 with
          | err e => simp [retOf]
          | ub => simp [retOf]
          | ok t =>
            simp only [retOf, Option.map_some, Out.bind_val, Out.touch_eq, Out.free_eq, Res.bind_ok]
            split
            · rfl
            · exact storeDup_out _ out


end Idn2
