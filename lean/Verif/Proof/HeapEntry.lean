import Verif.Proof.HeapP
import Verif.Proof.RegisterP
import Verif.Props.Unicode

/-
The heap instance of the remaining entry points.
-/

namespace Idn2
open Spec

variable {F : Nat → Bool} {L : List Nat}

/-- An entry point called for a block of its own. -/
theorem ends_some {v : Res (List Nat)} {c : Cell} {r : Option Rc × Option Cell} {L' : List Nat}
    (h : Ends F v (some c) L r L') : ((∃ k, F k = true) ∧ r = (some .malloc, some c) ∧ L' = L) ∨
      (∃ e, v = .err e ∧ r = (some e, some c) ∧ L' = L) ∨
      ∃ n p, v = .ok n ∧ r = (none, some (.buf p n)) ∧ L' = p :: L := by
  rcases h with h | h | ⟨_, _, h, _⟩ | ⟨n, c, p, h1, h2, h3, h4⟩
  · exact Or.inl h
  · exact Or.inr (Or.inl h)
  · cases h
  · exact Or.inr (Or.inr ⟨n, p, h1, h3, h4⟩)

/-- The input block `up` is freed after the call. -/
theorem tri_freeAfter {v : Res (List Nat)} {out : Option Cell} {up : Nat}
    {x : HeapM (Option Rc × Option Cell)} (h : Tri F x (up :: L) (Ends F v out (up :: L))) :
    Tri F (do
      let r ← x
      cfree up
      pure r) (up :: L) (Ends F v out L) := by
  refine Tri.bind h ?_
  rintro _ _ hn (⟨hk, rfl, rfl⟩ | ⟨e, he, rfl, rfl⟩ | ⟨n, he, ho, rfl, rfl⟩ | ⟨n, c, p, he, ho, rfl, rfl⟩)
  · refine Tri.bind Tri.freeHead ?_
    rintro _ _ _ rfl
    exact Tri.pure (Or.inl ⟨hk, rfl, rfl⟩)
  · refine Tri.bind Tri.freeHead ?_
    rintro _ _ _ rfl
    exact Tri.pure (Or.inr (Or.inl ⟨e, he, rfl, rfl⟩))
  · refine Tri.bind Tri.freeHead ?_
    rintro _ _ _ rfl
    exact Tri.pure (Or.inr (Or.inr (Or.inl ⟨n, he, ho, rfl, rfl⟩)))
  · refine Tri.bind (Tri.freeSecond hn) ?_
    rintro _ _ _ rfl
    exact Tri.pure (Or.inr (Or.inr (Or.inr ⟨n, c, p, he, ho, rfl, rfl⟩)))

/-- After an inner call for a block of its own: hand it out or free it. -/
theorem tri_handOut {v : Res (List Nat)} {c0 : Cell} {out : Option Cell} {up : Nat}
    {x : HeapM (Option Rc × Option Cell)}
    (h : Tri F x (up :: L) (Ends F v (some c0) (up :: L))) :
    Tri F (do
      let (rc, o) ← x
      cfree up
      match rc with
      | some e => pure (some e, out)
      | none =>
        match out with
        | some _ => pure (none, o)
        | none =>
          match o with
          | some (.buf p _) => do
            cfree p
            pure (none, none)
          | some .null => pure (none, none)
          | _ => cub) (up :: L) (Ends F v out L) := by
  refine Tri.bind h ?_
  intro r L' hn hr
  rcases ends_some hr with ⟨hk, rfl, rfl⟩ | ⟨e, he, rfl, rfl⟩ | ⟨n, p, he, rfl, rfl⟩
  · refine Tri.bind Tri.freeHead ?_
    rintro _ _ _ rfl
    exact Tri.pure (Or.inl ⟨hk, rfl, rfl⟩)
  · refine Tri.bind Tri.freeHead ?_
    rintro _ _ _ rfl
    exact Tri.pure (Or.inr (Or.inl ⟨e, he, rfl, rfl⟩))
  · refine Tri.bind (Tri.freeSecond hn) ?_
    rintro _ _ _ rfl
    cases out with
    | some c => exact Tri.pure (Or.inr (Or.inr (Or.inr ⟨n, c, p, he, rfl, rfl, rfl⟩)))
    | none =>
      refine Tri.bind Tri.freeHead ?_
      rintro _ _ _ rfl
      exact Tri.pure (Or.inr (Or.inr (Or.inl ⟨n, he, rfl, rfl, rfl⟩)))

/-! ### To-ASCII -/

/-- Lookup of a string in the locale's encoding. -/
def ulP (E : Env) (D : Data) (flags : Nat) (s : List Nat) : Res (List Nat) :=
  match E.U.fromLocale s with
  | none => .err .iconvFail
  | some t => lookupF E D (flags ||| IDN2_NFC_INPUT) t

theorem tri_lookup_ul {E : Env} {D : Data} (W : World E D) (flags : Nat) {s : List Nat}
    (h0 : ∀ t, E.U.fromLocale s = some t → 0 ∉ t) (out : Option Cell) :
    Tri F (idn2_lookup_ul E (some s) out flags : HeapM _) L (Ends F (ulP E D flags s) out L) := by
  unfold idn2_lookup_ul ulP
  refine Tri.bind (tri_libConv _) ?_
  rintro _ _ _ (⟨hk, rfl, rfl⟩ | ⟨hf, rfl, rfl⟩ | ⟨t, p, hf, rfl, rfl⟩)
  · exact Tri.pure (Or.inl ⟨hk, rfl, rfl⟩)
  · rw [hf]
    exact Tri.pure (Or.inr (Or.inl ⟨_, rfl, rfl, rfl⟩))
  · rw [hf]
    refine Tri.bind Tri.touchHead ?_
    rintro _ _ _ rfl
    exact tri_freeAfter (tri_lookup_u8 W.tables W.uni W.data _ (h0 t hf) out)

/-- Lookup of an array of code points, up to its first zero. -/
def arrP (E : Env) (D : Data) (flags : Nat) (a : List Nat) : Res (List Nat) :=
  match u8Encode (a ++ [0]) with
  | none => .err .encodingError
  | some _ => lookupF E D flags (utf8s (a.takeWhile (· != 0)))

theorem arr_cstr {a b : List Nat} (h : u8Encode (a ++ [0]) = some b) :
    cstr b = some (utf8s (a.takeWhile (· != 0))) := by
  rw [(u8Encode_some_iff.mp h).2, cstr_utf8s]

theorem tri_4i2 {E : Env} {D : Data} (W : World E D) (flags : Nat) (a : List Nat)
    (out : Option Cell) :
    Tri F (idn2_to_ascii_4i2 E (some a) out flags : HeapM _) L (Ends F (arrP E D flags a) out L) := by
  unfold idn2_to_ascii_4i2 arrP
  refine Tri.bind Tri.malloc ?_
  rintro _ _ _ (⟨hk, rfl, rfl⟩ | ⟨ip, rfl, rfl⟩)
  · exact Tri.pure (Or.inl ⟨hk, rfl, rfl⟩)
  refine Tri.bind Tri.touchHead ?_
  rintro _ _ _ rfl
  refine Tri.bind (tri_libConv _) ?_
  rintro _ _ hn (⟨hk, rfl, rfl⟩ | ⟨hf, rfl, rfl⟩ | ⟨b, up, hf, rfl, rfl⟩)
  · refine Tri.bind Tri.freeHead ?_
    rintro _ _ _ rfl
    exact Tri.pure (Or.inl ⟨hk, rfl, rfl⟩)
  · refine Tri.bind Tri.freeHead ?_
    rintro _ _ _ rfl
    rw [hf]
    exact Tri.pure (Or.inr (Or.inl ⟨_, rfl, rfl, rfl⟩))
  · refine Tri.bind (Tri.freeSecond hn) ?_
    rintro _ _ _ rfl
    rw [hf]
    simp only [arr_cstr hf]
    refine Tri.bind Tri.touchHead ?_
    rintro _ _ _ rfl
    exact tri_handOut (tri_lookup_u8 W.tables W.uni W.data _ (zero_mem_utf8s (mem_takeWhile_ne a)) _)

theorem tri_4z {E : Env} {D : Data} (W : World E D) (flags : Nat) (a : List Nat)
    (out : Option Cell) :
    Tri F (idn2_to_ascii_4z E (some a) out flags : HeapM _) L (Ends F (arrP E D flags a) out L) := by
  unfold idn2_to_ascii_4z arrP
  refine Tri.bind (tri_libConv _) ?_
  rintro _ _ hn (⟨hk, rfl, rfl⟩ | ⟨hf, rfl, rfl⟩ | ⟨b, up, hf, rfl, rfl⟩)
  · exact Tri.pure (Or.inl ⟨hk, rfl, rfl⟩)
  · rw [hf]
    exact Tri.pure (Or.inr (Or.inl ⟨_, rfl, rfl, rfl⟩))
  · rw [hf]
    simp only [arr_cstr hf]
    refine Tri.bind Tri.touchHead ?_
    rintro _ _ _ rfl
    exact tri_freeAfter (tri_lookup_u8 W.tables W.uni W.data _
      (zero_mem_utf8s (mem_takeWhile_ne a)) out)

/-- A caller's array after the bytes `n` have been stored. -/
def stored (out : Option (List Nat)) (n : List Nat) : Option (List Nat) :=
  out.map fun buf => n ++ buf.drop n.length

/-- An entry point that fills an array of the caller is done; it keeps nothing. -/
def EndsBuf {α : Type} (F : Nat → Bool) (v : Res (List Nat)) (fail : Rc → α) (ok : List Nat → α)
    (L : List Nat) (r : α) (L' : List Nat) : Prop :=
  L' = L ∧ (((∃ k, F k = true) ∧ r = fail .malloc) ∨ (∃ e, v = .err e ∧ r = fail e) ∨
    ∃ n, v = .ok n ∧ r = ok n)

/-- `idn2_to_ascii_4i`: results are limited to 63 bytes. -/
def arr63P (E : Env) (D : Data) (flags : Nat) (a : List Nat) : Res (List Nat) := do
  let n ← arrP E D flags a
  if n.length > 63 then .err .tooBigDomain else .ok n

theorem tri_4i {E : Env} {D : Data} (W : World E D) (flags : Nat) (a : List Nat)
    {out : Option (List Nat)} (hout : ∀ buf, out = some buf → 63 ≤ buf.length) :
    Tri F (idn2_to_ascii_4i E (some a) out flags : HeapM _) L
      (EndsBuf F (arr63P E D flags a) (fun e => (some e, out)) (fun n => (none, stored out n)) L) := by
  unfold idn2_to_ascii_4i arr63P
  refine Tri.bind (tri_4i2 W flags a (some (.old 0))) ?_
  intro r L' hn hr
  rcases ends_some hr with ⟨hk, rfl, rfl⟩ | ⟨e, he, rfl, rfl⟩ | ⟨n, p, he, rfl, rfl⟩
  · exact Tri.pure ⟨rfl, Or.inl ⟨hk, rfl⟩⟩
  · rw [he]
    exact Tri.pure ⟨rfl, Or.inr (Or.inl ⟨e, rfl, rfl⟩)⟩
  · rw [he]
    simp only [Res.bind_ok]
    refine Tri.bind Tri.touchHead ?_
    rintro _ _ _ rfl
    by_cases hl : n.length > 63
    · rw [if_pos hl, if_pos hl]
      refine Tri.bind Tri.freeHead ?_
      rintro _ _ _ rfl
      exact Tri.pure ⟨rfl, Or.inr (Or.inl ⟨_, rfl, rfl⟩)⟩
    · rw [if_neg hl, if_neg hl]
      cases out with
      | none =>
        refine Tri.bind Tri.freeHead ?_
        rintro _ _ _ rfl
        exact Tri.pure ⟨rfl, Or.inr (Or.inr ⟨_, rfl, rfl⟩)⟩
      | some buf =>
        have := hout buf rfl
        simp only [blit, if_pos (show n.length ≤ buf.length by omega)]
        refine Tri.bind Tri.freeHead ?_
        rintro _ _ _ rfl
        exact Tri.pure ⟨rfl, Or.inr (Or.inr ⟨_, rfl, rfl⟩)⟩

/-! ### To-Unicode -/

theorem tri_toUnicodeLabel (lbl out : List Nat) (dot : Nat) :
    Tri F (toUnicodeLabel lbl out dot : HeapM _) L (Same F (do
        let u ← uniLabelP lbl
        if out.length + u.length + dot > 255 then .err .tooBigDomain else .ok u) L) := by
  unfold toUnicodeLabel uniLabelP
  rw [show IDN2_DOMAIN_MAX_LENGTH = 255 from rfl, show IDN2_LABEL_MAX_LENGTH = 63 from rfl]
  by_cases ha : aceAnyCase lbl = true
  · rw [if_pos ha, if_pos ha]
    refine Tri.bind (tri_liftR (punycode_decode_ne_ub _ (by omega) (by decide))) ?_
    rintro _ _ _ ⟨rfl, ⟨e, he, rfl⟩ | ⟨u, he, rfl⟩⟩
    · rw [he]
      exact Tri.pure ⟨rfl, Or.inr (Or.inl ⟨e, rfl, rfl⟩)⟩
    · rw [he]
      simp only [Res.bind_ok]
      by_cases hl : out.length + u.length + dot > 255
      · rw [if_pos hl, if_pos hl]
        exact Tri.pure ⟨rfl, Or.inr (Or.inl ⟨_, rfl, rfl⟩)⟩
      · rw [if_neg hl, if_neg hl]
        exact Tri.pure ⟨rfl, Or.inr (Or.inr ⟨_, rfl, rfl⟩)⟩
  · rw [if_neg ha, if_neg ha]
    refine Tri.bind (tri_libConv _) ?_
    rintro _ _ _ (⟨hk, rfl, rfl⟩ | ⟨hf, rfl, rfl⟩ | ⟨u, dp, hf, rfl, rfl⟩)
    · exact Tri.pure ⟨rfl, Or.inl ⟨hk, rfl⟩⟩
    · rw [hf]
      exact Tri.pure ⟨rfl, Or.inr (Or.inl ⟨_, rfl, rfl⟩)⟩
    · rw [hf]
      simp only
      by_cases h1 : u.length > 63
      · rw [if_pos h1, if_pos h1]
        refine Tri.bind Tri.freeHead ?_
        rintro _ _ _ rfl
        exact Tri.pure ⟨rfl, Or.inr (Or.inl ⟨_, rfl, rfl⟩)⟩
      · rw [if_neg h1, if_neg h1]
        simp only [Res.bind_ok]
        by_cases hl : out.length + u.length + dot > 255
        · rw [if_pos hl, if_pos hl]
          refine Tri.bind Tri.freeHead ?_
          rintro _ _ _ rfl
          exact Tri.pure ⟨rfl, Or.inr (Or.inl ⟨_, rfl, rfl⟩)⟩
        · rw [if_neg hl, if_neg hl]
          refine Tri.bind Tri.touchHead ?_
          rintro _ _ _ rfl
          refine Tri.bind Tri.freeHead ?_
          rintro _ _ _ rfl
          exact Tri.pure ⟨rfl, Or.inr (Or.inr ⟨_, rfl, rfl⟩)⟩

theorem res_ite_ok {c : Prop} [Decidable c] {α : Type} {e : Rc} {a u : α}
    (h : (if c then (.err e : Res α) else .ok a) = .ok u) : ¬ c ∧ a = u := by
  split at h
  · cases h
  · injection h with h; exact ⟨‹_›, h⟩

theorem tri_toUnicodeLoop (s out : List Nat) (ho : out.length ≤ 255) :
    Tri F (toUnicodeLoop s out : HeapM _) L (Same F (uniLoop (splitDot s) out) L) := by
  generalize hn : s.length = n
  induction n using Nat.strongRecOn generalizing s out with
  | _ n ih =>
    rw [toUnicodeLoop.eq_def]
    by_cases hs : s = []
    · subst hs
      simp only [↓reduceIte, splitDot, uniLoop, uniLabelP_nil, Res.bind_ok,
        List.length_nil, Nat.add_zero, List.append_nil]
      rw [if_neg (by omega)]
      exact Tri.pure ⟨rfl, Or.inr (Or.inr ⟨_, rfl, rfl⟩)⟩
    · rw [if_neg hs]
      rw [splitDot_eq s]
      refine Tri.bind (tri_toUnicodeLabel _ _ _) ?_
      cases hd : s.dropWhile (· != 0x2E) with
      | nil =>
        simp only [↓reduceIte, uniLoop, Nat.add_zero]
        rintro _ _ _ ⟨rfl, ⟨hk, rfl⟩ | ⟨e, he, rfl⟩ | ⟨u, he, rfl⟩⟩
        · exact Tri.pure ⟨rfl, Or.inl ⟨hk, rfl⟩⟩
        · refine Tri.pure ⟨rfl, Or.inr (Or.inl ⟨e, ?_, rfl⟩)⟩
          cases hu : uniLabelP (s.takeWhile (· != 0x2E)) with
          | ub => rw [hu] at he; cases he
          | err e' => rw [hu] at he; exact he
          | ok u =>
            rw [hu] at he
            simp only [Res.bind_ok] at he ⊢
            split at he
            · rw [if_pos ‹_›]; exact he
            · cases he
        · obtain ⟨u', hu, he⟩ := Res.bind_eq_ok.mp he
          obtain ⟨hle, rfl⟩ := res_ite_ok he
          simp only
          rw [if_neg (by omega), hu]
          simp only [Res.bind_ok]
          rw [if_neg hle]
          exact Tri.pure ⟨rfl, Or.inr (Or.inr ⟨_, rfl, rfl⟩)⟩
      | cons c rest =>
        simp only [reduceCtorEq, ↓reduceIte]
        rw [uniLoop_cons (splitDot_ne_nil rest)]
        rintro _ _ _ ⟨rfl, ⟨hk, rfl⟩ | ⟨e, he, rfl⟩ | ⟨u, he, rfl⟩⟩
        · exact Tri.pure ⟨rfl, Or.inl ⟨hk, rfl⟩⟩
        · refine Tri.pure ⟨rfl, Or.inr (Or.inl ⟨e, ?_, rfl⟩)⟩
          cases hu : uniLabelP (s.takeWhile (· != 0x2E)) with
          | ub => rw [hu] at he; cases he
          | err e' => rw [hu] at he; injection he with he; rw [he]; rfl
          | ok u =>
            rw [hu] at he
            simp only [Res.bind_ok] at he ⊢
            split at he
            · rw [if_pos ‹_›]; injection he with he; rw [he]
            · cases he
        · obtain ⟨u', hu, he⟩ := Res.bind_eq_ok.mp he
          obtain ⟨hle, rfl⟩ := res_ite_ok he
          simp only
          rw [if_neg (by omega), if_neg (by omega), hu]
          simp only [Res.bind_ok]
          rw [if_neg hle]
          have := dropWhile_length_le (· != 0x2E) s
          rw [hd, List.length_cons] at this
          exact ih rest.length (by omega) rest _ (by simp; omega) rfl

theorem tri_8z4z (s : List Nat) (out : Option Cell) (flags : Nat) :
    Tri F (idn2_to_unicode_8z4z (some s) out flags : HeapM _) L (Ends F (uniP s) out L) := by
  unfold idn2_to_unicode_8z4z
  refine Tri.bind (tri_toUnicodeLoop s [] (by simp)) ?_
  rw [show uniLoop (splitDot s) [] = uniP s from rfl]
  rintro _ _ _ ⟨rfl, ⟨hk, rfl⟩ | ⟨e, he, rfl⟩ | ⟨u, he, rfl⟩⟩
  · exact Tri.pure (Or.inl ⟨hk, rfl, rfl⟩)
  · exact Tri.pure (Or.inr (Or.inl ⟨e, he, rfl, rfl⟩))
  · have := uniP_length he
    rw [he]
    cases out with
    | none => exact Tri.pure (Or.inr (Or.inr (Or.inl ⟨u, rfl, rfl, rfl, rfl⟩)))
    | some c =>
      simp only
      rw [if_neg (by omega)]
      exact tri_storeDup u (some c)

/-- To-unicode of an array of code points, up to its first zero. -/
def uniArrP (a : List Nat) : Res (List Nat) :=
  match u8Encode (a ++ [0]) with
  | none => .err .encodingError
  | some _ => uniP (utf8s (a.takeWhile (· != 0)))

theorem tri_4z4z (a : List Nat) (out : Option Cell) (flags : Nat) :
    Tri F (idn2_to_unicode_4z4z (some a) out flags : HeapM _) L (Ends F (uniArrP a) out L) := by
  unfold idn2_to_unicode_4z4z uniArrP
  refine Tri.bind (tri_libConv _) ?_
  rintro _ _ hn (⟨hk, rfl, rfl⟩ | ⟨hf, rfl, rfl⟩ | ⟨b, up, hf, rfl, rfl⟩)
  · exact Tri.pure (Or.inl ⟨hk, rfl, rfl⟩)
  · rw [hf]
    exact Tri.pure (Or.inr (Or.inl ⟨_, rfl, rfl, rfl⟩))
  · rw [hf]
    simp only [arr_cstr hf]
    refine Tri.bind Tri.touchHead ?_
    rintro _ _ _ rfl
    exact tri_handOut (tri_8z4z _ _ _)

theorem uniArrP_nozero {a u : List Nat} (h : uniArrP a = .ok u) : 0 ∉ u := by
  unfold uniArrP at h
  split at h
  · cases h
  · exact uniP_nozero (zero_mem_utf8s (mem_takeWhile_ne a)) h

/-- What `idn2_to_unicode_44i` leaves in the caller's variables. -/
def stored44 (out : Option (List Nat)) (outlen : Option Nat) (u : List Nat) :
    Option Rc × Option (List Nat) × Option Nat :=
  match out, outlen with
  | some buf, some n => (none, some (u.take n ++ buf.drop (min n u.length)), some u.length)
  | _, _ => (none, out, outlen.map fun _ => u.length)

theorem tri_44i (a : List Nat) {out : Option (List Nat)} {outlen : Option Nat} (flags : Nat)
    (hout : ∀ buf n, out = some buf → outlen = some n → n ≤ buf.length) :
    Tri F (idn2_to_unicode_44i (some a) out outlen flags : HeapM _) L
      (EndsBuf F (uniArrP (a.takeWhile (· != 0))) (fun e => (some e, out, outlen))
        (stored44 out outlen) L) := by
  unfold idn2_to_unicode_44i
  refine Tri.bind Tri.malloc ?_
  rintro _ _ _ (⟨hk, rfl, rfl⟩ | ⟨ip, rfl, rfl⟩)
  · exact Tri.pure ⟨rfl, Or.inl ⟨hk, rfl⟩⟩
  refine Tri.bind Tri.touchHead ?_
  rintro _ _ _ rfl
  simp only [cstr_takeWhile]
  refine Tri.bind (tri_4z4z _ (some (.old 0)) flags) ?_
  intro r L' hn hr
  rcases ends_some hr with ⟨hk, rfl, rfl⟩ | ⟨e, he, rfl, rfl⟩ | ⟨u, p, he, rfl, rfl⟩
  · refine Tri.bind Tri.freeHead ?_
    rintro _ _ _ rfl
    exact Tri.pure ⟨rfl, Or.inl ⟨hk, rfl⟩⟩
  · refine Tri.bind Tri.freeHead ?_
    rintro _ _ _ rfl
    exact Tri.pure ⟨rfl, Or.inr (Or.inl ⟨e, he, rfl⟩)⟩
  · refine Tri.bind (Tri.freeSecond hn) ?_
    rintro _ _ _ rfl
    refine Tri.bind Tri.touchHead ?_
    rintro _ _ _ rfl
    simp only [takeWhile_all (uniArrP_nozero he)]
    rw [he]
    cases out with
    | none =>
      refine Tri.bind Tri.freeHead ?_
      rintro _ _ _ rfl
      exact Tri.pure ⟨rfl, Or.inr (Or.inr ⟨_, rfl, rfl⟩)⟩
    | some buf =>
      cases outlen with
      | none =>
        refine Tri.bind Tri.freeHead ?_
        rintro _ _ _ rfl
        exact Tri.pure ⟨rfl, Or.inr (Or.inr ⟨_, rfl, rfl⟩)⟩
      | some n =>
        have := hout buf n rfl rfl
        simp only [blit, List.length_take, if_pos (show min n u.length ≤ buf.length by omega)]
        refine Tri.bind Tri.freeHead ?_
        rintro _ _ _ rfl
        exact Tri.pure ⟨rfl, Or.inr (Or.inr ⟨_, rfl, rfl⟩)⟩

/-- To-unicode with a UTF-8 result. -/
def uni8P (s : List Nat) : Res (List Nat) := do
  let u ← uniP s
  match u8Encode (u ++ [0]) with
  | none => .err .encodingError
  | some _ => .ok (utf8s u)

theorem tri_8z8z {s : List Nat} (h0 : 0 ∉ s) (out : Option Cell) (flags : Nat) :
    Tri F (idn2_to_unicode_8z8z (some s) out flags : HeapM _) L (Ends F (uni8P s) out L) := by
  unfold idn2_to_unicode_8z8z uni8P
  refine Tri.bind (tri_8z4z s (some (.old 0)) flags) ?_
  intro r L' hn hr
  rcases ends_some hr with ⟨hk, rfl, rfl⟩ | ⟨e, he, rfl, rfl⟩ | ⟨u, p, he, rfl, rfl⟩
  · exact Tri.pure (Or.inl ⟨hk, rfl, rfl⟩)
  · rw [he]
    exact Tri.pure (Or.inr (Or.inl ⟨e, rfl, rfl, rfl⟩))
  · have hu0 := uniP_nozero h0 he
    rw [he]
    simp only [Res.bind_ok]
    refine Tri.bind Tri.touchHead ?_
    rintro _ _ _ rfl
    simp only [cstr_takeWhile, takeWhile_all hu0]
    refine Tri.bind (tri_libConv _) ?_
    rintro _ _ hn (⟨hk, rfl, rfl⟩ | ⟨hf, rfl, rfl⟩ | ⟨b, op, hf, rfl, rfl⟩)
    · refine Tri.bind Tri.freeHead ?_
      rintro _ _ _ rfl
      exact Tri.pure (Or.inl ⟨hk, rfl, rfl⟩)
    · refine Tri.bind Tri.freeHead ?_
      rintro _ _ _ rfl
      rw [hf]
      exact Tri.pure (Or.inr (Or.inl ⟨_, rfl, rfl, rfl⟩))
    · refine Tri.bind (Tri.freeSecond hn) ?_
      rintro _ _ _ rfl
      rw [hf]
      cases out with
      | none =>
        refine Tri.bind Tri.freeHead ?_
        rintro _ _ _ rfl
        exact Tri.pure (Or.inr (Or.inr (Or.inl ⟨_, rfl, rfl, rfl, rfl⟩)))
      | some c =>
        simp only [arr_cstr hf, takeWhile_all hu0]
        exact Tri.pure (Or.inr (Or.inr (Or.inr ⟨_, _, _, rfl, rfl, rfl, rfl⟩)))

/-- To-unicode with a result in the locale's encoding. -/
def uniLocP (E : Env) (s : List Nat) : Res (List Nat) := do
  let u ← uni8P s
  match E.U.toLocale u with
  | none => .err .encodingError
  | some l => .ok l

theorem tri_8zlz (E : Env) {s : List Nat} (h0 : 0 ∉ s) (out : Option Cell) (flags : Nat) :
    Tri F (idn2_to_unicode_8zlz E (some s) out flags : HeapM _) L (Ends F (uniLocP E s) out L) := by
  unfold idn2_to_unicode_8zlz uniLocP
  refine Tri.bind (tri_8z8z h0 (some (.old 0)) flags) ?_
  intro r L' hn hr
  rcases ends_some hr with ⟨hk, rfl, rfl⟩ | ⟨e, he, rfl, rfl⟩ | ⟨u, p, he, rfl, rfl⟩
  · exact Tri.pure (Or.inl ⟨hk, rfl, rfl⟩)
  · rw [he]
    exact Tri.pure (Or.inr (Or.inl ⟨e, rfl, rfl, rfl⟩))
  · rw [he]
    simp only [Res.bind_ok]
    refine Tri.bind Tri.touchHead ?_
    rintro _ _ _ rfl
    refine Tri.bind (tri_libConv _) ?_
    rintro _ _ hn (⟨hk, rfl, rfl⟩ | ⟨hf, rfl, rfl⟩ | ⟨l, lp, hf, rfl, rfl⟩)
    · refine Tri.bind Tri.freeHead ?_
      rintro _ _ _ rfl
      exact Tri.pure (Or.inl ⟨hk, rfl, rfl⟩)
    · refine Tri.bind Tri.freeHead ?_
      rintro _ _ _ rfl
      rw [hf]
      exact Tri.pure (Or.inr (Or.inl ⟨_, rfl, rfl, rfl⟩))
    · rw [hf]
      cases out with
      | none =>
        refine Tri.bind (Q := fun o L' => o = none ∧ L' = p :: L) ?_ ?_
        · refine Tri.bind Tri.freeHead ?_
          rintro _ _ _ rfl
          exact Tri.pure ⟨rfl, rfl⟩
        rintro _ _ _ ⟨rfl, rfl⟩
        refine Tri.bind Tri.freeHead ?_
        rintro _ _ _ rfl
        exact Tri.pure (Or.inr (Or.inr (Or.inl ⟨_, rfl, rfl, rfl, rfl⟩)))
      | some c =>
        refine Tri.bind (Q := fun o L' => o = some (.buf lp l) ∧ L' = lp :: p :: L)
          (Tri.pure ⟨rfl, rfl⟩) ?_
        rintro _ _ _ ⟨rfl, rfl⟩
        refine Tri.bind (Tri.freeSecond hn) ?_
        rintro _ _ _ rfl
        exact Tri.pure (Or.inr (Or.inr (Or.inr ⟨_, _, _, rfl, rfl, rfl, rfl⟩)))

/-- To-unicode from and to the locale's encoding. -/
def uniLocLocP (E : Env) (s : List Nat) : Res (List Nat) :=
  match E.U.fromLocale s with
  | none => .err .iconvFail
  | some t => uniLocP E t

theorem tri_lzlz (E : Env) {s : List Nat} (h0 : ∀ t, E.U.fromLocale s = some t → 0 ∉ t)
    (out : Option Cell) (flags : Nat) :
    Tri F (idn2_to_unicode_lzlz E (some s) out flags : HeapM _) L
      (Ends F (uniLocLocP E s) out L) := by
  unfold idn2_to_unicode_lzlz uniLocLocP
  refine Tri.bind (tri_libConv _) ?_
  rintro _ _ _ (⟨hk, rfl, rfl⟩ | ⟨hf, rfl, rfl⟩ | ⟨t, p, hf, rfl, rfl⟩)
  · exact Tri.pure (Or.inl ⟨hk, rfl, rfl⟩)
  · rw [hf]
    exact Tri.pure (Or.inr (Or.inl ⟨_, rfl, rfl, rfl⟩))
  · rw [hf]
    refine Tri.bind Tri.touchHead ?_
    rintro _ _ _ rfl
    exact tri_freeAfter (tri_8zlz E (h0 t hf) out flags)

/-! ### Registration -/

theorem tri_registerUlabel {E : Env} {D : Data} (W : World E D) (s : List Nat) (out : Option Cell)
    (flags : Nat) :
    Tri F (registerUlabel E s out flags : HeapM _) L (Ends F (regUP E s flags) out L) := by
  unfold registerUlabel regUP
  rw [show IDN2_LABEL_MAX_LENGTH = 63 from rfl]
  by_cases ha : ascii_p s = true
  · rw [if_pos ha, if_pos ha]
    by_cases hl : s.length > 63
    · rw [if_pos hl, if_pos hl]
      exact Tri.pure (Or.inr (Or.inl ⟨_, rfl, rfl, rfl⟩))
    · rw [if_neg hl, if_neg hl]
      exact tri_storeDup s out
  · rw [if_neg ha, if_neg ha]
    obtain ⟨_, hs⟩ := u8nfcP_spec W.tables W.uni s (has flags IDN2_NFC_INPUT)
    refine Tri.bind (tri_u8_to_u32_nfc W.tables _ _) ?_
    rintro _ _ _ (⟨hk, rfl, rfl⟩ | ⟨e, he, rfl, rfl⟩ | ⟨p, pp, he, rfl, rfl⟩)
    · exact Tri.pure (Or.inl ⟨hk, rfl, rfl⟩)
    · rw [he]
      exact Tri.pure (Or.inr (Or.inl ⟨e, rfl, rfl, rfl⟩))
    rw [he]
    simp only [Res.bind_ok]
    have hps := (hs p he).1
    refine Tri.bind (tri_label_test
      (labelTestP_ne_ub W.tables (fun c hc => isScalar_le (hps c hc)) registerMask)) ?_
    rintro _ _ _ ⟨rfl, ⟨hk, rfl⟩ | ⟨e, he', rfl⟩ | ⟨_, he', rfl⟩⟩
    · refine Tri.bind Tri.freeHead ?_
      rintro _ _ _ rfl
      exact Tri.pure (Or.inl ⟨hk, rfl, rfl⟩)
    · rw [he']
      refine Tri.bind Tri.freeHead ?_
      rintro _ _ _ rfl
      exact Tri.pure (Or.inr (Or.inl ⟨e, rfl, rfl, rfl⟩))
    rw [he']
    simp only [Res.bind_ok]
    refine Tri.bind Tri.touchHead ?_
    rintro _ _ _ rfl
    refine Tri.bind (tri_liftR (C03_encode_safe (phys := 60) (cap := 59) p (by omega) (by omega))) ?_
    rintro _ _ _ ⟨rfl, ⟨e, he, rfl⟩ | ⟨enc, he, rfl⟩⟩
    · rw [he]
      refine Tri.bind Tri.freeHead ?_
      rintro _ _ _ rfl
      exact Tri.pure (Or.inr (Or.inl ⟨e, rfl, rfl, rfl⟩))
    · have := (enc_shape (by omega) (by omega) he).cap
      rw [he]
      refine Tri.bind Tri.freeHead ?_
      rintro _ _ _ rfl
      simp only
      rw [if_neg (by omega)]
      exact tri_storeDup _ out

theorem tri_registerAlabel {E : Env} {D : Data} (W : World E D) (ul : Option (List Nat))
    (a : List Nat) (out : Option Cell) :
    Tri F (registerAlabel E ul a out : HeapM _) L (Ends F (regAP E ul a) out L) := by
  unfold registerAlabel registerAlabelWith regAP
  rw [show IDN2_LABEL_MAX_LENGTH = 63 from rfl]
  by_cases h1 : a.length > 63
  · rw [if_pos h1, if_pos h1]
    exact Tri.pure (Or.inr (Or.inl ⟨_, rfl, rfl, rfl⟩))
  rw [if_neg h1, if_neg h1]
  by_cases h2 : a.length ≤ 4
  · rw [if_pos h2, if_pos h2]
    exact Tri.pure (Or.inr (Or.inl ⟨_, rfl, rfl, rfl⟩))
  rw [if_neg h2, if_neg h2]
  by_cases h3 : a.take 4 ≠ acePrefix
  · rw [if_pos h3, if_pos h3]
    exact Tri.pure (Or.inr (Or.inl ⟨_, rfl, rfl, rfl⟩))
  rw [if_neg h3, if_neg h3]
  by_cases h4 : (!ascii_p a) = true
  · rw [if_pos h4, if_pos h4]
    exact Tri.pure (Or.inr (Or.inl ⟨_, rfl, rfl, rfl⟩))
  rw [if_neg h4, if_neg h4]
  refine Tri.bind (tri_liftR (C03_decode_safe (phys := 1020) (cap := 252) (a.drop 4) (by omega)
    (by omega))) ?_
  rintro _ _ _ ⟨rfl, ⟨e, he, rfl⟩ | ⟨u, h, rfl⟩⟩
  · rw [he]
    exact Tri.pure (Or.inr (Or.inl ⟨e, rfl, rfl, rfl⟩))
  rw [h]
  obtain ⟨hchars, _, hlen, _⟩ := C05_decode_output (by omega) h
  simp only [Res.bind_ok]
  cases hu : u8Encode u with
  | none => exact Tri.pure (Or.inr (Or.inl ⟨_, rfl, rfl, rfl⟩))
  | some s =>
    have hsl := u8Encode_length hu
    have h0 : 0 ∉ s := by
      intro hc
      rcases hchars 0 ((mem_u8Encode_ascii hu (by omega)).mp hc) with h' | h'
      · have := h'.1; unfold isLDHU at this; omega
      · omega
    simp only
    rw [List.length_drop] at hlen
    rw [if_neg (by omega), cstr_snoc h0]
    simp only
    by_cases hm : (ul.isSome && ul != some s) = true
    · rw [if_pos hm, if_pos hm]
      exact Tri.pure (Or.inr (Or.inl ⟨_, rfl, rfl, rfl⟩))
    rw [if_neg hm, if_neg hm]
    refine Tri.bind (show Tri F (registerRec E 1 (some s) none (some (.old 0)) 0 : HeapM _) _ _ from
      tri_registerUlabel W s (some (.old 0)) 0) ?_
    intro r L' _ hr
    rcases ends_some hr with ⟨hk, rfl, rfl⟩ | ⟨e, he, rfl, rfl⟩ | ⟨t, p, he, rfl, rfl⟩
    · exact Tri.pure (Or.inl ⟨hk, rfl, rfl⟩)
    · rw [he]
      exact Tri.pure (Or.inr (Or.inl ⟨e, rfl, rfl, rfl⟩))
    · rw [he]
      simp only [Res.bind_ok]
      refine Tri.bind Tri.touchHead ?_
      rintro _ _ _ rfl
      refine Tri.bind Tri.freeHead ?_
      rintro _ _ _ rfl
      by_cases ht : a ≠ t
      · rw [if_pos ht, if_pos ht]
        exact Tri.pure (Or.inr (Or.inl ⟨_, rfl, rfl, rfl⟩))
      · rw [if_neg ht, if_neg ht]
        exact tri_storeDup _ out

/-- Registration, of at least one label. -/
def regP (E : Env) (ul al : Option (List Nat)) (flags : Nat) : Res (List Nat) :=
  match ul, al with
  | _, some a => regAP E ul a
  | some u, none => regUP E u flags
  | none, none => .ok []

theorem tri_register_u8 {E : Env} {D : Data} (W : World E D) {ul al : Option (List Nat)}
    (h : ul ≠ none ∨ al ≠ none) (out : Option Cell) (flags : Nat) :
    Tri F (idn2_register_u8 E ul al out flags : HeapM _) L (Ends F (regP E ul al flags) out L) := by
  cases al with
  | some a => cases ul <;> exact tri_registerAlabel W _ a out
  | none =>
    cases ul with
    | some u => exact tri_registerUlabel W u out flags
    | none => simp at h

/-- Registration with a U-label in the locale's encoding. -/
def regUlP (E : Env) (ul al : Option (List Nat)) (flags : Nat) : Res (List Nat) :=
  match ul with
  | none => regP E none al (flags ||| IDN2_NFC_INPUT)
  | some s =>
    match E.U.fromLocale s with
    | none => .err .iconvFail
    | some t => regP E (some t) al (flags ||| IDN2_NFC_INPUT)

theorem tri_register_ul {E : Env} {D : Data} (W : World E D) {ul al : Option (List Nat)}
    (h : ul ≠ none ∨ al ≠ none) (out : Option Cell) (flags : Nat) :
    Tri F (idn2_register_ul E ul al out flags : HeapM _) L (Ends F (regUlP E ul al flags) out L) := by
  unfold idn2_register_ul regUlP
  cases ul with
  | none => exact tri_register_u8 W h out _
  | some s =>
    simp only
    refine Tri.bind (tri_libConv _) ?_
    rintro _ _ _ (⟨hk, rfl, rfl⟩ | ⟨hf, rfl, rfl⟩ | ⟨t, p, hf, rfl, rfl⟩)
    · exact Tri.pure (Or.inl ⟨hk, rfl, rfl⟩)
    · rw [hf]
      exact Tri.pure (Or.inr (Or.inl ⟨_, rfl, rfl, rfl⟩))
    · rw [hf]
      refine Tri.bind Tri.touchHead ?_
      rintro _ _ _ rfl
      exact tri_freeAfter (tri_register_u8 W (Or.inl (by simp)) out _)

end Idn2
