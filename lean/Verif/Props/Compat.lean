import Verif.Props.FlagBits
import Verif.Proof.CExpr
import Verif.Model.Compat

/-
The macros that give the functions of libidn.
-/

namespace Idn2

open Spec Spec.CExpr

/-- C73: whatever the flags are written as, the expression that a macro makes of them has one value,
which differs from theirs in IDN2_NFC_INPUT and IDN2_NONTRANSITIONAL at most. -/
theorem C73_value {f : List Tok} {v : Nat} (h : Val f v) :
    ∃ w, Val (compatFlags f) w ∧ (∀ w', Val (compatFlags f) w' → w' = w) ∧ w ||| 9 = v ||| 9 := by
  obtain ⟨k, h⟩ := h
  obtain ⟨w, h1, h2⟩ := eval_app (eval_bal f v h 0) h
  exact ⟨w, ⟨k, h1⟩, fun w' hw => val_unique hw ⟨k, h1⟩, h2⟩

/-- C73: if `?:`, `&&` and `||` are in parentheses, both flags are added.  This is not so for other
expressions: see `C73_violated`. -/
theorem C73_added_partial {f : List Tok} {v w : Nat} (h : Val f v) (ht : Tight f)
    (hw : Val (compatFlags f) w) : w = v ||| 9 := by
  obtain ⟨k, h⟩ := h
  exact val_unique hw ⟨k, eval_tight (eval_bal f v h 0) ht h⟩

theorem testBit_or_nine {v w : Nat} (h : w ||| 9 = v ||| 9) {k : Nat} (h0 : k ≠ 0) (h3 : k ≠ 3) :
    w.testBit k = v.testBit k := by
  have e : Nat.testBit 9 k = false := by
    match k, h0, h3 with
    | 1, _, _ => rfl
    | 2, _, _ => rfl
    | k + 4, _, _ =>
      have : (9 : Nat) < 2 ^ (k + 4) := Nat.lt_of_lt_of_le (by decide : 9 < 2 ^ 4)
        (Nat.pow_le_pow_right (by decide) (by omega))
      exact Nat.testBit_lt_two_pow this
  have h1 : (w ||| 9).testBit k = (v ||| 9).testBit k := by rw [h]
  rwa [Nat.testBit_or, Nat.testBit_or, e, Bool.or_false, Bool.or_false] at h1

theorem modern_same {v w : Nat} (hv : Modern v) (h : w ||| 9 = v ||| 9) : SameFlags w v := by
  have h1 := testBit_or_nine h (k := 1) (by omega) (by omega)
  have h2 := testBit_or_nine h (k := 2) (by omega) (by omega)
  have h5 := testBit_or_nine h (k := 5) (by omega) (by omega)
  have h6 := testBit_or_nine h (k := 6) (by omega) (by omega)
  have h7 := testBit_or_nine h (k := 7) (by omega) (by omega)
  unfold SameFlags Conflict
  rw [h1, h2, h5, h6, h7, hv.1, hv.2]
  simp

/-- C73: without TRANSITIONAL and NO_TR46, a macro answers like the function with the flags as they
are written, and like the function with both flags added, whatever the expression. -/
theorem C73_same {E : Env} {D : Data} (W : World E D) {f : List Tok} {v w : Nat} (h : Val f v)
    (hv : Modern v) (hw : Val (compatFlags f) w) {g : Nat} (hg : g = v ∨ g = v ||| 9)
    {s : List Nat} (h0 : 0 ∉ s) (a : List Nat) (out : Option Cell) (buf : Option (List Nat)) :
    (idna_to_ascii_8z E (some s) out w : Out _) = idn2_to_ascii_8z E (some s) out g ∧
    (idna_to_ascii_4z E (some s) out w : Out _) = idn2_to_ascii_4z E (some s) out g ∧
    (idna_to_ascii_4i E (some a) buf w : Out _) = idn2_to_ascii_4i E (some a) buf g ∧
    (E.U.Locale → (idna_to_ascii_lz E (some s) out w : Out _) =
      idn2_to_ascii_lz E (some s) out g) := by
  obtain ⟨w', _, h2, h3⟩ := C73_value h
  rw [← h2 w hw] at h3
  have hs : SameFlags w g := by
    have e1 := modern_same hv h3
    have e2 : SameFlags (v ||| 9) v := modern_same hv (by rw [Nat.or_assoc]; rfl)
    rcases hg with rfl | rfl
    · exact e1
    · exact e1.trans e2.symm
  exact ⟨(C74_flag_bits W hs h0 out).2.1, (C74_flag_bits W hs h0 out).2.2,
    (C74_flag_bits_array W hs a out buf).2,
    fun U => (C74_flag_bits_locale W U hs.or_one s out).2⟩

/-- C73: with TRANSITIONAL or NO_TR46 in the flags, written as an expression of `|`, `&`, `^` and
parentheses, a macro refuses the call. -/
theorem C73_refused {E : Env} {D : Data} (W : World E D) {f : List Tok} {v w : Nat} (h : Val f v)
    (ht : Tight f) (hv : ¬ Modern v) (hw : Val (compatFlags f) w) {s : List Nat} (h0 : 0 ∉ s) :
    (idna_to_ascii_8z E (some s) (some (.old 0)) w : Out _) =
      .val (some .invalidFlags, some (.old 0)) := by
  refine (C13_invalid_flags W w h0).mpr ?_
  rw [C73_added_partial h ht hw]
  have h3 : (v ||| 9).testBit 3 = true := by 
    simp [Nat.testBit_or, show Nat.testBit 9 3 = true from rfl]
  have e : v ||| 9 ||| 9 = v ||| 9 := by rw [Nat.or_assoc]; rfl
  have h2 := testBit_or_nine e (k := 2) (by omega) (by omega)
  have h6 := testBit_or_nine e (k := 6) (by omega) (by omega)
  unfold Conflict
  rw [h2, h3, h6]
  unfold Modern at hv
  cases e2 : v.testBit 2 <;> cases e6 : v.testBit 6 <;> simp [e2, e6] at hv ⊢

/-- `1 ? IDN2_TRANSITIONAL : 0` -/
def choice : List Tok := [.num 1, .quest, .num 4, .colon, .num 0]

/-- C73 is violated: the macros do not put the flags in parentheses.  From a conditional expression
the flags may be taken as they are; TRANSITIONAL is then not refused but obeyed. -/
theorem C73_violated : Val choice 4 ∧ Val (compatFlags choice) 4 ∧
    (idna_to_ascii_8z Sample.E (some [0xC3, 0x9F]) (some (.old 0)) 4 : Out _) =
      .val (none, some (.buf 0 [0x73, 0x73])) ∧
    (idn2_to_ascii_8z Sample.E (some [0xC3, 0x9F]) (some (.old 0)) (4 ||| 1 ||| 8) : Out _) =
      .val (some .invalidFlags, some (.old 0)) :=
  ⟨⟨2, by decide⟩, ⟨2, by decide⟩, by decide +kernel, by decide +kernel⟩

/-- The flags of libidn. -/
example : Modern 0 ∧ Modern IDNA_ALLOW_UNASSIGNED ∧ Modern IDNA_USE_STD3_ASCII_RULES ∧
    Modern (IDNA_ALLOW_UNASSIGNED ||| IDNA_USE_STD3_ASCII_RULES) := by
  unfold Modern; decide

/-- `x ? 16 : 0` and `16 & (32 || 0)`, which is 0. -/
example : Val [.num 1, .quest, .num 16, .colon, .num 0] 16 ∧
    Val (compatFlags [.num 1, .quest, .num 16, .colon, .num 0]) 16 ∧
    Val (compatFlags [.num 0, .quest, .num 16, .colon, .num 0]) 9 ∧
    Val [.num 16, .amp, .lp, .num 32, .lor, .num 0, .rp] 0 ∧
    Tight [.num 16, .amp, .lp, .num 32, .lor, .num 0, .rp] ∧
    Val (compatFlags [.num 16, .amp, .lp, .num 32, .lor, .num 0, .rp]) 9 :=
  ⟨⟨2, by decide⟩, ⟨2, by decide⟩, ⟨2, by decide⟩, ⟨2, by decide⟩, by decide, ⟨2, by decide⟩⟩

example : (idna_to_ascii_8z Sample.E (some [0xC3, 0x9F]) (some (.old 0)) 16 : Out _) =
    .val (none, some (.buf 0 [0x78, 0x6E, 0x2D, 0x2D, 0x7A, 0x63, 0x61])) := by
  decide +kernel

end Idn2
