import Verif.Data.Closed
import Verif.Props.Uts46

/-
Property C81: the mapping of UTS #46 is stable, so that a name may be mapped before it is looked
up.
-/

namespace Idn2
open Spec

/-- What a character is replaced with stays as it is when mapped again. -/
theorem emit_again {D : Data} (hC : Closed D) (tr tr' std3 : Bool) (c : Nat) :
    (emit D tr std3 c).flatMap (emit D tr' std3) = emit D (tr || tr') std3 c := by
  have hv : ∀ (b : Bool) {x : Nat}, D.status x = .valid → emit D b std3 x = [x] := by
    intro b x hx
    unfold emit
    rw [hx]
  have hm : ∀ (l : List Nat) (b : Bool), (∀ x ∈ l, emit D b std3 x = [x]) →
      l.flatMap (emit D b std3) = l := by
    intro l b hl
    induction l with
    | nil => rfl
    | cons x r ih =>
      rw [List.flatMap_cons, hl x List.mem_cons_self, ih fun y hy => hl y (List.mem_cons_of_mem _ hy)]
      rfl
  cases hs : D.status c with
  | valid => simp [emit, hs]
  | ignored => simp [emit, hs]
  | disallowed => simp [emit, hs]
  | std3Valid => cases std3 <;> simp [emit, hs]
  | mapped =>
    have h1 := hm (D.mapping c) tr' fun x hx => hv tr' (hC.mapped c (Or.inl hs) x hx)
    simp only [emit, hs] at h1 ⊢
    exact h1
  | deviation =>
    cases tr with
    | true =>
      have h1 := hm (D.mapping c) tr' fun x hx => hv tr' (hC.mapped c (Or.inr hs) x hx)
      simp only [emit, hs, ↓reduceIte, Bool.true_or] at h1 ⊢
      exact h1
    | false => cases tr' <;> simp [emit, hs]
  | std3Mapped =>
    cases std3 with
    | true => simp [emit, hs]
    | false =>
      have h1 := hm (D.mapping c) tr' fun x hx => by
        rcases hC.std3 c hs x hx with h | h
        · exact hv tr' h
        · simp [emit, h]
      simp only [emit, hs, Bool.false_eq_true, ↓reduceIte] at h1 ⊢
      exact h1

/-- C81.  The mapping table in the repository is stable: what characters are mapped to is not
mapped any further. -/
theorem C81_closed : Closed Shipped.D := Shipped.closed

/-- C81.  Mapping a mapped name changes nothing; and transitional mapping may be preceded by
nontransitional mapping. -/
theorem C81_idempotent {D : Data} (hC : Closed D) (tr tr' std3 : Bool) (u : List Nat) :
    (u.flatMap (emit D tr std3)).flatMap (emit D tr' std3) = u.flatMap (emit D (tr || tr') std3) := by
  induction u with
  | nil => rfl
  | cons c r ih =>
    rw [List.flatMap_cons, List.flatMap_append, emit_again hC, ih, List.flatMap_cons]

/-- Mapping neither adds nor removes disallowed characters. -/
theorem emit_disallowed {D : Data} (hC : Closed D) (tr std3 : Bool) (u : List Nat) :
    (∃ c ∈ u.flatMap (emit D tr std3), D.status c = .disallowed) ↔
      ∃ c ∈ u, D.status c = .disallowed := by
  constructor
  · rintro ⟨x, hx, hxd⟩
    obtain ⟨c, hc, hxc⟩ := List.mem_flatMap.mp hx
    refine ⟨c, hc, ?_⟩
    unfold emit at hxc
    have hself : x ∈ [c] → D.status c = .disallowed := fun h => by
      rw [List.mem_singleton] at h
      rw [← h]
      exact hxd
    cases hs : D.status c with
    | disallowed => rfl
    | valid => rw [hs] at hxc; rw [← hs]; exact hself hxc
    | ignored => rw [hs] at hxc; cases hxc
    | mapped =>
      rw [hs] at hxc
      rw [hC.mapped c (Or.inl hs) x hxc] at hxd
      cases hxd
    | deviation =>
      rw [hs] at hxc
      cases tr with
      | true =>
        rw [hC.mapped c (Or.inr hs) x hxc] at hxd
        cases hxd
      | false => rw [← hs]; exact hself hxc
    | std3Valid =>
      rw [hs] at hxc
      cases std3 with
      | true => cases hxc
      | false => rw [← hs]; exact hself hxc
    | std3Mapped =>
      rw [hs] at hxc
      cases std3 with
      | true => cases hxc
      | false =>
        rcases hC.std3 c hs x hxc with h | h <;> rw [h] at hxd <;> cases hxd
  · rintro ⟨c, hc, hd⟩
    refine ⟨c, List.mem_flatMap.mpr ⟨c, hc, ?_⟩, hd⟩
    unfold emit
    rw [hd]
    exact List.mem_singleton.mpr rfl

/-- C81.  A name may be mapped before it is looked up, with the mapping of the mode in use or the
nontransitional one: the answer stays the same, be it a result or an error. -/
theorem C81_lookup {E : Env} {D : Data} (W : World E D) (hC : Closed D) {flags : Nat} {tr : Bool}
    {u : List Nat} (hu : ∀ c ∈ u, isScalar c) (hu0 : 0 ∉ u) (h6 : flags.testBit 6 = false)
    (htr : tr = true → flags.testBit 2 = true) :
    (∀ n, LookupOk E flags (utf8s (u.flatMap (emit D tr (flags.testBit 5)))) n ↔
      LookupOk E flags (utf8s u) n) ∧
    ∀ e, LookupErr E flags (utf8s (u.flatMap (emit D tr (flags.testBit 5)))) e ↔
      LookupErr E flags (utf8s u) e := by
  have hem : (u.flatMap (emit D tr (flags.testBit 5))).flatMap
      (emit D (flags.testBit 2) (flags.testBit 5)) =
      u.flatMap (emit D (flags.testBit 2) (flags.testBit 5)) := by
    rw [C81_idempotent hC]
    cases tr with
    | false => rw [Bool.false_or]
    | true => rw [htr rfl, Bool.true_or]
  have hch : ∀ x ∈ u.flatMap (emit D tr (flags.testBit 5)), x ≠ 0 ∧ isScalar x := by
    intro x hx
    obtain ⟨c, hc, hxc⟩ := List.mem_flatMap.mp hx
    have hself : x ∈ [c] → x ≠ 0 ∧ isScalar x := fun h => by
      rw [List.mem_singleton] at h
      subst h
      exact ⟨fun h => hu0 (h ▸ hc), hu x hc⟩
    unfold emit at hxc
    cases hs : D.status c <;> rw [hs] at hxc
    · exact hself hxc
    · exact W.data.mapping c x hxc
    · cases hxc
    · cases tr
      · exact hself hxc
      · exact W.data.mapping c x hxc
    · exact hself hxc
    · revert hxc
      cases flags.testBit 5 <;> intro hxc
      · exact W.data.mapping c x hxc
      · cases hxc
    · revert hxc
      cases flags.testBit 5 <;> intro hxc
      · exact hself hxc
      · cases hxc
  exact C33_mapped_form W (fun c hc => (hch c hc).2) hu (fun h => (hch 0 h).1 rfl) hu0 h6
    (emit_disallowed hC tr _ u) (by rw [hem]) (by rw [hem])

/-- C81, beside it: "Faß。½" (sharp s is a deviation character, one half is mapped to 1⁄2), mapped
in both modes, and then in transitional mode. -/
example :
    [0x46, 0x61, 0xDF, 0x3002, 0xBD].flatMap (emit Sample.D false false) =
      [0x66, 0x61, 0xDF, 0x2E, 0x31, 0x2044, 0x32] ∧
    [0x46, 0x61, 0xDF, 0x3002, 0xBD].flatMap (emit Sample.D true false) =
      [0x66, 0x61, 0x73, 0x73, 0x2E, 0x31, 0x2044, 0x32] ∧
    ([0x46, 0x61, 0xDF, 0x3002, 0xBD].flatMap (emit Sample.D false false)).flatMap
      (emit Sample.D true false) = [0x66, 0x61, 0x73, 0x73, 0x2E, 0x31, 0x2044, 0x32] := by
  decide +kernel

/-- C81, beside it: the order matters.  After transitional mapping, nontransitional lookup finds
another name. -/
example : LookupOk Sample.E 8 (utf8s [0xDF]) [0x78, 0x6E, 0x2D, 0x2D, 0x7A, 0x63, 0x61] ∧
    LookupOk Sample.E 8 (utf8s ([0xDF].flatMap (emit Sample.D true false))) [0x73, 0x73] := by
  constructor
  · decide +kernel
  · decide +kernel

end Idn2
