import Verif.Props.Closed

/-
Property C89: transitional lookup is nontransitional lookup with the deviation characters replaced.
-/

namespace Idn2
open Spec

variable {D : Data}

/-- What transitional mapping leaves: characters of the name, or of a mapping. -/
theorem emit_chars (hD : D.Laws) (tr std3 : Bool) {u : List Nat} (hu : ∀ c ∈ u, isScalar c)
    (hu0 : 0 ∉ u) : ∀ x ∈ u.flatMap (emit D tr std3), x ≠ 0 ∧ isScalar x := by
  intro x hx
  obtain ⟨c, hc, hxc⟩ := List.mem_flatMap.mp hx
  have hself : x ∈ [c] → x ≠ 0 ∧ isScalar x := fun h => by
    rw [List.mem_singleton] at h
    subst h
    exact ⟨fun h => hu0 (h ▸ hc), hu x hc⟩
  unfold emit at hxc
  cases hs : D.status c <;> rw [hs] at hxc
  · exact hself hxc
  · exact hD.mapping c x hxc
  · cases hxc
  · cases tr
    · exact hself hxc
    · exact hD.mapping c x hxc
  · exact hself hxc
  · cases std3
    · exact hD.mapping c x hxc
    · cases hxc
  · cases std3
    · exact hself hxc
    · cases hxc

/-- Transitional mapping leaves no deviation characters. -/
theorem emit_no_deviation (hC : Closed D) (std3 : Bool) (u : List Nat) :
    ∀ x ∈ u.flatMap (emit D true std3), D.status x ≠ .deviation := by
  intro x hx
  obtain ⟨c, _, hxc⟩ := List.mem_flatMap.mp hx
  have hself : ∀ s, D.status c = s → s ≠ .deviation → x ∈ [c] → D.status x ≠ .deviation := by
    intro s hs hne h
    rw [List.mem_singleton] at h
    rw [h, hs]
    exact hne
  unfold emit at hxc
  cases hs : D.status c <;> rw [hs] at hxc
  · exact hself _ hs (by simp) hxc
  · rw [hC.mapped c (.inl hs) x hxc]; simp
  · cases hxc
  · rw [hC.mapped c (.inr hs) x hxc]; simp
  · exact hself _ hs (by simp) hxc
  · cases std3
    · rcases hC.std3 c hs x hxc with h | h <;> rw [h] <;> simp
    · cases hxc
  · cases std3
    · exact hself _ hs (by simp) hxc
    · cases hxc

/-- C89.  If nontransitional lookup of the name with all mappings done, those of the deviation
characters too, succeeds, then transitional lookup of the name itself has the same result.  (As in
C42, normalisation must not bring forth deviation characters.) -/
theorem C89_deviation {E : Env} (W : World E D) (hC : Closed D) {f g : Nat} {u n : List Nat}
    (hu : ∀ c ∈ u, isScalar c) (h0 : 0 ∉ u) (f2 : f.testBit 2 = false) (f6 : f.testBit 6 = false)
    (g2 : g.testBit 2 = true) (hg : ¬ Conflict g) (h5 : g.testBit 5 = f.testBit 5)
    (h7 : g.testBit 7 = f.testBit 7)
    (hx : ∀ x, E.U.nfc (u.flatMap (emit D true (f.testBit 5))) = some x →
      ∀ c ∈ x, D.status c ≠ .deviation)
    (h : LookupOk E f (utf8s (u.flatMap (emit D true (f.testBit 5)))) n) :
    LookupOk E g (utf8s u) n := by
  have g6 : g.testBit 6 = false := by
    cases h : g.testBit 6 with
    | false => rfl
    | true => exact absurd (Or.inr (Or.inl ⟨h, Or.inl g2⟩)) hg
  have hch := emit_chars W.data true (f.testBit 5) hu h0
  have h1 : LookupOk E g (utf8s (u.flatMap (emit D true (g.testBit 5)))) n := by
    rw [h5]
    refine C42_transitional W (fun c hc => (hch c hc).2) (fun h => (hch 0 h).1 rfl) f2 f6 g2 hg h5 h7
      (emit_no_deviation hC _ u) ?_ h
    rw [C81_idempotent hC]
    exact hx
  exact ((C81_lookup W hC hu h0 g6 fun _ => g2).1 n).mp h1

/-- C89, beside it: "Faß。b" in transitional mode has the result of "fass.b" in the other. -/
example : [0x46, 0x61, 0xDF, 0x3002, 0x62].flatMap (emit Sample.D true false) =
      [0x66, 0x61, 0x73, 0x73, 0x2E, 0x62] ∧
    LookupOk Sample.E 0 [0x66, 0x61, 0x73, 0x73, 0x2E, 0x62] [0x66, 0x61, 0x73, 0x73, 0x2E, 0x62] ∧
    LookupOk Sample.E 4 (utf8s [0x46, 0x61, 0xDF, 0x3002, 0x62])
      [0x66, 0x61, 0x73, 0x73, 0x2E, 0x62] := by decide +kernel

end Idn2
