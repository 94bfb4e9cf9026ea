import Verif.Props.BidiName

/-
Property C87: empty labels.
-/

namespace Idn2
open Spec

variable {D : Data}

/-- The result of converting a label is a label, also with normalisation. -/
theorem labelToNfc_nodot {E : Env} (W : World E D) {f : Nat} (hc : ¬ Conflict f)
    (f0 : f.testBit 0 = true) (f6 : f.testBit 6 = true) {l d : List Nat} (hs : ∀ c ∈ l, isScalar c)
    (h0 : 0 ∉ l) (hl : 0x2E ∉ l) (h : LabelToNfc D E.U f l d) : 0x2E ∉ d := by
  have hd : d.length ≤ 63 := by
    cases h with
    | ascii _ _ h => exact h
    | alabel t u v _ _ _ _ _ _ h7 h8 =>
      have := congrArg List.length h7
      simp only [List.length_map] at this
      rw [List.length_append, ← this]
      show 4 + _ ≤ 63
      omega
    | ulabel v _ _ _ _ h5 =>
      rw [List.length_append]
      show 4 + _ ≤ 63
      omega
  have hdot : 0x2E ∉ utf8s l := by
    have h1 := splitDot_utf8s hs
    rw [splitDot_nodot hl, List.map_singleton] at h1
    intro hc
    have : utf8s l ∈ splitDot (utf8s l) := by rw [h1]; simp
    exact mem_splitDot_nodot this hc
  refine lookupOk_nodot W f6 (zero_mem_utf8s h0) hdot
    ((C48_lookup_nfc W (zero_mem_utf8s h0) f0 f6).mpr ⟨hc, l, hs, rfl, [d], ?_, rfl, ?_⟩)
  · rw [splitDot_nodot hl]
    exact .cons h .nil
  · split <;> omega

/-- C87, what holds: the result has as many labels as the mapped and normalised name, and an empty
one where that has an empty one.  So the result is free of empty labels if the name is. -/
theorem C87_empty_partial {E : Env} (W : World E D) {f : Nat} {u n : List Nat}
    (hs : ∀ c ∈ u, isScalar c) (h0 : 0 ∉ u) (h : LookupOk E f (utf8s u) n) :
    ∃ x, Processed D E.U f u x ∧ Each (fun l d => l = [] ↔ d = []) (splitDot x) (splitDot n) := by
  have fin : ∀ {x ds}, Each (fun l d => (l = [] ↔ d = []) ∧ 0x2E ∉ d) (splitDot x) ds →
      Each (fun l d => l = [] ↔ d = []) (splitDot x) (splitDot (joinDot ds)) := by
    intro x ds h
    rw [splitDot_joinDot]
    · exact h.imp fun h => h.1
    · rintro rfl
      cases hx : splitDot x with
      | nil => exact splitDot_ne_nil x hx
      | cons _ _ => rw [hx] at h; cases h
    · intro d hd
      obtain ⟨l, _, h⟩ := each_mem_right h hd
      exact h.2
  have hxn : ∀ t : List Nat, ¬ xn ++ t = [] := by intro t h; cases h
  have hna : ∀ {l : List Nat}, (∃ c ∈ l, 0x80 ≤ c) → ¬ l = [] := by
    rintro _ ⟨c, hc, _⟩ rfl
    cases hc
  by_cases hb : f.testBit 0 = true ∧ f.testBit 6 = true
  · obtain ⟨hc, v, hv, he, ds, h1, rfl, _⟩ :=
      (C48_lookup_nfc W (zero_mem_utf8s h0) hb.1 hb.2).mp h
    rw [← utf8s_inj hs hv he] at h1
    refine ⟨u, by unfold Processed; rw [if_pos hb.2], fin (each_imp_mem h1 ?_)⟩
    intro l hl d hd
    refine ⟨?_, labelToNfc_nodot W hc hb.1 hb.2 (fun c h => hs c (mem_of_mem_splitDot hl h))
      (fun h => h0 (mem_of_mem_splitDot hl h)) (mem_splitDot_nodot hl) hd⟩
    cases hd with
    | ascii => exact Iff.rfl
    | alabel t _ _ _ h2 => rw [h2]; exact ⟨fun h => absurd h (hxn _), fun h => absurd h (hxn _)⟩
    | ulabel _ h1 => exact ⟨fun h => absurd h (hna h1), fun h => absurd h (hxn _)⟩
  · obtain ⟨_, v, hv, he, x, ds, h1, h2, rfl, _⟩ :=
      (C48_lookup_spec W (zero_mem_utf8s h0) hb).mp h
    rw [← utf8s_inj hs hv he] at h1
    refine ⟨x, h1, fin (each_imp_mem h2 ?_)⟩
    intro l hl d hd
    refine ⟨?_, labelTo_nodot (mem_splitDot_nodot hl) hd⟩
    cases hd with
    | ascii => exact Iff.rfl
    | alabel t _ _ h2 => rw [h2]; exact ⟨fun h => absurd h (hxn _), fun h => absurd h (hxn _)⟩
    | ulabel h1 => exact ⟨fun h => absurd h (hna h1), fun h => absurd h (hxn _)⟩

/-- C87, that no label of a result but the last is empty, is violated: "a..b", ".a" and, after
mapping, a soft hyphen between full stops are looked up. -/
theorem C87_violated :
    LookupOk Sample.E 0 [0x61, 0x2E, 0x2E, 0x62] [0x61, 0x2E, 0x2E, 0x62] ∧
    LookupOk Sample.E 0 [0x2E, 0x61] [0x2E, 0x61] ∧
    LookupOk Sample.E 0 (utf8s [0x61, 0x2E, 0xAD, 0x2E, 0x62]) [0x61, 0x2E, 0x2E, 0x62] ∧
    [] ∈ (splitDot [0x61, 0x2E, 0x2E, 0x62]).dropLast ∧ [] ∈ (splitDot [0x2E, 0x61]).dropLast := by
  decide +kernel

/-- C87, beside it: "a.ü." has three labels, and only the last is empty, before and after. -/
example : LookupOk Sample.E 0 (utf8s [0x61, 0x2E, 0xFC, 0x2E])
      [0x61, 0x2E, 0x78, 0x6E, 0x2D, 0x2D, 0x74, 0x64, 0x61, 0x2E] ∧
    splitDot [0x61, 0x2E, 0x78, 0x6E, 0x2D, 0x2D, 0x74, 0x64, 0x61, 0x2E] =
      [[0x61], [0x78, 0x6E, 0x2D, 0x2D, 0x74, 0x64, 0x61], []] := by decide +kernel

end Idn2
