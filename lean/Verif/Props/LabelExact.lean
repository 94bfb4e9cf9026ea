import Verif.Proof.FirstFault
import Verif.Props.Label

/-
C50, the complete account: the result of `label_test` (lib/idna.c:135-296) is the fault of the
first step, at the first position, whatever is selected by `what`.
-/

namespace Idn2
open Spec

/-- C50.  `label_test` returns the code `e` exactly if `e` is the fault found first; the contextual
rules, for which two codes are possible, are included. -/
theorem C50_exact {E : Env} {D : Data} (hI : Implements E.T D) (what : Nat) {label : List Nat}
    (hl : ∀ c ∈ label, c ≤ 0x10FFFF) (e : Rc) :
    (label_test E what label : Out _) = .val (.error e) ↔ FirstFault D E.U what label e := by
  rw [← labelTestP_first hI hl, label_test_out]
  cases labelTestP E what label with
  | ok u => simp
  | err e' => simp
  | ub => simp

/-- C50.  Success is the absence of any fault, so that the outcome is determined. -/
theorem C50_exact_ok {E : Env} {D : Data} (hI : Implements E.T D) (what : Nat) {label : List Nat}
    (hl : ∀ c ∈ label, c ≤ 0x10FFFF) :
    (label_test E what label : Out _) = .val (.ok ()) ↔
      ∀ k pos e, ¬ FaultAt D E.U what label k pos e := by
  rw [label_test_out]
  rcases (steps_label_test hI what hl).2 with ⟨h1, h2⟩ | ⟨e, k, p, h1, h2, _⟩
  · rw [h1]; simpa using h2
  · rw [h1]
    constructor
    · intro h; simp at h
    · intro h; exact absurd h2 (h k p e)

/-- The violated ZWNJ rule is examined before the middle dot although it stands later. -/
example : FirstFault Sample.D Sample.U 0x0014 [0x2D, 0x41, 0x2D, 0x2D] .hyphenStartEnd ∧
    FirstFault Sample.D Sample.U 0x0240 [0x61, 0xB7, 0x200C] .contextj ∧
    FirstFault Sample.D Sample.U 0x0200 [0x61, 0xB7, 0x200C] .contexto ∧
    ∀ k pos e, ¬ FaultAt Sample.D Sample.U 0x0200 [0x6C, 0xB7, 0x6C] k pos e := by
  have h : (label_test Sample.E 0x0014 [0x2D, 0x41, 0x2D, 0x2D] : Out _) =
        .val (.error .hyphenStartEnd) ∧
      (label_test Sample.E 0x0240 [0x61, 0xB7, 0x200C] : Out _) = .val (.error .contextj) ∧
      (label_test Sample.E 0x0200 [0x61, 0xB7, 0x200C] : Out _) = .val (.error .contexto) ∧
      (label_test Sample.E 0x0200 [0x6C, 0xB7, 0x6C] : Out _) = .val (.ok ()) := by decide +kernel
  obtain ⟨h1, h2, h3, h4⟩ := h
  have hI := Sample.implements
  exact ⟨(C50_exact hI _ (by decide) _).mp h1, (C50_exact hI _ (by decide) _).mp h2,
    (C50_exact hI _ (by decide) _).mp h3, (C50_exact_ok hI _ (by decide)).mp h4⟩

end Idn2
