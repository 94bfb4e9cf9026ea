import Verif.Data.Check
import Verif.Proof.DataLaws

/-
The data of the repository satisfy `Data.Laws`.
-/

namespace Idn2.Shipped

/-- The tables which the generators produce from the files in the repository. -/
def T : Tables := (gentr46map map qc (gendata csv)).toOption.getD ⟨[], [], [], [], [], [], []⟩

/-- What the files in the repository say. -/
def D : Data := dataOf csv map qc

theorem implements : Implements T D := by
  obtain ⟨T', h1, h2, -⟩ := gen_implements files_ok
  unfold T
  rw [h1, GRes.toOption_ok, Option.getD_some]
  exact h2

theorem laws_ok : lawsCheck csv map qc 12000 = true := by decide +kernel

theorem laws : D.Laws := lawsCheck_ok files_ok laws_ok

end Idn2.Shipped
