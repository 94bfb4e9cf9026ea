import Verif.Proof.Gen
import Verif.Data.Csv
import Verif.Data.Map
import Verif.Data.Qc

/-
The shipped data files meet the conditions of the generators.  The checks run over all the
lines of the files.
-/

namespace Idn2.Shipped

theorem csv_ok : csvCheck csv = true := by decide +kernel
theorem qc_ok : qcCheck qc = true := by decide +kernel
theorem map_ok : mapCheck map = true := by decide +kernel

theorem files_ok : FilesOk csv map qc := filesOk_of_check csv_ok map_ok qc_ok

end Idn2.Shipped
