import Verif.Data.Laws
import Verif.Data.Sample
import Verif.Proof.Closed

/-
The mapping table of the repository is stable.
-/

namespace Idn2
open Spec

theorem Shipped.closed_ok : closedCheck Shipped.map 14 = true := by decide +kernel

theorem Shipped.closed : Closed Shipped.D := closed_of_check Shipped.files_ok Shipped.closed_ok

theorem Sample.closed : Closed Sample.D := closed_of_check (height := 8) Sample.files_ok
  (by decide +kernel)

end Idn2
