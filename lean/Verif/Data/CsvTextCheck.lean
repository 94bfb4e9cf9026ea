import Verif.Proof.GenTextEval
import Verif.Data.Csv
import Verif.Data.CsvText

/-
The lines in Verif/Data/Csv.lean are those of the text in Verif/Data/CsvText.lean.  The check
runs over the whole text.
Written by tools/gen_data.py; do not edit.
-/

namespace Idn2.Shipped

theorem csv_text0 : csvLinesCheck csvText0 csv0 = true := by decide +kernel
theorem csv_text1 : csvLinesCheck csvText1 csv1 = true := by decide +kernel
theorem csv_text2 : csvLinesCheck csvText2 csv2 = true := by decide +kernel
theorem csv_text3 : csvLinesCheck csvText3 csv3 = true := by decide +kernel
theorem csv_text4 : csvLinesCheck csvText4 csv4 = true := by decide +kernel
theorem csv_text5 : csvLinesCheck csvText5 csv5 = true := by decide +kernel
theorem csv_text6 : csvLinesCheck csvText6 csv6 = true := by decide +kernel
theorem csv_text7 : csvLinesCheck csvText7 csv7 = true := by decide +kernel
theorem csv_text8 : csvLinesCheck csvText8 csv8 = true := by decide +kernel
theorem csv_text9 : csvLinesCheck csvText9 csv9 = true := by decide +kernel
theorem csv_text10 : csvLinesCheck csvText10 csv10 = true := by decide +kernel
theorem csv_text11 : csvLinesCheck csvText11 csv11 = true := by decide +kernel

theorem csv_text_pieces : Pieces csvLinesCheck csvTextChunks csvChunks :=
  .cons csv_text0 <|
  .cons csv_text1 <|
  .cons csv_text2 <|
  .cons csv_text3 <|
  .cons csv_text4 <|
  .cons csv_text5 <|
  .cons csv_text6 <|
  .cons csv_text7 <|
  .cons csv_text8 <|
  .cons csv_text9 <|
  .cons csv_text10 <|
  .cons csv_text11 <|
  .nil

theorem csv_text_ok : csvTextCheck csvText csv = true := by
  have h := csv_pieces csv_text_pieces
  unfold csvText csv csvTextCheck
  rw [Bool.and_eq_true]
  exact ⟨by decide +kernel, h⟩

end Idn2.Shipped
