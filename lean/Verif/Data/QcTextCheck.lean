import Verif.Proof.GenTextEval
import Verif.Data.Qc
import Verif.Data.QcText

/-
The lines in Verif/Data/Qc.lean are those of the text in Verif/Data/QcText.lean.  The check
runs over the whole text.
Written by tools/gen_data.py; do not edit.
-/

namespace Idn2.Shipped

theorem qc_text0 : qcTextCheck qcText0 qc0 = true := by decide +kernel
theorem qc_text1 : qcTextCheck qcText1 qc1 = true := by decide +kernel
theorem qc_text2 : qcTextCheck qcText2 qc2 = true := by decide +kernel
theorem qc_text3 : qcTextCheck qcText3 qc3 = true := by decide +kernel
theorem qc_text4 : qcTextCheck qcText4 qc4 = true := by decide +kernel
theorem qc_text5 : qcTextCheck qcText5 qc5 = true := by decide +kernel
theorem qc_text6 : qcTextCheck qcText6 qc6 = true := by decide +kernel
theorem qc_text7 : qcTextCheck qcText7 qc7 = true := by decide +kernel
theorem qc_text8 : qcTextCheck qcText8 qc8 = true := by decide +kernel
theorem qc_text9 : qcTextCheck qcText9 qc9 = true := by decide +kernel
theorem qc_text10 : qcTextCheck qcText10 qc10 = true := by decide +kernel
theorem qc_text11 : qcTextCheck qcText11 qc11 = true := by decide +kernel
theorem qc_text12 : qcTextCheck qcText12 qc12 = true := by decide +kernel
theorem qc_text13 : qcTextCheck qcText13 qc13 = true := by decide +kernel
theorem qc_text14 : qcTextCheck qcText14 qc14 = true := by decide +kernel
theorem qc_text15 : qcTextCheck qcText15 qc15 = true := by decide +kernel
theorem qc_text16 : qcTextCheck qcText16 qc16 = true := by decide +kernel
theorem qc_text17 : qcTextCheck qcText17 qc17 = true := by decide +kernel
theorem qc_text18 : qcTextCheck qcText18 qc18 = true := by decide +kernel
theorem qc_text19 : qcTextCheck qcText19 qc19 = true := by decide +kernel
theorem qc_text20 : qcTextCheck qcText20 qc20 = true := by decide +kernel
theorem qc_text21 : qcTextCheck qcText21 qc21 = true := by decide +kernel
theorem qc_text22 : qcTextCheck qcText22 qc22 = true := by decide +kernel
theorem qc_text23 : qcTextCheck qcText23 qc23 = true := by decide +kernel
theorem qc_text24 : qcTextCheck qcText24 qc24 = true := by decide +kernel
theorem qc_text25 : qcTextCheck qcText25 qc25 = true := by decide +kernel
theorem qc_text26 : qcTextCheck qcText26 qc26 = true := by decide +kernel
theorem qc_text27 : qcTextCheck qcText27 qc27 = true := by decide +kernel
theorem qc_text28 : qcTextCheck qcText28 qc28 = true := by decide +kernel
theorem qc_text29 : qcTextCheck qcText29 qc29 = true := by decide +kernel
theorem qc_text30 : qcTextCheck qcText30 qc30 = true := by decide +kernel
theorem qc_text31 : qcTextCheck qcText31 qc31 = true := by decide +kernel
theorem qc_text32 : qcTextCheck qcText32 qc32 = true := by decide +kernel
theorem qc_text33 : qcTextCheck qcText33 qc33 = true := by decide +kernel
theorem qc_text34 : qcTextCheck qcText34 qc34 = true := by decide +kernel
theorem qc_text35 : qcTextCheck qcText35 qc35 = true := by decide +kernel
theorem qc_text36 : qcTextCheck qcText36 qc36 = true := by decide +kernel
theorem qc_text37 : qcTextCheck qcText37 qc37 = true := by decide +kernel
theorem qc_text38 : qcTextCheck qcText38 qc38 = true := by decide +kernel
theorem qc_text39 : qcTextCheck qcText39 qc39 = true := by decide +kernel

theorem qc_text_pieces : Pieces qcTextCheck qcTextChunks qcChunks :=
  .cons qc_text0 <|
  .cons qc_text1 <|
  .cons qc_text2 <|
  .cons qc_text3 <|
  .cons qc_text4 <|
  .cons qc_text5 <|
  .cons qc_text6 <|
  .cons qc_text7 <|
  .cons qc_text8 <|
  .cons qc_text9 <|
  .cons qc_text10 <|
  .cons qc_text11 <|
  .cons qc_text12 <|
  .cons qc_text13 <|
  .cons qc_text14 <|
  .cons qc_text15 <|
  .cons qc_text16 <|
  .cons qc_text17 <|
  .cons qc_text18 <|
  .cons qc_text19 <|
  .cons qc_text20 <|
  .cons qc_text21 <|
  .cons qc_text22 <|
  .cons qc_text23 <|
  .cons qc_text24 <|
  .cons qc_text25 <|
  .cons qc_text26 <|
  .cons qc_text27 <|
  .cons qc_text28 <|
  .cons qc_text29 <|
  .cons qc_text30 <|
  .cons qc_text31 <|
  .cons qc_text32 <|
  .cons qc_text33 <|
  .cons qc_text34 <|
  .cons qc_text35 <|
  .cons qc_text36 <|
  .cons qc_text37 <|
  .cons qc_text38 <|
  .cons qc_text39 <|
  .nil

theorem qc_text_ok : qcTextCheck qcText qc = true := qc_pieces qc_text_pieces

end Idn2.Shipped
