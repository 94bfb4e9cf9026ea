import Verif.Proof.GenTextEval
import Verif.Data.Map
import Verif.Data.MapText

/-
The lines in Verif/Data/Map.lean are those of the text in Verif/Data/MapText.lean.  The check
runs over the whole text.
Written by tools/gen_data.py; do not edit.
-/

namespace Idn2.Shipped

theorem map_text0 : mapTextCheck mapText0 map0 = true := by decide +kernel
theorem map_text1 : mapTextCheck mapText1 map1 = true := by decide +kernel
theorem map_text2 : mapTextCheck mapText2 map2 = true := by decide +kernel
theorem map_text3 : mapTextCheck mapText3 map3 = true := by decide +kernel
theorem map_text4 : mapTextCheck mapText4 map4 = true := by decide +kernel
theorem map_text5 : mapTextCheck mapText5 map5 = true := by decide +kernel
theorem map_text6 : mapTextCheck mapText6 map6 = true := by decide +kernel
theorem map_text7 : mapTextCheck mapText7 map7 = true := by decide +kernel
theorem map_text8 : mapTextCheck mapText8 map8 = true := by decide +kernel
theorem map_text9 : mapTextCheck mapText9 map9 = true := by decide +kernel
theorem map_text10 : mapTextCheck mapText10 map10 = true := by decide +kernel
theorem map_text11 : mapTextCheck mapText11 map11 = true := by decide +kernel
theorem map_text12 : mapTextCheck mapText12 map12 = true := by decide +kernel
theorem map_text13 : mapTextCheck mapText13 map13 = true := by decide +kernel
theorem map_text14 : mapTextCheck mapText14 map14 = true := by decide +kernel
theorem map_text15 : mapTextCheck mapText15 map15 = true := by decide +kernel
theorem map_text16 : mapTextCheck mapText16 map16 = true := by decide +kernel
theorem map_text17 : mapTextCheck mapText17 map17 = true := by decide +kernel
theorem map_text18 : mapTextCheck mapText18 map18 = true := by decide +kernel
theorem map_text19 : mapTextCheck mapText19 map19 = true := by decide +kernel
theorem map_text20 : mapTextCheck mapText20 map20 = true := by decide +kernel
theorem map_text21 : mapTextCheck mapText21 map21 = true := by decide +kernel
theorem map_text22 : mapTextCheck mapText22 map22 = true := by decide +kernel
theorem map_text23 : mapTextCheck mapText23 map23 = true := by decide +kernel
theorem map_text24 : mapTextCheck mapText24 map24 = true := by decide +kernel
theorem map_text25 : mapTextCheck mapText25 map25 = true := by decide +kernel
theorem map_text26 : mapTextCheck mapText26 map26 = true := by decide +kernel
theorem map_text27 : mapTextCheck mapText27 map27 = true := by decide +kernel
theorem map_text28 : mapTextCheck mapText28 map28 = true := by decide +kernel
theorem map_text29 : mapTextCheck mapText29 map29 = true := by decide +kernel
theorem map_text30 : mapTextCheck mapText30 map30 = true := by decide +kernel
theorem map_text31 : mapTextCheck mapText31 map31 = true := by decide +kernel
theorem map_text32 : mapTextCheck mapText32 map32 = true := by decide +kernel
theorem map_text33 : mapTextCheck mapText33 map33 = true := by decide +kernel
theorem map_text34 : mapTextCheck mapText34 map34 = true := by decide +kernel

theorem map_text_pieces : Pieces mapTextCheck mapTextChunks mapChunks :=
  .cons map_text0 <|
  .cons map_text1 <|
  .cons map_text2 <|
  .cons map_text3 <|
  .cons map_text4 <|
  .cons map_text5 <|
  .cons map_text6 <|
  .cons map_text7 <|
  .cons map_text8 <|
  .cons map_text9 <|
  .cons map_text10 <|
  .cons map_text11 <|
  .cons map_text12 <|
  .cons map_text13 <|
  .cons map_text14 <|
  .cons map_text15 <|
  .cons map_text16 <|
  .cons map_text17 <|
  .cons map_text18 <|
  .cons map_text19 <|
  .cons map_text20 <|
  .cons map_text21 <|
  .cons map_text22 <|
  .cons map_text23 <|
  .cons map_text24 <|
  .cons map_text25 <|
  .cons map_text26 <|
  .cons map_text27 <|
  .cons map_text28 <|
  .cons map_text29 <|
  .cons map_text30 <|
  .cons map_text31 <|
  .cons map_text32 <|
  .cons map_text33 <|
  .cons map_text34 <|
  .nil

theorem map_text_ok : mapTextCheck mapText map = true := map_pieces map_text_pieces

end Idn2.Shipped
