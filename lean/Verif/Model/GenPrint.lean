import Verif.Model.GenText
import Verif.Spec.Text

/-
The output of the table generators, down to the bytes: the `printf` and `puts` calls of
lib/gendata.c and lib/gentr46map.c.
-/

namespace Idn2
open Spec (str)

/-! ### The C library -/

/-- The digit characters of `printf` for `%X` and `%d`; used in gentr46map.c:600-681. -/
def digitChar (d : Nat) : Nat := if d < 10 then 48 + d else 55 + d

/-- The digits of `n` to the base `b`, at most `k` of them; used in gentr46map.c:600-681. -/
def printDigits (b : Nat) : Nat → Nat → List Nat
  | 0, _ => []
  | k + 1, n => if n < b then [digitChar n] else printDigits b k (n / b) ++ [digitChar (n % b)]

/-- `%X`; the argument is converted to `unsigned int`; gentr46map.c:600-610,651,681. -/
def printX (n : Nat) : List Nat := printDigits 16 10 (u32 n)

/-- `%02X`; gentr46map.c:673. -/
def print02X (n : Nat) : List Nat := if u32 n < 16 then 48 :: printX n else printX n

/-- `%u`, and `%d` of a number that is not negative; gentr46map.c:648-681, gendata.c:92. -/
def printU (n : Nat) : List Nat := printDigits 10 10 (u32 n)

/-- `puts`; gendata.c:66-71,91. -/
def puts (s : String) : List Nat := str s ++ [10]

/-! ### gentr46map.c -/

/-- What is printed of one part of an entry; gentr46map.c:595-612. -/
def printPart (max : Nat) (map : MapGen) (p : Nat × Nat) : List Nat :=
  (printRecord max map p).flatMap (fun b => str "0x" ++ printX b ++ str ",") ++ [10]

/-- `_print_tr46_map (min, max, 1)`; gentr46map.c:564-623. -/
def print_tr46_text (min max : Nat) : List MapGen → List Nat
  | [] => []
  | map :: r =>
    if map.cp1 < min then print_tr46_text min max r
    else if map.cp1 > max then []
    else (splitEntry map.cp2 ((map.cp2 - map.cp1) / 0x10000) map.cp1).flatMap (printPart max map)
      ++ print_tr46_text min max r

/-- `entries` of `_print_tr46_map (min, max, 0)`; gentr46map.c:566-592. -/
def tr46_entries (min max : Nat) : List MapGen → Nat → Nat
  | [], entries => entries
  | map :: r, entries =>
    if map.cp1 < min then tr46_entries min max r entries
    else if map.cp1 > max then entries
    else tr46_entries min max r (entries + ((map.cp2 - map.cp1) / 0x10000 + 1))

/-- The value of `_print_tr46_map (min, max, 0)`; gentr46map.c:616-622. -/
def tr46_size (min max : Nat) (l : List MapGen) : Nat :=
  if max = 0xFF then tr46_entries min max l 0 * 5
  else if max = 0xFFFF then tr46_entries min max l 0 * 7
  else if max = 0xFFFFFF then tr46_entries min max l 0 * 8
  else 0

/-- The loop printing `mapdata`; gentr46map.c:670-673. -/
def printMapdata : Nat → List Nat → List Nat
  | _, [] => []
  | it, b :: r =>
    str "0x" ++ print02X b ++ str "," ++ (if it % 16 = 15 then [10] else []) ++
      printMapdata (it + 1) r

/-- One entry of `nfcqc_map`; gentr46map.c:677-681. -/
def printQc (r : QcRow) : List Nat :=
  str "{0x" ++ printX r.first ++ str ",0x" ++ printX r.last ++ str "," ++ printU r.check ++ str "},\n"

/-- One of the three maps; gentr46map.c:654-667. -/
def printMap (name : String) (min max : Nat) (l : List MapGen) : List Nat :=
  str "static const uint8_t " ++ str name ++ str "[" ++ printU (tr46_size min max l) ++
    str "] = {\n" ++ print_tr46_text min max l ++ str "};\n\n"

/-- The part of `main` that prints; gentr46map.c:644-685. -/
def gentr46output (l : List MapGen) (comb data : List Nat) (qc : List QcRow) : List Nat :=
  str "/* This file is automatically generated.  DO NOT EDIT! */\n\n" ++
  str "#include <stdint.h>\n" ++ str "#include \"tr46map.h\"\n\n" ++
  str "static const uint8_t idna_flags[" ++ printU comb.length ++ str "] =\n{" ++
  comb.flatMap (fun f => str "0x" ++ printX f ++ str ",") ++ str "};\n\n" ++
  printMap "idna_map_8" 0x0 0xFF l ++
  printMap "idna_map_16" 0x100 0xFFFF l ++
  printMap "idna_map_24" 0x10000 0xFFFFFF l ++
  str "static const uint8_t mapdata[" ++ printU data.length ++ str "] = {\n" ++
  printMapdata 0 data ++ str "};\n\n" ++
  str "static const NFCQCMap nfcqc_map[" ++ printU qc.length ++ str "] = {\n" ++
  qc.flatMap printQc ++ str "};\n"

/-- `main` behind the reading of the files; gentr46map.c:634-686: the text printed.  (The first
two of the conditions under which nothing is printed are the `exit` calls; the NFC_QC file is
read before.) -/
def gentr46print (st : GenState) (qc : List QcRow) : Option (List Nat) :=
  match compactLoop st.gd (qsort compare_map_by_maplen st.map.reverse) [] with
  | none => none
  | some (l, data) =>
    match combineFlags (qsort compare_map l) [] with
    | none => none
    | some (l, comb) =>
      if qc.any (fun r => decide (r.first > r.last)) ∨ qc.length ≥ 140 then none
      else some (gentr46output l comb data (qsort compare_qc qc))

/-- `main`; gentr46map.c:625-687: from the text of the two files to the text of
tr46map_data.c. -/
def gentr46map_file (mapText qcText : List Nat) : GRes (List Nat) := do
  let st ← scanFile read_IdnaMappings_line ⟨[], []⟩ mapText
  let qc ← scanFile read_NFCQC [] qcText
  GRes.ofOption (gentr46print st qc.reverse)

/-! ### gendata.c -/

/-- `printf ("  {0x%s, 0x%s, %s},\n", …)`; gendata.c:87. -/
def printRow (x : List Nat × List Nat × List Nat) : List Nat :=
  str "  {0x" ++ x.1 ++ str ", 0x" ++ x.2.1 ++ str ", " ++ x.2.2 ++ str "},\n"

/-- What `main` prints; gendata.c:64-69, 87, 91-92. -/
def gendataOutput (rows : List (List Nat × List Nat × List Nat)) : List Nat :=
  puts "/* This file is automatically generated.  DO NOT EDIT! */" ++ puts "" ++
  puts "#include <config.h>" ++ puts "#include \"data.h\"" ++ puts "" ++
  puts "const struct idna_table idna_table[] = {" ++
  rows.flatMap printRow ++
  puts "};" ++ str "const size_t idna_table_size = " ++ printU rows.length ++ str ";\n"

/-- `main`; gendata.c:56-94: from the text read to the text of data.c.  The lines are counted in
an `int`. -/
def gendata_file (text : List Nat) : GRes (List Nat) := do
  let rows ← gendata_text text
  if rows.length ≥ 2 ^ 31 then .ub else pure (gendataOutput rows)

end Idn2
