import Verif.Proof.GenPrintOk
import Verif.Props.GenTextTiny

/-
Property C67: what a C compiler makes of the texts the two generators print.

The part of C these texts are written in is in Verif/Spec/CText.lean; `gendata_file` and
`gentr46map_file` are the generators from the bytes read to the bytes printed.
-/

namespace Idn2
open Spec

theorem range_lt {t : List Nat} {a b : Nat} (h : RangeText t a b) : a < 2 ^ 32 ∧ b < 2 ^ 32 := by
  cases h with
  | single h => exact ⟨h.2, h.2⟩
  | range h h' => exact ⟨h.2, h'.2⟩

theorem qcFile_lt {qc : List QcRow} {text : List Nat} (h : QcFile qc text) :
    ∀ r ∈ qc, r.first < 2 ^ 32 ∧ r.last < 2 ^ 32 ∧ r.check < 128 := by
  obtain ⟨ls, hl, hc⟩ := h
  clear hl
  induction hc with
  | nil => simp
  | skip _ _ ih => exact ih
  | row h _ ih =>
    intro r hr
    rcases List.mem_cons.mp hr with rfl | hr
    · cases h with
      | intro _ hrng _ _ _ _ _ _ hchk =>
        have := range_lt hrng
        exact ⟨this.1, this.2, by omega⟩
    · exact ih r hr

/-- C67.  For texts in the format of the three files that state well-formed data, both
generators print a text, a C compiler accepts the two texts, and the arrays it makes of them
answer every query as the files say. -/
theorem C67_compiled {csv : List CsvRow} {rows : List MapRow} {qc : List QcRow}
    {tc tm tq : List Nat} (hc : CsvFile csv tc) (hm : MapFile rows tm) (hq : QcFile qc tq)
    (hr : ∀ r ∈ rows, r.hasMapping) (h : FilesOk csv rows qc) (hn : csv.length < 2 ^ 31) :
    ∃ dc tt T, gendata_file tc = .ok dc ∧ gentr46map_file tm tq = .ok tt ∧
      C.compiled dc tt = some T ∧ Implements T (dataOf csv rows qc) := by
  obtain ⟨out, h1, h2⟩ := gendata_text_eq hc
  obtain ⟨dc, h3, h4⟩ := gendata_file_ok h1 h2 hn
  obtain ⟨T, h5, h6, _, _⟩ := gen_implements h
  obtain ⟨tt, h7, h8⟩ := gentr46map_file_ok (scan_map_file hm hr _) (scan_qc_file hq) h.mapTop
    (qcFile_lt hq) h5
  exact ⟨dc, tt, T, h3, h7, h8 dc h4, h6⟩

/-- C67.  A text is printed if and only if there are tables to print: otherwise the generator
ends with a message. -/
theorem C67_refused {rows : List MapRow} {qc : List QcRow} {tm tq : List Nat}
    (hm : MapFile rows tm) (hq : QcFile qc tq) (hr : ∀ r ∈ rows, r.hasMapping)
    (tbl : List IdnaRow) :
    gentr46map_file tm tq = .complaint ↔ gentr46map rows qc tbl = .complaint := by
  rw [gentr46map_file_eq (scan_map_file hm hr _) (scan_qc_file hq)]
  unfold gentr46map
  cases scanMappings ⟨[], []⟩ rows with
  | complaint => simp
  | ub => simp
  | ok st =>
    simp only [GRes.bind_ok]
    have h := print_none (st := st) (qc := qc) (tbl := tbl)
    cases h1 : gentr46print st qc <;> cases h2 : gentr46finish st qc tbl <;>
      simp_all [GRes.ofOption]

/-- C67.  The three files in the repository are turned into C texts whose arrays answer every
query as the lines of the files say. -/
theorem C67_shipped :
    ∃ dc tt T, gendata_file (textOf Shipped.csvText) = .ok dc ∧
      gentr46map_file (textOf Shipped.mapText) (textOf Shipped.qcText) = .ok tt ∧
      C.compiled dc tt = some T ∧
      Implements T (dataOf Shipped.csv Shipped.map Shipped.qc) := by
  obtain ⟨out, h1, h2⟩ := gendata_checked Shipped.csv_text_ok
  obtain ⟨dc, h3, h4⟩ := gendata_file_ok h1 h2 (by decide +kernel)
  obtain ⟨T, h5, h6, _, _⟩ := gen_implements Shipped.files_ok
  obtain ⟨tt, h7, h8⟩ := gentr46map_file_ok (scan_map_checked Shipped.map_text_ok _)
    (by rw [if_pos ⟨Shipped.files_ok.qcIv, Shipped.files_ok.qcLen⟩]
        exact scan_qc_checked Shipped.qc_text_ok Shipped.files_ok.qcIv Shipped.files_ok.qcLen)
    Shipped.files_ok.mapTop (by decide +kernel) h5
  exact ⟨dc, tt, T, h3, h7, h8 dc h4, h6⟩

/-! Concrete texts -/

deriving instance DecidableEq for Tables

namespace Tiny

/-- C67 applied to a small set of files … -/
example : ∃ dc tt T, gendata_file csvText = .ok dc ∧ gentr46map_file mapText qcText = .ok tt ∧
    C.compiled dc tt = some T ∧ Implements T (dataOf csv map qc) :=
  C67_compiled csvFile mapFile qcFile hasMapping filesOk (by decide)

/-- … of which this is the first text printed; … -/
def dataText : List Nat :=
  str "/* This file is automatically generated.  DO NOT EDIT! */\n\n#include <config.h>\n" ++
  str "#include \"data.h\"\n\nconst struct idna_table idna_table[] = {\n" ++
  str "  {0x0061, 0x007a, PVALID},\n  {0x00B7, 0x00B7, CONTEXTO},\n};\n" ++
  str "const size_t idna_table_size = 2;\n"

example : gendata_file csvText = .ok dataText := by decide +kernel

example : C.dataC dataText = some [⟨0x61, 0x7A, .pvalid⟩, ⟨0xB7, 0xB7, .contexto⟩] := by
  decide +kernel

/-- … and this is the second for two lines. -/
def tr46Text : List Nat :=
  str "/* This file is automatically generated.  DO NOT EDIT! */\n\n#include <stdint.h>\n" ++
  str "#include \"tr46map.h\"\n\nstatic const uint8_t idna_flags[2] =\n{0x2,0x1,};\n\n" ++
  str "static const uint8_t idna_map_8[10] = {\n0xC0,0x0,0x4,0x0,0x0,\n0xE0,0x16,0x0,0x0,0x1,\n};\n\n" ++
  str "static const uint8_t idna_map_16[0] = {\n};\n\nstatic const uint8_t idna_map_24[0] = {\n};\n\n" ++
  str "static const uint8_t mapdata[3] = {\n0x61,0x86,0x00,};\n\n" ++
  str "static const NFCQCMap nfcqc_map[2] = {\n{0x300,0x300,2},\n{0x340,0x341,1},\n};\n"

example : gentr46map_file (str "00C0 ; mapped ; 0061 0300 # A\n00E0..00F6 ; valid\n") qcText =
    .ok tr46Text := by decide +kernel

example : C.compiled dataText tr46Text = some
    ⟨[⟨0x61, 0x7A, .pvalid⟩, ⟨0xB7, 0xB7, .contexto⟩], [2, 1],
      [0xC0, 0, 4, 0, 0, 0xE0, 0x16, 0, 0, 1], [], [], [0x61, 0x86, 0],
      [⟨0x300, 0x300, 2⟩, ⟨0x340, 0x341, 1⟩]⟩ := by decide +kernel

/-- Texts with too many initialisers, without a comma, with an unknown name and with a count
beyond the array are not accepted; initialisers that are missing are zero. -/
example : (C.objects (str "static const uint8_t x[2] = {0x1,0x2,0x3,};")).bind
      (C.byteArray "x") = none ∧
    (C.objects (str "static const uint8_t x[2] = {0x1 0x2,};")).bind (C.byteArray "x") = none ∧
    (C.objects (str "static const uint8_t x[4] = {0x1,0x2,};")).bind (C.byteArray "x") =
      some [1, 2, 0, 0] ∧
    C.dataC (str "const struct idna_table idna_table[] = {{0x1, 0x2, VALID},};" ++
      str "const size_t idna_table_size = 1;") = none ∧
    C.dataC (str "const struct idna_table idna_table[] = {{0x1, 0x2, PVALID},};" ++
      str "const size_t idna_table_size = 2;") = none := by decide +kernel

end Tiny

end Idn2
