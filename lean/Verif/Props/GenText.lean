import Verif.Proof.GenTextEval
import Verif.Data.Check
import Verif.Data.CsvTextCheck
import Verif.Data.MapTextCheck
import Verif.Data.QcTextCheck

/-
Properties C53 and C54: the generators read the text of the data files as what it says.

The grammar of the three files is in Verif/Spec/Text.lean; `gendata_text` and
`gentr46map_text` are the generators from the bytes of the files on.
-/

namespace Idn2
open Spec

/-- C53.  For texts in the format of the three files that state well-formed data, both
generators succeed, what gendata prints is accepted by a C compiler, and the tables made
answer every query as the texts say. -/
theorem C53_generators {csv : List CsvRow} {rows : List MapRow} {qc : List QcRow}
    {tc tm tq : List Nat} (hc : CsvFile csv tc) (hm : MapFile rows tm) (hq : QcFile qc tq)
    (hr : ∀ r ∈ rows, r.hasMapping) (h : FilesOk csv rows qc) :
    ∃ out tbl T, gendata_text tc = .ok out ∧ out.map readInit = tbl.map some ∧
      gentr46map_text tm tq tbl = .ok T ∧ T.idna_table = tbl ∧
      Implements T (dataOf csv rows qc) := by
  obtain ⟨out, h1, h2⟩ := gendata_text_eq hc
  obtain ⟨T, h3, h4, h5, _⟩ := gen_implements h
  exact ⟨out, gendata csv, T, h1, h2, by rw [gentr46map_text_eq hm hr hq, h3], h5, h4⟩

/-- C53.  Data the generator refuses line by line are refused as text: nothing is read into the
lines that is not there.  (For which lines this is, see C99.) -/
theorem C53_refused {rows : List MapRow} {qc : List QcRow} {tm tq : List Nat}
    (hm : MapFile rows tm) (hq : QcFile qc tq) (hr : ∀ r ∈ rows, r.hasMapping)
    (tbl : List IdnaRow) :
    gentr46map_text tm tq tbl = .complaint ↔ gentr46map rows qc tbl = .complaint := by
  rw [gentr46map_text_eq hm hr hq]

/-- C53.  No text in the format leads to undefined behaviour of gendata, and one leads to undefined
behaviour of gentr46map only by a line with too many mappings: one that leaves an array. -/
theorem C53_safe {csv : List CsvRow} {rows : List MapRow} {qc : List QcRow}
    {tc tm tq : List Nat} (hc : CsvFile csv tc) (hm : MapFile rows tm) (hq : QcFile qc tq)
    (hr : ∀ r ∈ rows, r.hasMapping) (tbl : List IdnaRow) :
    gendata_text tc ≠ .ub ∧ (gentr46map_text tm tq tbl = .ub ↔ Overrun rows) := by
  obtain ⟨out, h1, _⟩ := gendata_text_eq hc
  rw [h1, gentr46map_text_eq hm hr hq, gentr46map_ub]
  simp

/-- C54.  The bytes of the three files in the repository are turned into tables that answer
every query as the lines of the files say. -/
theorem C54_shipped_text :
    ∃ out tbl T, gendata_text (textOf Shipped.csvText) = .ok out ∧
      out.map readInit = tbl.map some ∧
      gentr46map_text (textOf Shipped.mapText) (textOf Shipped.qcText) tbl = .ok T ∧
      T.idna_table = tbl ∧
      Implements T (dataOf Shipped.csv Shipped.map Shipped.qc) := by
  obtain ⟨out, h1, h2⟩ := gendata_checked Shipped.csv_text_ok
  obtain ⟨T, h3, h4, h5, _⟩ := gen_implements Shipped.files_ok
  exact ⟨out, _, T, h1, h2, gentr46map_checked Shipped.map_text_ok Shipped.qc_text_ok
    Shipped.files_ok.qcIv Shipped.files_ok.qcLen h3, h5, h4⟩

/-! Concrete texts -/

/-- Two lines of IdnaMappingTable.txt, one with a comment, and a blank line. -/
def smallMap : List Nat :=
  str "00C0          ; mapped                 ; 00E0          # 1.1  LATIN\r\n" ++
  str "\n" ++ str "# comment\n" ++
  str "00E0..00F6    ; valid"

example : MapFile [⟨0xC0, 0xC0, .mapped, [0xE0]⟩, ⟨0xE0, 0xF6, .valid, []⟩] smallMap := by
  have hd : ∀ d, d < 10 → HexDigit (48 + d) d := fun d h => Or.inl ⟨h, rfl⟩
  have hC : HexDigit 0x43 12 := Or.inr ⟨by decide, by decide, Or.inl rfl⟩
  have hE : HexDigit 0x45 14 := Or.inr ⟨by decide, by decide, Or.inl rfl⟩
  have hF : HexDigit 0x46 15 := Or.inr ⟨by decide, by decide, Or.inl rfl⟩
  have hC0 : Hex32 (str "00C0") 0xC0 :=
    ⟨.snoc (t := str "00C") (.snoc (t := str "00") (.snoc (t := str "0") (.one (hd 0 (by decide)))
      (hd 0 (by decide))) hC) (hd 0 (by decide)), by decide⟩
  have hE0 : Hex32 (str "00E0") 0xE0 :=
    ⟨.snoc (t := str "00E") (.snoc (t := str "00") (.snoc (t := str "0") (.one (hd 0 (by decide)))
      (hd 0 (by decide))) hE) (hd 0 (by decide)), by decide⟩
  have hF6 : Hex32 (str "00F6") 0xF6 :=
    ⟨.snoc (t := str "00F") (.snoc (t := str "00") (.snoc (t := str "0") (.one (hd 0 (by decide)))
      (hd 0 (by decide))) hF) (hd 6 (by decide)), by decide⟩
  have bl : ∀ w : List Nat, (w.all fun b => b == 32) = true → Blank w := by
    intro w hw b hb
    have := List.all_eq_true.mp hw b hb
    exact Or.inl (by simpa using this)
  refine ⟨[str "00C0          ; mapped                 ; 00E0          # 1.1  LATIN\r\n", str "\n",
    str "# comment\n", str "00E0..00F6    ; valid"], ⟨by decide, ?_, ?_, by decide⟩, ?_⟩
  · intro l hl
    rcases List.mem_cons.mp hl with rfl | hl
    · exact ⟨str "00C0          ; mapped                 ; 00E0          # 1.1  LATIN\r", by decide,
        by decide⟩
    rcases List.mem_cons.mp hl with rfl | hl
    · exact ⟨[], by decide, by decide⟩
    rcases List.mem_cons.mp hl with rfl | hl
    · exact ⟨str "# comment", by decide, by decide⟩
    · cases hl
  · intro l hl
    simp only [List.getLast?, Option.mem_def, Option.some.injEq] at hl
    subst hl
    exact ⟨by decide, Or.inl (by decide)⟩
  · refine .row ?_ (.skip ⟨[], str "\n", by decide, by simp [Blank], [], [10], by decide,
      Or.inl rfl, Or.inr rfl⟩ (.skip ⟨[], str "# comment\n", by decide, by simp [Blank],
        str "# comment", [10], by decide, Or.inr ⟨str " comment", by decide, by decide, by decide⟩,
        Or.inr rfl⟩ (.row ?_ .nil)))
    · have := MapLine.intro (row := ⟨0xC0, 0xC0, .mapped, [0xE0]⟩) (w0 := []) (r := str "00C0")
        (w1 := str "          ") (w2 := str " ") (w3 := str "                 ") (bl _ (by decide))
        (.single hC0) (bl _ (by decide)) (bl _ (by decide)) (bl _ (by decide))
        (.listed (w := str " ") (w' := str "          ") (e := str "# 1.1  LATIN\r\n")
          (bl _ (by decide)) (.one hE0) (bl _ (by decide))
          (Or.inl ⟨str "# 1.1  LATIN\r", [10], by decide, Or.inr ⟨str " 1.1  LATIN\r", by decide,
            by decide, by decide⟩, Or.inr rfl⟩))
      exact this
    · have := MapLine.intro (row := ⟨0xE0, 0xF6, .valid, []⟩) (w0 := []) (r := str "00E0..00F6")
        (w1 := str "    ") (w2 := str " ") (w3 := []) (bl _ (by decide))
        (.range hE0 hF6) (bl _ (by decide)) (bl _ (by decide)) (bl _ (by decide))
        (.absent ⟨[], [], rfl, Or.inl rfl, Or.inl rfl⟩)
      exact this

/-- … and it is read so. -/
example : scanFile read_IdnaMappings_line ⟨[], []⟩ smallMap =
    scanMappings ⟨[], []⟩
      [⟨0xC0, 0xC0, .mapped, [0xE0]⟩, ⟨0xE0, 0xF6, .valid, []⟩] := by decide +kernel

example : scanFile read_NFCQC []
    (str "0340..0341    ; NFC_QC; N # Mn\n00A0 ; NFKC_QC; N\n0300 ; NFC_QC; M\n") =
    .ok [⟨0x300, 0x300, 2⟩, ⟨0x340, 0x341, 1⟩] := by decide +kernel

example : gendata_text
    (str "Codepoint,Property,Description\n00DF-00F6,PVALID,X\n0378,UNASSIGNED,Y\n00B7,CONTEXTO,Z\n")
    = .ok [(str "00DF", str "00F6", str "PVALID"), (str "00B7", str "00B7", str "CONTEXTO")] := by
  decide +kernel

/-! Texts outside of the format -/

/-- A line with one field only makes the generator compare with a null pointer. -/
theorem C53_missing_field : scanLine read_IdnaMappings_line ⟨[], []⟩ (str "00C0\n") = .ub := by
  decide +kernel

/-- So does an NFC_QC line without a value: it dereferences one. -/
theorem C53_missing_value : scanLine read_NFCQC [] (str "0340 ; NFC_QC\n") = .ub := by
  decide +kernel

/-- The end of a comment beyond the 1023 bytes that are read at once is taken for a line. -/
theorem C53_long_comment :
    scanFile read_NFCQC [] (str "#" ++ List.replicate 1022 0x2D ++ str "0041 ; NFC_QC ; N\n") =
      .ok [⟨0x41, 0x41, 1⟩] := by decide +kernel

/-- A line without the mapping it should have leads to a message. -/
theorem C53_missing_mapping :
    scanLine read_IdnaMappings_line ⟨[], []⟩ (str "00C0 ; mapped\n") = .complaint := by
  decide +kernel

end Idn2
