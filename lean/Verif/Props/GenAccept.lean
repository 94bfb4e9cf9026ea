import Verif.Props.GenTextTiny

/-
Property C99: which data files the generator of the tables accepts, and for which of them the
tables are right.

`Accepted` and `Unchecked` are in Verif/Spec/GenAccept.lean.
-/

namespace Idn2
open Spec

/-- C99.  `gentr46map` makes tables exactly for lines that satisfy `Accepted`: ranges that do not
run backwards, mappings in order and without overlap, at most 20 code points for one line, at most
16384 bytes for all mappings, less than 10000 entries behind merging and less than 140 lines of
NFC_QC. -/
theorem C99_accepts {rows : List MapRow} {qc : List QcRow} {tbl : List IdnaRow} :
    (∃ T, gentr46map rows qc tbl = .ok T) ↔ Accepted rows qc :=
  gentr46map_accepts

/-- C99.  Undefined behaviour occurs exactly for `Overrun`: behind lines that are accepted, a line
in order writes the twenty-first code point to an array of twenty, or a code point of several
bytes across the end of the array of 16384 bytes. -/
theorem C99_ub {rows : List MapRow} {qc : List QcRow} {tbl : List IdnaRow} :
    gentr46map rows qc tbl = .ub ↔ Overrun rows :=
  gentr46map_ub

/-- C99.  All other files are refused with a message. -/
theorem C99_refused {rows : List MapRow} {qc : List QcRow} {tbl : List IdnaRow} :
    gentr46map rows qc tbl = .complaint ↔ ¬ Accepted rows qc ∧ ¬ Overrun rows := by
  rw [← C99_accepts (tbl := tbl), ← C99_ub (qc := qc) (tbl := tbl)]
  cases gentr46map rows qc tbl <;> simp

/-- C99.  If no line has more than twenty code points, and all mappings need at most 16384 bytes,
then there is no undefined behaviour, whatever else is wrong. -/
theorem C99_safe {rows : List MapRow} {qc : List QcRow} {tbl : List IdnaRow}
    (h1 : ∀ r ∈ rows, r.mapping.length ≤ 20) (h2 : mapBytes rows ≤ 16384) :
    gentr46map rows qc tbl ≠ .ub := by
  rw [Ne, C99_ub]
  rintro ⟨a, r, b, rfl, _, _, _, p, c, s, hm, _, _, h⟩
  have h3 := h1 r (by simp)
  unfold mapBytes at h2 h
  rw [hm] at h3
  simp only [List.flatMap_append, List.flatMap_cons, List.map_append, List.map_cons,
    List.sum_append, List.sum_cons, hm] at h2
  simp only [List.length_append, List.length_cons] at h3
  omega

/-- C99.  The same from the bytes of the files on. -/
theorem C99_text {rows : List MapRow} {qc : List QcRow} {tm tq : List Nat}
    (hm : MapFile rows tm) (hq : QcFile qc tq) (hr : ∀ r ∈ rows, r.hasMapping)
    (tbl : List IdnaRow) :
    ((∃ T, gentr46map_text tm tq tbl = .ok T) ↔ Accepted rows qc) ∧
    (gentr46map_text tm tq tbl = .ub ↔ Overrun rows) := by
  rw [gentr46map_text_eq hm hr hq]
  exact ⟨C99_accepts, C99_ub⟩

/-- C99.  A line of the mapping file with 21 code points overruns the array `tmp`. -/
theorem C99_violated_21 : gentr46map_text (str "0041 ; mapped ; 61 61 61 61 61 61 61 61 61 61 " ++
    str "61 61 61 61 61 61 61 61 61 61 61\n") [] [] = .ub := by
  have h : scanFile read_IdnaMappings_line ⟨[], []⟩ (str "0041 ; mapped ; 61 61 61 61 61 61 61 61 " ++
      str "61 61 61 61 61 61 61 61 61 61 61 61 61\n") = .ub := by decide +kernel
  unfold gentr46map_text
  rw [show str "0041 ; mapped ; 61 61 61 61 61 61 61 61 61 61 " ++
    str "61 61 61 61 61 61 61 61 61 61 61\n" = str "0041 ; mapped ; 61 61 61 61 61 61 61 61 " ++
      str "61 61 61 61 61 61 61 61 61 61 61 61 61\n" by decide, h]
  rfl

/-- C99.  If tables are made, then they answer every query as the files say, provided that the
files satisfy what the generators do not check. -/
theorem C99_right {csv : List CsvRow} {rows : List MapRow} {qc : List QcRow} {T : Tables}
    (h : gentr46map rows qc (gendata csv) = .ok T) (hu : Unchecked csv rows qc) :
    Implements T (dataOf csv rows qc) := by
  obtain ⟨T', h1, h2, _⟩ := gen_right (C99_accepts.mp ⟨T, h⟩) hu
  rw [h] at h1
  injection h1 with h1
  subst h1
  exact h2

/-- The files in the repository satisfy both. -/
theorem C99_shipped : Accepted Shipped.map Shipped.qc ∧
    Unchecked Shipped.csv Shipped.map Shipped.qc :=
  ⟨Shipped.files_ok.accepted, Shipped.files_ok.unchecked⟩

/-! ### What is not checked matters -/

/-- The library asks for the status `s` of `c` in the tables. -/
def statusIs (T : Tables) (c : Nat) (s : Status) : Option Bool :=
  match get_idna_map T c with
  | .ok m => match map_is T m s.bit with
    | .ok b => some b
    | _ => none
  | _ => none

theorem Implements.statusIs {T : Tables} {D : Data} (h : Implements T D) {c : Nat}
    (hc : c ≤ 0x10FFFF) (s : Status) : statusIs T c s = some (D.status c == s) := by
  obtain ⟨m, h1, h2, _⟩ := h.map c hc
  unfold Idn2.statusIs
  rw [h1]
  simp only [h2 s]

/-- C99.  A mapping file that ends early is accepted, and the library takes each code point
behind its end for one with the status of the first line: here U+0062 is "valid". -/
theorem C99_gap : ∃ T, gentr46map [⟨0, 0x61, .valid, []⟩] [] (gendata []) = .ok T ∧
    statusIs T 0x62 .valid = some true ∧ statusIs T 0x62 .disallowed = some false :=
  ⟨_, rfl, by decide +kernel, by decide +kernel⟩

/-- C99.  A file whose line spans two tables is accepted, and the second part of the line is lost:
the library takes U+0110, which the file calls disallowed, for valid. -/
theorem C99_span : ∃ T, gentr46map [⟨0, 0x61, .valid, []⟩, ⟨0x62, 0x10FFFF, .disallowed, []⟩] []
      (gendata []) = .ok T ∧
    statusIs T 0x110 .valid = some true ∧ statusIs T 0x110 .disallowed = some false :=
  ⟨_, rfl, by decide +kernel, by decide +kernel⟩

/-- C99.  A file with two lines of NFC_QC for the same code point is accepted, and the library
does not find the code point U+0345 in the first line. -/
theorem C99_twice : ∃ T, gentr46map [] [⟨0x300, 0x350, 1⟩, ⟨0x310, 0x320, 2⟩, ⟨0x340, 0x340, 2⟩]
      (gendata []) = .ok T ∧ get_nfcqc_map T 0x345 = .ok none :=
  ⟨_, rfl, by decide +kernel⟩

/-- C99.  A property file that is not in order is accepted, and the library does not find the
line of U+0061. -/
theorem C99_disorder : ∃ T, gentr46map [] [] (gendata [⟨0x62, 0x62, .pvalid⟩,
      ⟨0x61, 0x61, .pvalid⟩, ⟨0x60, 0x60, .pvalid⟩]) = .ok T ∧
    property T 0x60 = .ok .unassigned :=
  ⟨_, rfl, by decide +kernel⟩

/-- So without `Unchecked` the tables need not agree with the files. -/
theorem C99_unchecked_needed : ∃ csv rows qc T, Accepted rows qc ∧
    gentr46map rows qc (gendata csv) = .ok T ∧ ¬ Implements T (dataOf csv rows qc) := by
  obtain ⟨T, h1, h2, _⟩ := C99_gap
  refine ⟨_, _, _, T, C99_accepts.mp ⟨T, h1⟩, h1, fun h => ?_⟩
  have h3 := h.statusIs (c := 0x62) (by omega) .valid
  rw [h2] at h3
  exact absurd h3 (by decide)

/-! ### Cases -/

/-- Three lines, two entries; a mapping of 1 + 2 + 3 bytes. -/
example : Accepted [⟨0x20, 0x2F, .valid, []⟩, ⟨0x30, 0x3F, .valid, []⟩,
    ⟨0x40, 0x40, .mapped, [0x61, 0xE4, 0x1F600]⟩] [⟨0x300, 0x304, 2⟩] :=
  ⟨⟨by decide, by decide, by decide, by decide, by decide⟩, by decide, by decide⟩

example : entryCount [⟨0x20, 0x2F, .valid, []⟩, ⟨0x30, 0x3F, .valid, []⟩,
    ⟨0x40, 0x40, .mapped, [0x61]⟩, ⟨0x41, 0x41, .mapped, [0x61]⟩] = 3 := by decide

/-- Adjacent lines that overlap in one code point are refused. -/
example : gentr46map [⟨0x20, 0x2F, .valid, []⟩, ⟨0x2F, 0x3F, .disallowed, []⟩] [] [] =
    .complaint := by
  rw [C99_refused]
  refine ⟨fun h => absurd h.order (by decide), ?_⟩
  rw [← C99_ub (qc := []) (tbl := [])]
  exact C99_safe (by decide) (by decide)

/-- The twenty-first code point. -/
example : Overrun [⟨0x40, 0x40, .mapped, List.replicate 21 0x61⟩] :=
  ⟨[], _, [], rfl, ⟨by simp, by simp, by simp, by decide, by decide⟩, by decide, by simp,
    List.replicate 20 0x61, 0x61, [], by decide, by decide, by decide, Or.inl (by decide)⟩

/-- 20 code points are accepted, 21 are not. -/
example : Accepted [⟨0x40, 0x40, .mapped, List.replicate 20 0x61⟩] [] ∧
    ¬ Accepted [⟨0x40, 0x40, .mapped, List.replicate 21 0x61⟩] [] :=
  ⟨⟨⟨by decide, by decide, by decide, by decide, by decide⟩, by decide, by decide⟩,
    fun h => absurd h.length (by decide)⟩

/-- The texts of Verif/Props/GenTextTiny.lean. -/
example : Accepted Tiny.map Tiny.qc :=
  (C99_text Tiny.mapFile Tiny.qcFile Tiny.hasMapping (gendata Tiny.csv)).1.mp (by
    obtain ⟨T, h, _⟩ := gen_implements Tiny.filesOk
    exact ⟨T, by rw [gentr46map_text_eq Tiny.mapFile Tiny.hasMapping Tiny.qcFile, h]⟩)

end Idn2
