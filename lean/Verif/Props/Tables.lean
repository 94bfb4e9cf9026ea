import Verif.Data.Check

/-
Properties C30 and C31: the compiled tables answer every query as the data files say.

`gendata` and `gentr46map` are the models of the two generators; `property`, `get_idna_map`,
`map_is`, `get_map_data`, `get_nfcqc_map` those of the library's search functions.
`FilesOk` (Verif/Proof/Gen.lean) lists what is required of the files: lines in order, the
mapping file covering the code space, and the fixed array sizes of the generator being large
enough.  `Shipped.files_ok` says that the files in the repository are such.
-/

namespace Idn2

/-- C30.  For every value, the search in the property table yields the property of the line
that covers it, and UNASSIGNED if there is none. -/
theorem C30_property_lookup {csv : List CsvRow} {T : Tables} (hT : T.idna_table = gendata csv)
    (hiv : ∀ r ∈ csv, r.first ≤ r.last) (hs : csv.Pairwise fun x y => x.last < y.first) (c : Nat) :
    (∀ r ∈ csv, r.first ≤ c → c ≤ r.last → property T c = .ok r.prop) ∧
    ((∀ r ∈ csv, ¬ (r.first ≤ c ∧ c ≤ r.last)) → property T c = .ok .unassigned) := by
  rw [property_gendata hT hiv hs [] [] c]
  constructor
  · intro r hr h1 h2
    have := find_unique (fun r : CsvRow => (r.first, r.last)) (hs.imp fun h => Or.inl h) hr ⟨h1, h2⟩
    simp only [] at this
    simp only [dataOf, this]
  · intro h
    have := find_none (fun r : CsvRow => (r.first, r.last)) (l := csv) (c := c) h
    simp only [] at this
    simp only [dataOf, this]

/-- C30 for the file in the repository. -/
theorem C30_shipped {T : Tables} (hT : T.idna_table = gendata Shipped.csv) (c : Nat) :
    (∀ r ∈ Shipped.csv, r.first ≤ c → c ≤ r.last → property T c = .ok r.prop) ∧
    ((∀ r ∈ Shipped.csv, ¬ (r.first ≤ c ∧ c ≤ r.last)) → property T c = .ok .unassigned) :=
  C30_property_lookup hT Shipped.files_ok.csvIv Shipped.files_ok.csvSorted c

/-- Non-vacuity: sharp s, the middle dot and an unassigned line are in the file. -/
example : (⟨0xDF, 0xF6, .pvalid⟩ : CsvRow) ∈ Shipped.csv ∧
    (⟨0xB7, 0xB7, .contexto⟩ : CsvRow) ∈ Shipped.csv ∧
    (⟨0x378, 0x379, .unassigned⟩ : CsvRow) ∈ Shipped.csv := by decide +kernel

/-- C31.  For well-formed files the generator succeeds, and for every code point the search in
its output finds exactly the status and the mapping of the line that covers it (and nothing
is read outside of the arrays); values beyond U+10FFFF are not found. -/
theorem C31_map_lookup {csv : List CsvRow} {rows : List MapRow} {qc : List QcRow}
    (h : FilesOk csv rows qc) :
    ∃ T, gentr46map rows qc (gendata csv) = .ok T ∧
      (∀ r ∈ rows, ∀ c, r.first ≤ c → c ≤ r.last → ∃ m, get_idna_map T c = .ok m ∧
        (∀ s : Status, map_is T m s.bit = .ok (decide (s = r.status))) ∧
        m.nmappings = r.mapping.length ∧ get_map_data T m = .ok r.mapping) ∧
      (∀ c, 0x10FFFF < c → get_idna_map T c = .ok ⟨0, 0, 0, 0, 0⟩ ∧
        ∀ s : Status, map_is T ⟨0, 0, 0, 0, 0⟩ s.bit ≠ .ub) := by
  obtain ⟨T, hT, hI, _, hbig, hfl⟩ := gen_implements h
  refine ⟨T, hT, ?_, ?_⟩
  · intro r hr c h1 h2
    have htop := h.mapTop r hr
    have hd : rows.Pairwise fun x y => x.last < y.first ∨ y.last < x.first := by
      refine (pairwise_of_adj (fun r : MapRow => (r.first, r.last)) rows
        (fun r hr => (h.map.row r hr).1.iv) ?_).imp (fun h => Or.inl h)
      intro a x y b he
      have := (h.map.adj a x y b he).1
      simp only
      omega
    have hf := find_unique (fun r : MapRow => (r.first, r.last)) hd hr ⟨h1, h2⟩
    simp only [] at hf
    obtain ⟨m, m1, m2, m3, m4⟩ := hI.map c (by omega)
    simp only [dataOf, hf] at m2 m3 m4
    refine ⟨m, m1, ?_, m3, m4⟩
    intro s
    rw [m2 s]
    congr 1
    cases r.status <;> cases s <;> decide
  · intro c hc
    refine ⟨hbig c hc, ?_⟩
    intro s
    unfold map_is
    cases hx : T.idna_flags with
    | nil => exact absurd hx hfl
    | cons f fs => simp

/-- C31 for the files in the repository. -/
theorem C31_shipped :
    ∃ T, gentr46map Shipped.map Shipped.qc (gendata Shipped.csv) = .ok T ∧
      (∀ r ∈ Shipped.map, ∀ c, r.first ≤ c → c ≤ r.last → ∃ m, get_idna_map T c = .ok m ∧
        (∀ s : Status, map_is T m s.bit = .ok (decide (s = r.status))) ∧
        m.nmappings = r.mapping.length ∧ get_map_data T m = .ok r.mapping) ∧
      (∀ c, 0x10FFFF < c → get_idna_map T c = .ok ⟨0, 0, 0, 0, 0⟩ ∧
        ∀ s : Status, map_is T ⟨0, 0, 0, 0, 0⟩ s.bit ≠ .ub) :=
  C31_map_lookup Shipped.files_ok

/-- The files of the repository meet the hypotheses; the line with the longest mapping. -/
example : FilesOk Shipped.csv Shipped.map Shipped.qc := Shipped.files_ok
example : (⟨0xFDFA, 0xFDFA, .std3Mapped, [0x635, 0x644, 0x649, 0x20, 0x627, 0x644, 0x644, 0x647,
    0x20, 0x639, 0x644, 0x64A, 0x647, 0x20, 0x648, 0x633, 0x644, 0x645]⟩ : MapRow) ∈ Shipped.map := by
  decide +kernel

/-- The NFC_QC table: the search yields the value of the line covering the code point, and
nothing if there is none. -/
theorem C31_nfcqc_lookup {qc : List QcRow} {T : Tables}
    (hT : T.nfcqc_map = (qsort compare_qc qc).map fun r => (r.first, r.last, r.check))
    (hiv : ∀ r ∈ qc, r.first ≤ r.last)
    (hd : qc.Pairwise fun x y => x.last < y.first ∨ y.last < x.first) (c : Nat) :
    (∀ r ∈ qc, r.first ≤ c → c ≤ r.last → get_nfcqc_map T c = .ok (some r.check)) ∧
    ((∀ r ∈ qc, ¬ (r.first ≤ c ∧ c ≤ r.last)) → get_nfcqc_map T c = .ok none) := by
  rw [nfcqc_gen hT hiv hd [] [] c]
  constructor
  · intro r hr h1 h2
    have := find_unique (fun r : QcRow => (r.first, r.last)) hd hr ⟨h1, h2⟩
    simp only [] at this
    simp only [dataOf, this, Option.map_some]
  · intro h
    have := find_none (fun r : QcRow => (r.first, r.last)) (l := qc) (c := c) h
    simp only [] at this
    simp only [dataOf, this, Option.map_none]

example : (∀ r ∈ Shipped.qc, r.first ≤ r.last) ∧
    (Shipped.qc.Pairwise fun x y => x.last < y.first ∨ y.last < x.first) ∧
    (⟨0x340, 0x341, 1⟩ : QcRow) ∈ Shipped.qc :=
  ⟨Shipped.files_ok.qcIv, Shipped.files_ok.qcDisj, by decide +kernel⟩

end Idn2
