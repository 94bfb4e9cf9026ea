import Verif.Model.Gen

/-
Which data files the generator of the UTS #46 tables accepts, and what it leaves to the files.
-/

namespace Idn2.Spec

/-- Bytes that a code point takes in the mapping data: seven bits in each. -/
def cpBytes (c : Nat) : Nat :=
  if c < 2 ^ 7 then 1 else if c < 2 ^ 14 then 2 else if c < 2 ^ 21 then 3
  else if c < 2 ^ 28 then 4 else 5

/-- The line `s` only extends the line `r` before it: no gap, no mappings, the same status. -/
def Continues (r s : MapRow) : Prop :=
  r.last + 1 = s.first ∧ r.mapping = [] ∧ s.mapping = [] ∧ r.status = s.status

instance (r s : MapRow) : Decidable (Continues r s) := by unfold Continues; infer_instance

/-- Number of entries that the lines are merged to. -/
def entryCount : List MapRow → Nat
  | [] => 0
  | [_] => 1
  | r :: s :: t => (if Continues r s then 0 else 1) + entryCount (s :: t)

/-- Bytes of the mapping data of the lines. -/
def mapBytes (rows : List MapRow) : Nat := ((rows.flatMap (·.mapping)).map cpBytes).sum

/-- The lines of the mapping file are within the limits of the generator, and what it checks is
right. -/
structure MapAccepted (rows : List MapRow) : Prop where
  range : ∀ r ∈ rows, r.first ≤ r.last
  order : rows.Pairwise fun r s => r.last < s.first
  length : ∀ r ∈ rows, r.mapping.length ≤ 20
  bytes : mapBytes rows ≤ 16384
  count : entryCount rows < 10000

/-- The same for both files. -/
structure Accepted (rows : List MapRow) (qc : List QcRow) : Prop extends MapAccepted rows where
  qcRange : ∀ r ∈ qc, r.first ≤ r.last
  qcCount : qc.length < 140

/-- Storing the code points `m` of one line behind `used` bytes of mapping data, the generator
writes behind the end of one of its arrays, which are for 20 code points and 16384 bytes: it stops
only if the latter is found full. -/
def Overruns (used : Nat) (m : List Nat) : Prop :=
  ∃ p c s, m = p ++ c :: s ∧ p.length ≤ 20 ∧ used + (p.map cpBytes).sum < 16384 ∧
    (p.length = 20 ∨ 16384 < used + (p.map cpBytes).sum + cpBytes c)

/-- A line `r` in order behind acceptable lines `a` makes the generator write out of bounds. -/
def Overrun (rows : List MapRow) : Prop :=
  ∃ a r b, rows = a ++ r :: b ∧ MapAccepted a ∧ r.first ≤ r.last ∧ (∀ s ∈ a, s.last < r.first) ∧
    Overruns (mapBytes a) r.mapping

/-- An interval that spans two of the three tables: up to 0xFF, up to 0xFFFF, and the rest. -/
def Spans (a b : Nat) : Prop := (a ≤ 0xFF ∧ 0xFF < b) ∨ (a ≤ 0xFFFF ∧ 0xFFFF < b)

/-- What the generators do not check: the properties are in order, the mappings are given for all
code points and for no others, no line, and no line with the line that it extends, spans two
tables, mappings are numbers of 32 bits, and no code point has two lines of NFC_QC. -/
structure Unchecked (csv : List CsvRow) (rows : List MapRow) (qc : List QcRow) : Prop where
  csvRange : ∀ r ∈ csv, r.first ≤ r.last
  csvOrder : csv.Pairwise fun r s => r.last < s.first
  total : ∀ c, c ≤ 0x10FFFF ↔ ∃ r ∈ rows, r.first ≤ c ∧ c ≤ r.last
  spans : ∀ r ∈ rows, ¬ Spans r.first r.last
  merged : ∀ r ∈ rows, ∀ s ∈ rows, Continues r s → ¬ Spans r.first s.last
  words : ∀ r ∈ rows, ∀ c ∈ r.mapping, c < 2 ^ 32
  qcOnce : qc.Pairwise fun r s => r.last < s.first ∨ s.last < r.first

end Idn2.Spec
