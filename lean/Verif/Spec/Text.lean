import Verif.Spec.Domain
import Verif.Model.Gen

/-
The text format of the Unicode data files: what it means for a text to say that the lines
of a file are these.  Independent of how the generators read it.
-/

namespace Idn2.Spec

/-- The bytes of an ASCII string. -/
def str (s : String) : List Nat := s.toList.map Char.toNat

/-- White space other than a line feed. -/
def Blank (w : List Nat) : Prop := ∀ b ∈ w, b = 32 ∨ b = 9 ∨ b = 11 ∨ b = 12 ∨ b = 13

/-- `b` is a way to write the hexadecimal digit `d`. -/
def HexDigit (b d : Nat) : Prop :=
  (d < 10 ∧ b = 48 + d) ∨ (10 ≤ d ∧ d < 16 ∧ (b = 55 + d ∨ b = 87 + d))

/-- `t` is a hexadecimal number with value `v`. -/
inductive Hex : List Nat → Nat → Prop
  | one {b d : Nat} : HexDigit b d → Hex [b] d
  | snoc {t : List Nat} {v b d : Nat} : Hex t v → HexDigit b d → Hex (t ++ [b]) (16 * v + d)

/-- `t` is a hexadecimal number of 32 bits with value `v`. -/
def Hex32 (t : List Nat) (v : Nat) : Prop := Hex t v ∧ v < 4294967296

/-- `t` is a code point or a range `first..last`. -/
inductive RangeText : List Nat → Nat → Nat → Prop
  | single {t : List Nat} {a : Nat} : Hex32 t a → RangeText t a a
  | range {t u : List Nat} {a b : Nat} : Hex32 t a → Hex32 u b →
      RangeText (t ++ str ".." ++ u) a b

/-- `t` is a sequence of numbers separated by white space. -/
inductive NumbersText : List Nat → List Nat → Prop
  | one {t : List Nat} {a : Nat} : Hex32 t a → NumbersText t [a]
  | cons {t w u : List Nat} {a : Nat} {l : List Nat} : Hex32 t a → Blank w → w ≠ [] →
      NumbersText u l → NumbersText (t ++ w ++ u) (a :: l)

/-- The end of a line: nothing or a comment, and possibly a line feed. -/
def LineEnd (t : List Nat) : Prop :=
  ∃ c e, t = c ++ e ∧ (c = [] ∨ ∃ r, c = str "#" ++ r ∧ 10 ∉ r ∧ 0 ∉ r) ∧ (e = [] ∨ e = [10])

/-- The end of a line that may have further fields. -/
def FieldsEnd (t : List Nat) : Prop :=
  LineEnd t ∨ ∃ r e, t = str ";" ++ r ++ e ∧ (∀ b ∈ r, b ≠ 10 ∧ b ≠ 0 ∧ b < 128) ∧ LineEnd e

/-- A line that says nothing. -/
def SkipLine (t : List Nat) : Prop := ∃ w e, t = w ++ e ∧ Blank w ∧ LineEnd e

/-- The name of a status in IdnaMappingTable.txt. -/
def statusName : Status → String
  | .valid => "valid"
  | .mapped => "mapped"
  | .ignored => "ignored"
  | .deviation => "deviation"
  | .disallowed => "disallowed"
  | .std3Mapped => "disallowed_STD3_mapped"
  | .std3Valid => "disallowed_STD3_valid"

/-- The third field of a line of IdnaMappingTable.txt. -/
inductive MappingText : List Nat → List Nat → Prop
  /-- there is none -/
  | absent {e : List Nat} : LineEnd e → MappingText e []
  /-- it is empty -/
  | empty {w e : List Nat} : Blank w → FieldsEnd e → MappingText (str ";" ++ w ++ e) []
  /-- it lists the code points -/
  | listed {w n w' e l : List Nat} : Blank w → NumbersText n l → Blank w' → FieldsEnd e →
      MappingText (str ";" ++ w ++ n ++ w' ++ e) l

/-- The line `t` of IdnaMappingTable.txt says `row`. -/
inductive MapLine (row : MapRow) : List Nat → Prop
  | intro {w0 r w1 w2 w3 m : List Nat} : Blank w0 → RangeText r row.first row.last → Blank w1 →
      Blank w2 → Blank w3 → MappingText m row.mapping →
      MapLine row (w0 ++ r ++ w1 ++ str ";" ++ w2 ++ str (statusName row.status) ++ w3 ++ m)

/-- The letter for the values of NFC_QC: No and Maybe. -/
def qcName (check : Nat) : List Nat := if check = 1 then str "N" else str "M"

/-- The line `t` of DerivedNormalizationProps.txt says `row`. -/
inductive QcLine (row : QcRow) : List Nat → Prop
  | intro {w0 r w1 w2 w3 w4 w5 e : List Nat} : Blank w0 → RangeText r row.first row.last →
      Blank w1 → Blank w2 → Blank w3 → Blank w4 → Blank w5 → FieldsEnd e →
      row.check = 1 ∨ row.check = 2 →
      QcLine row (w0 ++ r ++ w1 ++ str ";" ++ w2 ++ str "NFC_QC" ++ w3 ++ str ";" ++ w4 ++
        qcName row.check ++ w5 ++ e)

/-- A line of DerivedNormalizationProps.txt about another property. -/
inductive OtherLine : List Nat → Prop
  | intro {w0 r w1 w2 p w3 e : List Nat} {a b : Nat} : Blank w0 → RangeText r a b → Blank w1 →
      Blank w2 → Blank w3 → FieldsEnd e →
      (∀ x ∈ p, 33 ≤ x ∧ x < 127 ∧ x ≠ 0x3B ∧ x ≠ 0x23) → p ≠ str "NFC_QC" →
      OtherLine (w0 ++ r ++ w1 ++ str ";" ++ w2 ++ p ++ w3 ++ e)

/-- The name of a property in idna-tables-properties.csv. -/
def propName : IdnaProp → String
  | .pvalid => "PVALID"
  | .contextj => "CONTEXTJ"
  | .contexto => "CONTEXTO"
  | .disallowed => "DISALLOWED"
  | .unassigned => "UNASSIGNED"

/-- The line `t` of idna-tables-properties.csv says `row`: `first,PROP,…` or
`first-last,PROP,…`. -/
inductive CsvLine (row : CsvRow) : List Nat → Prop
  | single {h r : List Nat} : Hex32 h row.first → row.last = row.first → 0 ∉ r →
      CsvLine row (h ++ str "," ++ str (propName row.prop) ++ str "," ++ r)
  | range {h k r : List Nat} : Hex32 h row.first → Hex32 k row.last → 0 ∉ r →
      CsvLine row (h ++ str "-" ++ k ++ str "," ++ str (propName row.prop) ++ str "," ++ r)

/-- `text` consists of the lines `ls`: each but the last ends with its only line feed, the last
may do so, and none is longer than 1023 bytes. -/
def Lines (ls : List (List Nat)) (text : List Nat) : Prop :=
  text = ls.flatten ∧
  (∀ l ∈ ls.dropLast, ∃ b, l = b ++ [10] ∧ 10 ∉ b) ∧
  (∀ l ∈ ls.getLast?, l ≠ [] ∧ (10 ∉ l ∨ ∃ b, l = b ++ [10] ∧ 10 ∉ b)) ∧
  ∀ l ∈ ls, l.length ≤ 1023

/-- The lines `ls` are those that say `rows`, in that order, and others without content. -/
inductive Content {α : Type} (skip : List Nat → Prop) (says : α → List Nat → Prop) :
    List (List Nat) → List α → Prop
  | nil : Content skip says [] []
  | skip {l : List Nat} {ls : List (List Nat)} {rows : List α} : skip l →
      Content skip says ls rows → Content skip says (l :: ls) rows
  | row {l : List Nat} {ls : List (List Nat)} {r : α} {rows : List α} : says r l →
      Content skip says ls rows → Content skip says (l :: ls) (r :: rows)

/-- `text` is the text of IdnaMappingTable.txt with the lines `rows`. -/
def MapFile (rows : List MapRow) (text : List Nat) : Prop :=
  ∃ ls, Lines ls text ∧ Content SkipLine MapLine ls rows

/-- `text` is the text of DerivedNormalizationProps.txt with the NFC_QC lines `rows`. -/
def QcFile (rows : List QcRow) (text : List Nat) : Prop :=
  ∃ ls, Lines ls text ∧ Content (fun l => SkipLine l ∨ OtherLine l) QcLine ls rows

/-- `text` is the text of idna-tables-properties.csv with the lines `rows`. -/
def CsvFile (rows : List CsvRow) (text : List Nat) : Prop :=
  ∃ r ls, 0 ∉ r ∧ Lines ((str "Codepoint,Property," ++ r) :: ls) text ∧
    Content (fun _ => False) CsvLine ls rows

end Idn2.Spec

namespace Idn2

/-- A line that must have a mapping has one; of the deviation characters, the joiners are
mapped to nothing. -/
def MapRow.hasMapping (r : MapRow) : Prop :=
  r.mapping = [] → (r.status = .mapped ∨ r.status = .std3Mapped ∨ r.status = .deviation) →
    r.first = 0x200C ∨ r.first = 0x200D

end Idn2
