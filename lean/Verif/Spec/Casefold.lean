import Verif.Basic

/-
The property NFKC_Casefold of lib/DerivedNormalizationProps.txt, read off the text of the file.  A
line of text is a number here, as in Verif/Data/QcText.lean: its first byte is the least significant
one.  A line of the property is like

    00AF          ; NFKC_CF; 0020 0304      # Sk       MACRON
    E01F0..E0FFF  ; NFKC_CF;                # Cn [3600] <reserved-E01F0>..<reserved-E0FFF>

The property of a code point without a line is the code point itself.  "toNFKC_Casefold(X): Map each
character C in X to NFKC_Casefold(C), and then normalize the resulting string to NFC" (the Unicode
Standard, section 3.13, R5).
-/

namespace Idn2.Spec

/-- The value of an upper-case hexadecimal digit; 16 for any other byte. -/
def hexValue (b : Nat) : Nat :=
  if Nat.ble 0x30 b && Nat.ble b 0x39 then b - 0x30
  else if Nat.ble 0x41 b && Nat.ble b 0x46 then b - 0x37
  else 16

/-- The number at the start of the line, of at most `fuel` digits, and the rest of the line. -/
def hexRun : Nat → Nat → Nat → Nat × Nat
  | 0, acc, line => (acc, line)
  | fuel + 1, acc, line =>
    let d := hexValue (line % 256)
    if Nat.beq d 16 then (acc, line) else hexRun fuel (16 * acc + d) (line / 256)

/-- At most `fuel` numbers with a space behind each. -/
def hexList : Nat → Nat → List Nat
  | 0, _ => []
  | fuel + 1, line =>
    if Nat.beq (hexValue (line % 256)) 16 then []
    else
      let x := hexRun 8 0 line
      x.1 :: hexList fuel (x.2 / 256)

/-- The line is of the property NFKC_CF: "; NFKC_CF; " stands behind the first 14 bytes. -/
def foldLine (line : Nat) : Bool :=
  Nat.beq (line / 256 ^ 14 % 256 ^ 11) 0x203B46435F434B464E203B

/-- A line of the property: the code points from `first` to `last` are replaced with `to`. -/
structure FoldRow where
  first : Nat
  last : Nat
  to : List Nat
  deriving DecidableEq, Repr

/-- What the line says.  No code point is replaced with more than 20. -/
def foldRow (line : Nat) : FoldRow :=
  let x := hexRun 8 0 line
  { first := x.1
    last := if Nat.beq (x.2 % 65536) 0x2E2E then (hexRun 8 0 (x.2 / 65536)).1 else x.1
    to := hexList 20 (line / 256 ^ 25) }

/-- The lines of the property. -/
def foldRows (lines : List Nat) : List FoldRow := (lines.filter foldLine).map foldRow

/-- NFKC_Casefold of a code point by these lines. -/
def casefold (rows : List FoldRow) (c : Nat) : List Nat :=
  match rows.find? (fun r => decide (r.first ≤ c ∧ c ≤ r.last)) with
  | some r => r.to
  | none => [c]

/-- The two lines above are read; a line with one space less is not. -/
example : foldRows [0x23202020202020343033302030323030203B46435F434B464E203B2020202020202020202046413030,
    0x6E432023202020202020202020202020202020203B46435F434B464E203B202046464630452E2E3046313045,
    0x23202020202020343033302030323030203B46435F434B464E203B20202020202020202046413030] =
    [⟨0xAF, 0xAF, [0x20, 0x304]⟩, ⟨0xE01F0, 0xE0FFF, []⟩] := by
  decide +kernel

end Idn2.Spec
