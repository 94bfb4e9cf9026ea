import Verif.Model.Gen

/-
The table generators, down to the bytes of the text files they read: the line reading and
scanning parts of lib/gendata.c and lib/gentr46map.c.

A text is the list of its bytes.  `char` is taken to be signed, so that `isspace` of a byte
from 0x80 on is undefined (gentr46map.c calls it with a `char`); so is dereferencing the null
pointer that `_nextField` returns when there is no field.  Of `sscanf`, a number with a sign
or with the prefix "0x", and one that does not fit 32 bits, are counted as undefined.
-/

namespace Idn2

/-! ### The C library -/

/-- `fgets (buf, k + 1, fp)`: what is stored and what is left in the file; the calls are
gendata.c:40 and gentr46map.c:108; the function is that of the C library. -/
def fgets : Nat → List Nat → List Nat × List Nat
  | 0, r => ([], r)
  | _ + 1, [] => ([], [])
  | k + 1, b :: r => if b = 10 then ([10], r) else (b :: (fgets k r).1, (fgets k r).2)

theorem fgets_length (k : Nat) (b : Nat) (r : List Nat) :
    (fgets (k + 1) (b :: r)).2.length < (b :: r).length := by
  have aux : ∀ (k : Nat) (s : List Nat), (fgets k s).2.length ≤ s.length := by
    intro k
    induction k with
    | zero => intro s; exact Nat.le_refl _
    | succ k ih =>
      intro s
      cases s with
      | nil => exact Nat.le_refl _
      | cons b r =>
        simp only [fgets]
        split
        · simp
        · have := ih r; simp only [List.length_cons]; omega
  simp only [fgets]
  split
  · simp
  · have := aux k r; simp only [List.length_cons]; omega

/-- The pieces which successive calls of `fgets` with a buffer of 1024 bytes deliver;
gendata.c:36-41, gentr46map.c:108. -/
def fgetsAll (text : List Nat) : List (List Nat) :=
  match text with
  | [] => []
  | b :: r => (fgets 1023 (b :: r)).1 :: fgetsAll (fgets 1023 (b :: r)).2
termination_by text.length
decreasing_by exact fgets_length 1022 b r

/-- The C string at the beginning of an array; gentr46map.c:108-112. -/
def lineStr (buf : List Nat) : List Nat := buf.takeWhile (· != 0)

/-- White space of the C locale; `isspace` in gentr46map.c:86-88,117. -/
def spaceByte (b : Nat) : Bool := b == 32 || (Nat.ble 9 b && Nat.ble b 13)

/-- `while (isspace (*s)) s++`; gentr46map.c:86,117. -/
def skipSpace : List Nat → GRes (List Nat)
  | [] => .ok []
  | b :: r =>
    if b ≥ 128 then .ub else if spaceByte b then skipSpace r else .ok (b :: r)

/-- Value of a hexadecimal digit; `sscanf` in gentr46map.c:244,291,372. -/
def hexVal (b : Nat) : Option Nat :=
  if 48 ≤ b ∧ b ≤ 57 then some (b - 48)
  else if 65 ≤ b ∧ b ≤ 70 then some (b - 55)
  else if 97 ≤ b ∧ b ≤ 102 then some (b - 87)
  else none

/-- The digits of a number: its value and the rest; `sscanf` in gentr46map.c:244,291,372. -/
def scanDigits : List Nat → Nat → Nat × List Nat
  | [], v => (v, [])
  | b :: r, v =>
    match hexVal b with
    | some d => scanDigits r (16 * v + d)
    | none => (v, b :: r)

/-- The conversion `%X` of `sscanf`: the number and the rest, or nothing;
gentr46map.c:244,291,372. -/
def scanX (s : List Nat) : GRes (Option (Nat × List Nat)) :=
  match s.dropWhile spaceByte with
  | [] => .ok none
  | b :: r =>
    if b = 43 ∨ b = 45 then .ub
    else if b = 48 ∧ (r.head? = some 0x78 ∨ r.head? = some 0x58) then .ub
    else
      match hexVal b with
      | none => .ok none
      | some _ =>
        if (scanDigits (b :: r) 0).1 ≥ 4294967296 then .ub
        else .ok (some (scanDigits (b :: r) 0))

/-! ### gentr46map.c -/

/-- `strpbrk (s, ";#")` and the cut made there: the bytes before, and what `*line` is
afterwards; gentr46map.c:75-83.  (Behind a `#` it is the string cut off at the `#`.) -/
def cutField : List Nat → List Nat × List Nat
  | [] => ([], [])
  | b :: r =>
    if b = 0x3B then ([], r)
    else if b = 0x23 then ([], [])
    else (b :: (cutField r).1, (cutField r).2)

/-- `_nextField`; gentr46map.c:67-92: the field, trimmed, and the new `*line`. -/
def nextField (line : List Nat) : GRes (Option (List Nat) × List Nat) :=
  match line with
  | [] => .ok (none, [])
  | b :: r => do
    let s ← skipSpace (cutField (b :: r)).1
    let t ← skipSpace s.reverse
    pure (some t.reverse, (cutField (b :: r)).2)

/-- "strip off \r\n"; gentr46map.c:113-115: `buf[buflen]`, which the loop looks at, is the
terminating zero at first. -/
def stripEol (buf : List Nat) : Nat → List Nat
  | 0 => buf
  | n + 1 =>
    if (buf ++ [0])[n + 1]? = some 10 ∨ (buf ++ [0])[n + 1]? = some 13 then
      stripEol (buf.take n) n
    else buf

/-- The body of the loop of `_scan_file`; gentr46map.c:109-125. -/
def scanLine {σ : Type} (scan : σ → List Nat → GRes σ) (st : σ) (buf : List Nat) : GRes σ := do
  let linep ← skipSpace (stripEol (lineStr buf) (lineStr buf).length)
  match linep with
  | [] => pure st
  | b :: r => if b = 0x23 then pure st else scan st (b :: r)

/-- The loop over the lines; gentr46map.c:108-127. -/
def scanLines {σ : Type} (scan : σ → List Nat → GRes σ) : σ → List (List Nat) → GRes σ
  | st, [] => .ok st
  | st, l :: r => do
    let st ← scanLine scan st l
    scanLines scan st r

/-- `_scan_file`; gentr46map.c:94-130.  (The scanning functions do not touch the file, so the
lines may be thought of as read beforehand.) -/
def scanFile {σ : Type} (scan : σ → List Nat → GRes σ) (st : σ) (text : List Nat) : GRes σ :=
  scanLines scan st (fgetsAll text)

/-- `sscanf (codepoint, "%X..%X", &cp1, &cp2)` with `cp2 = cp1` when there is one number only;
gentr46map.c:244-252, 372-380. -/
def scanRange (s : List Nat) : GRes (Option (Nat × Nat)) := do
  match ← scanX s with
  | none => pure none
  | some (a, r) =>
    match r with
    | 0x2E :: 0x2E :: r' =>
      match ← scanX r' with
      | none => pure (some (a, a))
      | some (b, _) => pure (some (a, b))
    | _ => pure (some (a, a))

/-- The numbers read by `while (sscanf (mapping, " %X%n", &cp, &pos) == 1)`;
gentr46map.c:286-310.  The first argument bounds the number of turns; every turn consumes a
byte. -/
def scanNumbers : Nat → List Nat → GRes (List Nat)
  | 0, _ => .ub
  | k + 1, s => do
    match ← scanX s with
    | none => pure []
    | some (cp, r) =>
      let l ← scanNumbers k r
      pure (cp :: l)

/-- The chain of `strcmp`; gentr46map.c:266-284. -/
def statusOf (flag : List Nat) : Option Status :=
  if flag = [0x76, 0x61, 0x6C, 0x69, 0x64] then some .valid
  else if flag = [0x6D, 0x61, 0x70, 0x70, 0x65, 0x64] then some .mapped
  else if flag = [0x64, 0x69, 0x73, 0x61, 0x6C, 0x6C, 0x6F, 0x77, 0x65, 0x64] then some .disallowed
  else if flag = [0x69, 0x67, 0x6E, 0x6F, 0x72, 0x65, 0x64] then some .ignored
  else if flag = [0x64, 0x65, 0x76, 0x69, 0x61, 0x74, 0x69, 0x6F, 0x6E] then some .deviation
  else if flag = [0x64, 0x69, 0x73, 0x61, 0x6C, 0x6C, 0x6F, 0x77, 0x65, 0x64, 0x5F, 0x53, 0x54,
      0x44, 0x33, 0x5F, 0x6D, 0x61, 0x70, 0x70, 0x65, 0x64] then some .std3Mapped
  else if flag = [0x64, 0x69, 0x73, 0x61, 0x6C, 0x6C, 0x6F, 0x77, 0x65, 0x64, 0x5F, 0x53, 0x54,
      0x44, 0x33, 0x5F, 0x76, 0x61, 0x6C, 0x69, 0x64] then some .std3Valid
  else none

/-- `mapping && *mapping`, and the message "Missing mapping" otherwise;
gentr46map.c:286, 318-325. -/
def scanMapping (first : Nat) (status : Status) (mapping : Option (List Nat)) : GRes (List Nat) :=
  match mapping with
  | some (b :: r) => scanNumbers ((b :: r).length + 1) (b :: r)
  | _ =>
    if (status = .mapped ∨ status = .std3Mapped ∨ status = .deviation) ∧
        first ≠ 0x200C ∧ first ≠ 0x200D then .complaint
    else .ok []

/-- `read_IdnaMappings`; gentr46map.c:233-346. -/
def read_IdnaMappings_line (st : GenState) (linep : List Nat) : GRes GenState := do
  let (codepoint, l1) ← nextField linep
  let (flag, l2) ← nextField l1
  let (mapping, _) ← nextField l2
  match codepoint with
  | none => .ub
  | some codepoint =>
    match ← scanRange codepoint with
    | none => .complaint
    | some (cp1, cp2) =>
      if cp1 > cp2 then .complaint
      else if outOfOrder cp1 st.map then .complaint
      else
        match flag with
        | none => .ub
        | some flag =>
          match statusOf flag with
          | none => .complaint
          | some status => do
            let ms ← scanMapping cp1 status mapping
            read_IdnaMappings st ⟨cp1, cp2, status, ms⟩

/-- `read_NFCQC`; gentr46map.c:358-405: `nfcqc_map[0..nfcqc_pos)`, last entry first. -/
def read_NFCQC (st : List QcRow) (linep : List Nat) : GRes (List QcRow) := do
  let (codepoint, l1) ← nextField linep
  let (type, l2) ← nextField l1
  let (check, _) ← nextField l2
  if type ≠ some [0x4E, 0x46, 0x43, 0x5F, 0x51, 0x43] then pure st
  else
    match codepoint with
    | none => .ub
    | some codepoint =>
      match ← scanRange codepoint with
      | none => .complaint
      | some (cp1, cp2) =>
        if cp1 > cp2 then .complaint
        else
          match check with
          | none => .ub
          | some check =>
            if check.head? = some 0x4E then
              if st.length + 1 ≥ 140 then .complaint else pure (⟨cp1, cp2, 1⟩ :: st)
            else if check.head? = some 0x4D then
              if st.length + 1 ≥ 140 then .complaint else pure (⟨cp1, cp2, 2⟩ :: st)
            else .complaint

/-- `main`; gentr46map.c:625-687, from the text of the two files. -/
def gentr46map_text (mapText qcText : List Nat) (idna_table : List IdnaRow) : GRes Tables := do
  let st ← scanFile read_IdnaMappings_line ⟨[], []⟩ mapText
  let qc ← scanFile read_NFCQC [] qcText
  GRes.ofOption (gentr46finish st qc.reverse idna_table)

/-! ### gendata.c -/

/-- `strtok (s, delim)`: the token and what a following `strtok (NULL, …)` starts with; null if
there is none; the calls are gendata.c:75-83; the function is that of the C library. -/
def strtok (delim : Nat → Bool) (s : List Nat) : Option (List Nat × List Nat) :=
  match s.dropWhile delim with
  | [] => none
  | b :: r =>
    some ((b :: r).takeWhile (fun x => !delim x), ((b :: r).dropWhile (fun x => !delim x)).drop 1)

/-- The string `line` after `strtok (line, delim)`: cut off at the end of the token;
gendata.c:75,82. -/
def strtokLine (delim : Nat → Bool) (s : List Nat) : List Nat :=
  s.takeWhile delim ++ (s.dropWhile delim).takeWhile (fun x => !delim x)

/-- One turn of the loop of `main`; gendata.c:71-89: the three strings printed. -/
def gendataLine (line : List Nat) : GRes (Option (List Nat × List Nat × List Nat)) :=
  match strtok (· == 0x2C) line with
  | none => .complaint
  | some (_, rest) =>
    match strtok (· == 0x2C) rest with
    | none => .complaint
    | some (property, _) =>
      if property = [0x55, 0x4E, 0x41, 0x53, 0x53, 0x49, 0x47, 0x4E, 0x45, 0x44] then .ok none
      else
        let line1 := strtokLine (· == 0x2C) line
        let line2 := strtokLine (· == 0x2D) line1
        match strtok (· == 0x2D) line1 with
        | none => .ub
        | some (_, rest) =>
          match strtok (fun _ => false) rest with
          | none => .ok (some (line2, line2, property))
          | some (range_end, _) => .ok (some (line2, range_end, property))

/-- The loop of `main`; gendata.c:73-89. -/
def gendataLines : List (List Nat) → GRes (List (List Nat × List Nat × List Nat))
  | [] => .ok []
  | l :: r => do
    let x ← gendataLine (lineStr l)
    let xs ← gendataLines r
    pure (match x with | none => xs | some x => x :: xs)

/-- "Codepoint,Property,"; the first line of lib/idna-tables-properties.csv. -/
def csvHeader : List Nat :=
  [0x43, 0x6F, 0x64, 0x65, 0x70, 0x6F, 0x69, 0x6E, 0x74, 0x2C, 0x50, 0x72, 0x6F, 0x70, 0x65, 0x72,
   0x74, 0x79, 0x2C]

/-- `main`; gendata.c:56-94: the strings in the lines `{0x%s, 0x%s, %s},` printed. -/
def gendata_text (text : List Nat) : GRes (List (List Nat × List Nat × List Nat)) :=
  match fgetsAll text with
  | [] => .complaint
  | l :: r => if csvHeader.isPrefixOf (lineStr l) then gendataLines r else .complaint

/-- How the C compiler reads a printed line `{0x%s, 0x%s, %s},`: hexadecimal constants and a name
of the enumeration in data.h; nothing else is accepted; data.h:30-45, printed by gendata.c:87. -/
def readInit (x : List Nat × List Nat × List Nat) : Option IdnaRow :=
  match scanDigits x.1 0, scanDigits x.2.1 0, x.1, x.2.1 with
  | (a, []), (b, []), _ :: _, _ :: _ =>
    if x.2.2 = [0x50, 0x56, 0x41, 0x4C, 0x49, 0x44] then some ⟨u32 a, u32 b, .pvalid⟩
    else if x.2.2 = [0x43, 0x4F, 0x4E, 0x54, 0x45, 0x58, 0x54, 0x4A] then some ⟨u32 a, u32 b, .contextj⟩
    else if x.2.2 = [0x43, 0x4F, 0x4E, 0x54, 0x45, 0x58, 0x54, 0x4F] then some ⟨u32 a, u32 b, .contexto⟩
    else if x.2.2 = [0x44, 0x49, 0x53, 0x41, 0x4C, 0x4C, 0x4F, 0x57, 0x45, 0x44] then
      some ⟨u32 a, u32 b, .disallowed⟩
    else none
  | _, _, _, _ => none

end Idn2
