import Verif.Spec.Tables

/-
The table generators: lib/gendata.c and lib/gentr46map.c.

They read text files.  Here the model starts from the sequence of parsed lines and ends with
the initialisers printed; the scanning of the text is in Verif/Model/GenText.lean.  Any
failure behind the scanning of the lines is `none`.
-/

namespace Idn2

/-- Outcome of a generator: a result, a message, or undefined behaviour; gendata.c:44-53,
gentr46map.c:250-404.  A message goes with a failure exit; "Missing mapping" and "genmapdata too
small" are printed in the middle of the output, and there the model ends as well. -/
inductive GRes (α : Type) where
  | ok (a : α)
  | complaint
  | ub
  deriving DecidableEq, Repr

namespace GRes

def bind {α β : Type} : GRes α → (α → GRes β) → GRes β
  | ok a, f => f a
  | complaint, _ => complaint
  | ub, _ => ub

instance : Monad GRes where
  pure := ok
  bind := bind

@[simp] theorem pure_eq {α : Type} (a : α) : (pure a : GRes α) = ok a := rfl
@[simp] theorem bind_ok {α β : Type} (a : α) (f : α → GRes β) : (ok a >>= f) = f a := rfl
@[simp] theorem bind_complaint {α β : Type} (f : α → GRes β) :
    ((complaint : GRes α) >>= f) = complaint := rfl
@[simp] theorem bind_ub {α β : Type} (f : α → GRes β) : ((ub : GRes α) >>= f) = ub := rfl

/-- What the model of the part behind the scanning calls `none`; gentr46map.c:359-496. -/
def ofOption {α : Type} : Option α → GRes α
  | some a => ok a
  | none => complaint

end GRes

/-! ### gendata.c -/

/-- A line `first[-last],PROPERTY,...` of idna-tables-properties.csv; gendata.c:73-87. -/
structure CsvRow where
  first : Nat
  last : Nat
  prop : IdnaProp
  deriving DecidableEq, Repr

/-- `main`; gendata.c:57-94: all lines but the UNASSIGNED ones, in order. -/
def gendata (rows : List CsvRow) : List IdnaRow :=
  (rows.filter fun r => r.prop != .unassigned).map fun r => ⟨r.first, r.last, r.prop⟩

/-! ### gentr46map.c -/

/-- A line `first[..last] ; status ; mapping` of IdnaMappingTable.txt; gentr46map.c:233-346. -/
structure MapRow where
  first : Nat
  last : Nat
  status : Status
  mapping : List Nat
  deriving DecidableEq, Repr

/-- `IDNAMap_gen`; gentr46map.c:46-53. -/
structure MapGen where
  cp1 : Nat
  cp2 : Nat
  nmappings : Nat
  offset : Nat
  flag_index : Nat
  flags : Nat
  deriving DecidableEq, Repr

/-- What `_u32_to_stream` stores for one code point; gentr46map.c:165-213 (the length is
`_u32_stream_len`, 133-162). -/
def cpToStream (cp : Nat) : List Nat :=
  if cp ≤ 0x7F then [cp % 128]
  else if cp ≤ 0x3FFF then [128 + cp / 128 % 128, cp % 128]
  else if cp ≤ 0x1FFFFF then [128 + cp / 16384 % 128, 128 + cp / 128 % 128, cp % 128]
  else if cp ≤ 0xFFFFFFF then
    [128 + cp / 2097152 % 128, 128 + cp / 16384 % 128, 128 + cp / 128 % 128, cp % 128]
  else
    [128 + cp / 268435456 % 128, 128 + cp / 2097152 % 128, 128 + cp / 16384 % 128,
      128 + cp / 128 % 128, cp % 128]

/-- The loop over the mapping field; gentr46map.c:286-310.  `gd` is
`genmapdata[0..mapdata_pos)`, an array of 16384 bytes; `tmp` has 20 elements, and there is no
check against writing behind either of them but the one in front of the first byte.  (The self
test, 312-316, is not modelled: that it passes is a consequence of what is proved about
reading the stream back.) -/
def addMappings (map : MapGen) (gd : List Nat) : List Nat → GRes (MapGen × List Nat)
  | [] => .ok (map, gd)
  | cp :: r =>
    if gd.length ≥ 16384 then .complaint
    else
      let map := if map.nmappings = 0 then { map with offset := gd.length % 16384 } else map
      let s := cpToStream cp
      if map.nmappings ≥ 20 ∨ gd.length + s.length > 16384 then .ub
      else addMappings { map with nmappings := (map.nmappings + 1) % 32 } (gd ++ s) r

/-- State of the generator: `idna_map[0..map_pos)`, last entry first, and `genmapdata`;
gentr46map.c:55-59. -/
structure GenState where
  map : List MapGen
  gd : List Nat
  deriving DecidableEq, Repr

/-- "Mapping codepoints out of order"; gentr46map.c:260-264. -/
def outOfOrder (first : Nat) : List MapGen → Bool
  | [] => false
  | prev :: _ => decide (first ≤ prev.cp2)

/-- "merge with previous if possible"; gentr46map.c:326-338. -/
def mergePrev (map : MapGen) : List MapGen → Option (List MapGen)
  | [] => none
  | prev :: rest =>
    if map.nmappings = 0 ∧ prev.cp2 + 1 = map.cp1 ∧ prev.nmappings = 0 ∧ prev.flags = map.flags then
      some ({ prev with cp2 := map.cp2 } :: rest)
    else none

/-- `read_IdnaMappings`; gentr46map.c:234-346. -/
def read_IdnaMappings (st : GenState) (row : MapRow) : GRes GenState :=
  if row.first > row.last then .complaint
  else if outOfOrder row.first st.map then .complaint
  else
    match addMappings ⟨row.first, row.last, 0, 0, 0, row.status.bit⟩ st.gd row.mapping with
    | .complaint => .complaint
    | .ub => .ub
    | .ok (map, gd) =>
      match mergePrev map st.map with
      | some l => .ok ⟨l, gd⟩
      | none => if st.map.length + 1 ≥ 10000 then .complaint else .ok ⟨map :: st.map, gd⟩

/-- `_scan_file` with `read_IdnaMappings`; gentr46map.c:95-130. -/
def scanMappings : GenState → List MapRow → GRes GenState
  | st, [] => .ok st
  | st, row :: r =>
    match read_IdnaMappings st row with
    | .complaint => .complaint
    | .ub => .ub
    | .ok st => scanMappings st r

/-- C library `qsort`, as an insertion sort. (No two elements of the arrays sorted compare equal,
so the result does not depend on the algorithm.)  The calls are gentr46map.c:480,514,641. -/
def qsortInsert {α : Type} (cmp : α → α → Ordering) (x : α) : List α → List α
  | [] => [x]
  | y :: r => if cmp x y = .gt then y :: qsortInsert cmp x r else x :: y :: r

def qsort {α : Type} (cmp : α → α → Ordering) : List α → List α
  | [] => []
  | x :: r => qsortInsert cmp x (qsort cmp r)

/-- `_compare_map`; gentr46map.c:349-356. -/
def compare_map (m1 m2 : MapGen) : Ordering :=
  if m1.cp1 < m2.cp1 then .lt else if m1.cp1 > m2.cp2 then .gt else .eq

/-- `_compare_map_by_maplen`; gentr46map.c:408-417. -/
def compare_map_by_maplen (m1 m2 : MapGen) : Ordering :=
  if m1.nmappings ≠ m2.nmappings then
    if m2.nmappings < m1.nmappings then .lt else .gt
  else compare_map m1 m2

/-- `_u8_memmem`; gentr46map.c:439-453: the offset of the first occurrence. -/
def u8_memmem (needle : List Nat) : List Nat → Option Nat
  | [] => if needle = [] then some 0 else none
  | b :: r =>
    if needle.isPrefixOf (b :: r) then some 0
    else (u8_memmem needle r).map (· + 1)

/-- `_u32_cp_stream_len`; gentr46map.c:456-467; `none` if the array ends before. -/
def cpStreamLen : Nat → List Nat → Option Nat
  | 0, _ => some 0
  | _ + 1, [] => none
  | n + 1, b :: r =>
    if b < 128 then (cpStreamLen n r).map (· + 1) else (cpStreamLen (n + 1) r).map (· + 1)

/-- The loop of `_compact_idna_map`; gentr46map.c:489-507.  `gd` is `genmapdata`, `data` the
new array built so far, of `mapdata_pos` bytes. -/
def compactLoop (gd : List Nat) : List MapGen → List Nat → Option (List MapGen × List Nat)
  | [], data => some ([], data)
  | map :: r, data =>
    if map.nmappings = 0 then
      (compactLoop gd r data).map fun (l, d) => (map :: l, d)
    else
      match cpStreamLen map.nmappings (gd.drop map.offset) with
      | none => none
      | some slen =>
        let needle := (gd.drop map.offset).take slen
        match u8_memmem needle data with
        | some p =>
          (compactLoop gd r data).map fun (l, d) => ({ map with offset := p % 16384 } :: l, d)
        | none =>
          if data.length + slen > gd.length then none
          else (compactLoop gd r (data ++ needle)).map fun (l, d) =>
            ({ map with offset := data.length % 16384 } :: l, d)

/-- `_combine_idna_flags`; gentr46map.c:519-561 (the check at the end always holds).
`comb` is `flag_combination[0..flag_combinations)`, an array of 8. -/
def combineFlags : List MapGen → List Nat → Option (List MapGen × List Nat)
  | [], comb => some ([], comb)
  | map :: r, comb =>
    match comb.idxOf? map.flags with
    | some i => (combineFlags r comb).map fun (l, c) => ({ map with flag_index := i % 8 } :: l, c)
    | none =>
      if comb.length ≥ 8 then none
      else (combineFlags r (comb ++ [map.flags])).map fun (l, c) =>
        ({ map with flag_index := comb.length % 8 } :: l, c)

/-- The parts into which `_print_tr46_map` splits an entry: first code point and range;
gentr46map.c:581-596.  `k` is `n - it2`. -/
def splitEntry (cp2 : Nat) : Nat → Nat → List (Nat × Nat)
  | 0, cp1 => [(cp1, cp2 - cp1)]
  | k + 1, cp1 => (cp1, 0xFFFF) :: splitEntry cp2 k (cp1 + 0xFFFF + 1)

/-- One printed record; gentr46map.c:595-612. -/
def printRecord (max : Nat) (map : MapGen) (p : Nat × Nat) : List Nat :=
  let cp1 := p.1
  let range := p.2
  let value := (map.nmappings * 16384 + map.offset) * 8 + map.flag_index
  (if max = 0xFF then [cp1 % 256, range % 256]
    else if max = 0xFFFF then
      [cp1 / 256 % 256, cp1 % 256, range / 256 % 256, range % 256]
    else [cp1 / 65536 % 256, cp1 / 256 % 256, cp1 % 256, range / 256 % 256, range % 256])
  ++ [value / 65536 % 256, value / 256 % 256, value % 256]

/-- `_print_tr46_map`; gentr46map.c:564-623: the bytes printed. -/
def print_tr46_map (min max : Nat) : List MapGen → List Nat
  | [] => []
  | map :: r =>
    if map.cp1 < min then print_tr46_map min max r
    else if map.cp1 > max then []
    else (splitEntry map.cp2 ((map.cp2 - map.cp1) / 0x10000) map.cp1).flatMap (printRecord max map)
      ++ print_tr46_map min max r

/-- A line `first[..last] ; NFC_QC ; N|M` of DerivedNormalizationProps.txt with the value
stored in `check` (1 or 2); `read_NFCQC`, gentr46map.c:359-405. -/
structure QcRow where
  first : Nat
  last : Nat
  check : Nat
  deriving DecidableEq, Repr

/-- `_compare_map` applied to the NFC_QC entries; gentr46map.c:641-642. -/
def compare_qc (m1 m2 : QcRow) : Ordering :=
  if m1.first < m2.first then .lt else if m1.first > m2.last then .gt else .eq

/-- `main` behind the reading of the files; gentr46map.c:634-686: the initialisers printed. -/
def gentr46finish (st : GenState) (qc : List QcRow) (idna_table : List IdnaRow) : Option Tables :=
  match compactLoop st.gd (qsort compare_map_by_maplen st.map.reverse) [] with
  | none => none
  | some (l, data) =>
    match combineFlags (qsort compare_map l) [] with
    | none => none
    | some (l, comb) =>
      if qc.any (fun r => decide (r.first > r.last)) ∨ qc.length ≥ 140 then none
      else some {
        idna_table := idna_table
        idna_flags := comb
        idna_map_8 := print_tr46_map 0x0 0xFF l
        idna_map_16 := print_tr46_map 0x100 0xFFFF l
        idna_map_24 := print_tr46_map 0x10000 0xFFFFFF l
        mapdata := data
        nfcqc_map := (qsort compare_qc qc).map fun r => (r.first, r.last, r.check) }

/-- `main`; gentr46map.c:626-686. -/
def gentr46map (rows : List MapRow) (qc : List QcRow) (idna_table : List IdnaRow) : GRes Tables :=
  match scanMappings ⟨[], []⟩ rows with
  | .complaint => .complaint
  | .ub => .ub
  | .ok st => GRes.ofOption (gentr46finish st qc idna_table)

/-! ### What the data files say -/

/-- The data defined by the lines of the files. (What the files say; gentr46map.c:626-686 and
gendata.c:57-94 turn them into the tables) -/
def dataOf (csv : List CsvRow) (rows : List MapRow) (qc : List QcRow) : Data where
  prop c := match csv.find? (fun r => decide (r.first ≤ c ∧ c ≤ r.last)) with
    | some r => r.prop
    | none => .unassigned
  status c := match rows.find? (fun r => decide (r.first ≤ c ∧ c ≤ r.last)) with
    | some r => r.status
    | none => .disallowed
  mapping c := match rows.find? (fun r => decide (r.first ≤ c ∧ c ≤ r.last)) with
    | some r => r.mapping
    | none => []
  qc c := (qc.find? (fun r => decide (r.first ≤ c ∧ c ≤ r.last))).map (·.check)

end Idn2
