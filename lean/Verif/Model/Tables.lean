import Verif.Basic

/-
The lookup tables and the functions that search them: lib/tables.c, lib/tr46map.c.

The tables themselves are parameters here (`Tables`); how they are produced from the
Unicode data files is modelled in `Verif.Model.Gen`.
-/

namespace Idn2

/-- `enum` of derived property values; lib/data.h:35-38. -/
inductive IdnaProp where
  | pvalid | contextj | contexto | disallowed | unassigned
  deriving DecidableEq, Repr

/-- `struct idna_table`; lib/data.h:40-45. -/
structure IdnaRow where
  start : Nat
  stop : Nat
  state : IdnaProp
  deriving DecidableEq, Repr

/-- The static tables linked into the library: `idna_table` (data.c) and the arrays of
tr46map_data.c; data.h:40-48, tr46map.h; the arrays are printed by gendata.c and gentr46map.c. -/
structure Tables where
  idna_table : List IdnaRow
  idna_flags : List Nat
  idna_map_8 : List Nat
  idna_map_16 : List Nat
  idna_map_24 : List Nat
  mapdata : List Nat
  /-- `{cp1, cp2, check}` -/
  nfcqc_map : List (Nat × Nat × Nat)

/-- C library `bsearch` (the glibc loop) on `[l, u)`; `cmp i` compares the key with element `i`
and may itself be undefined; the calls are tables.c:59, tr46map.c:111-123,156. -/
def bsearch (cmp : Nat → Res Ordering) (l u : Nat) : Res (Option Nat) :=
  if l < u then
    match cmp ((l + u) / 2) with
    | .ub => .ub
    | .err e => .err e
    | .ok .lt => bsearch cmp l ((l + u) / 2)
    | .ok .gt => bsearch cmp ((l + u) / 2 + 1) u
    | .ok .eq => .ok (some ((l + u) / 2))
  else .ok none
termination_by u - l
decreasing_by all_goals omega

/-- `_compare`; tables.c:37-45. -/
def compareRow (cp : Nat) (r : IdnaRow) : Ordering :=
  if cp < r.start then .lt else if cp > r.stop then .gt else .eq

/-- `_compare` with the key and element `i` of the table; tables.c:37-45. -/
def rowCmp (table : List IdnaRow) (cp i : Nat) : Res Ordering :=
  match table[i]? with
  | some r => .ok (compareRow cp r)
  | none => .ub

/-- `property`; tables.c:51-64. -/
def property (T : Tables) (cp : Nat) : Res IdnaProp :=
  match bsearch (rowCmp T.idna_table cp) 0 T.idna_table.length with
  | .ub => .ub
  | .err e => .err e
  | .ok none => .ok .unassigned
  | .ok (some i) =>
    match T.idna_table[i]? with
    | some r => .ok r.state
    | none => .ub

/-- `_idn2_disallowed_p`; tables.c:66-70. -/
def disallowed_p (T : Tables) (cp : Nat) : Res Bool := do
  let s ← property T cp
  return s == .disallowed

/-- `_idn2_contextj_p`; tables.c:72-76. -/
def contextj_p (T : Tables) (cp : Nat) : Res Bool := do
  let s ← property T cp
  return s == .contextj

/-- `_idn2_contexto_p`; tables.c:78-82. -/
def contexto_p (T : Tables) (cp : Nat) : Res Bool := do
  let s ← property T cp
  return s == .contexto

/-- `_idn2_unassigned_p`; tables.c:84-88. -/
def unassigned_p (T : Tables) (cp : Nat) : Res Bool := do
  let s ← property T cp
  return s == .unassigned

/-! ### TR46 map -/

/-- `IDNAMap`; tr46map.h:43-50. -/
structure IDNAMap where
  cp1 : Nat
  range : Nat
  nmappings : Nat
  offset : Nat
  flag_index : Nat
  deriving DecidableEq, Repr

/-- `_fill_map`; tr46map.c:40-70.  `p` is the array from the record on; reading past its
end is undefined. -/
def fill_map (c : Nat) (p : List Nat) : Res IDNAMap :=
  let fin (cp1 range b0 b1 b2 : Nat) : IDNAMap :=
    let value := b0 * 65536 + b1 * 256 + b2
    ⟨cp1, range, value / 131072 % 32, value / 8 % 16384, value % 8⟩
  if c ≤ 0xFF then
    match p with
    | a :: r :: b0 :: b1 :: b2 :: _ => .ok (fin a r b0 b1 b2)
    | _ => .ub
  else if c ≤ 0xFFFF then
    match p with
    | a0 :: a1 :: r0 :: r1 :: b0 :: b1 :: b2 :: _ =>
      .ok (fin (a0 * 256 + a1) (r0 * 256 + r1) b0 b1 b2)
    | _ => .ub
  else
    match p with
    | a0 :: a1 :: a2 :: r0 :: r1 :: b0 :: b1 :: b2 :: _ =>
      .ok (fin (a0 * 65536 + a1 * 256 + a2) (r0 * 256 + r1) b0 b1 b2)
    | _ => .ub

/-- `_compare_idna_map`; tr46map.c:72-84. -/
def compare_idna_map (c : Nat) (p : List Nat) : Res Ordering := do
  let map ← fill_map c p
  return if c < map.cp1 then .lt else if c > map.cp1 + map.range then .gt else .eq

/-- The `bsearch` call and what follows it, for a table of records of `size` bytes;
tr46map.c:110-134. -/
def search_idna_map (table : List Nat) (size c : Nat) : Res IDNAMap :=
  match bsearch (fun i => compare_idna_map c (table.drop (size * i))) 0 (table.length / size) with
  | .ub => .ub
  | .err e => .err e
  | .ok none => .ok ⟨0, 0, 0, 0, 0⟩
  | .ok (some i) => fill_map c (table.drop (size * i))

/-- `get_idna_map`; tr46map.c:104-135.  On a miss the map is zeroed (the return value -1
is ignored by all callers). -/
def get_idna_map (T : Tables) (c : Nat) : Res IDNAMap :=
  if c ≤ 0xFF then search_idna_map T.idna_map_8 5 c
  else if c ≤ 0xFFFF then search_idna_map T.idna_map_16 7 c
  else if c ≤ 0xFFFFFF then search_idna_map T.idna_map_24 8 c
  else .ok ⟨0, 0, 0, 0, 0⟩

/-- `map_is`; tr46map.c:137-141. -/
def map_is (T : Tables) (map : IDNAMap) (flags : Nat) : Res Bool :=
  match T.idna_flags[map.flag_index]? with
  | some f => .ok ((f &&& flags) == flags)
  | none => .ub

/-- Inner loop of `get_map_data`; tr46map.c:170-173: one variable-length number, with the
remaining stream. -/
def readCp : List Nat → Nat → Res (Nat × List Nat)
  | [], _ => .ub
  | b :: src, cp =>
    let cp := u32 (cp * 128 + b % 128)
    if b / 128 % 2 = 1 then readCp src cp else .ok (cp, src)

/-- Loop of `get_map_data`; tr46map.c:168-175. -/
def readCps : Nat → List Nat → Res (List Nat)
  | 0, _ => .ok []
  | n + 1, src => do
    let (cp, src) ← readCp src 0
    let r ← readCps n src
    return cp :: r

/-- `get_map_data`; tr46map.c:162-179; the code points stored at `dst`. -/
def get_map_data (T : Tables) (map : IDNAMap) : Res (List Nat) :=
  readCps map.nmappings (T.mapdata.drop map.offset)

/-- `_compare_nfcqc_map` with the key and element `i` of the table; tr46map.c:143-151. -/
def qcCmp (table : List (Nat × Nat × Nat)) (c i : Nat) : Res Ordering :=
  match table[i]? with
  | some (cp1, cp2, _) => .ok (if c < cp1 then .lt else if c > cp2 then .gt else .eq)
  | none => .ub

/-- `get_nfcqc_map`; tr46map.c:153-160; the field `check` of
the entry found. -/
def get_nfcqc_map (T : Tables) (c : Nat) : Res (Option Nat) :=
  match bsearch (qcCmp T.nfcqc_map c) 0 T.nfcqc_map.length with
  | .ub => .ub
  | .err e => .err e
  | .ok none => .ok none
  | .ok (some i) =>
    match T.nfcqc_map[i]? with
    | some (_, _, check) => .ok (some check)
    | none => .ub

end Idn2
