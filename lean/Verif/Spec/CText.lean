import Verif.Spec.Text
import Verif.Model.Tables

/-
How a C compiler reads a source text that consists of comments, preprocessor lines and
definitions of objects with initialisers: the text as a sequence of tokens, the tokens as a
sequence of objects, and the values of the arrays the library uses (data.h, tr46map.h).
Independent of how the generators print such texts.
-/

namespace Idn2.Spec.C

/-! ### Tokens -/

/-- A token: an identifier, keyword or number, or a punctuation character. -/
inductive Tok where
  | word (w : List Nat)
  | punct (c : Nat)
  deriving DecidableEq, Repr

/-- Where the reader is. -/
inductive Lex where
  | top
  | word (w : List Nat)
  | slash
  | comment
  | star
  | directive
  deriving DecidableEq, Repr

/-- Characters of identifiers and numbers. -/
def wordChar (c : Nat) : Bool :=
  (Nat.ble 48 c && Nat.ble c 57) || (Nat.ble 65 c && Nat.ble c 90) || (Nat.ble 97 c && Nat.ble c 122)
    || c == 0x5F

/-- One character outside of words, comments and preprocessor lines. -/
def lexTop (c : Nat) : Option (Lex × List Tok) :=
  if c = 32 ∨ c = 9 ∨ c = 10 ∨ c = 13 then some (.top, [])
  else if wordChar c then some (.word [c], [])
  else if c = 0x2F then some (.slash, [])
  else if c = 0x23 then some (.directive, [])
  else if c = 0x5B ∨ c = 0x5D ∨ c = 0x7B ∨ c = 0x7D ∨ c = 0x2C ∨ c = 0x3B ∨ c = 0x3D then
    some (.top, [.punct c])
  else none

/-- One character.  (A preprocessor line is an `#include`; it ends with the line.  Words end at the
first other character.) -/
def lexStep : Lex → Nat → Option (Lex × List Tok)
  | .top, c => lexTop c
  | .word w, c =>
    if wordChar c then some (.word (w ++ [c]), [])
    else (lexTop c).map fun x => (x.1, .word w :: x.2)
  | .slash, c => if c = 0x2A then some (.comment, []) else none
  | .comment, c => if c = 0x2A then some (.star, []) else some (.comment, [])
  | .star, c =>
    if c = 0x2F then some (.top, []) else if c = 0x2A then some (.star, []) else some (.comment, [])
  | .directive, c => if c = 10 then some (.top, []) else some (.directive, [])

/-- A sequence of characters. -/
def lexRun : Lex → List Nat → Option (Lex × List Tok)
  | s, [] => some (s, [])
  | s, c :: r =>
    match lexStep s c with
    | none => none
    | some (s', ts) =>
      match lexRun s' r with
      | none => none
      | some (s'', us) => some (s'', ts ++ us)

/-- The tokens of a source text; it ends with the end of a line. -/
def tokens (text : List Nat) : Option (List Tok) :=
  match lexRun .top text with
  | some (.top, ts) => some ts
  | _ => none

/-! ### Objects -/

/-- A definition `decl name[size] = {…};` or `decl name = …;`.  The elements of the initialiser
are lists of words; one without braces is a list of one word. -/
structure Obj where
  decl : List (List Nat)
  array : Option (Option (List Nat))
  elems : List (List (List Nat))
  deriving DecidableEq, Repr

/-- Where the reader of definitions is. -/
inductive Par where
  | decl (ws : List (List Nat))
  | bound (ws : List (List Nat))
  | bounded (ws : List (List Nat)) (n : Option (List Nat))
  | closed (ws : List (List Nat)) (n : Option (List Nat))
  | value (ws : List (List Nat))
  | init (ws : List (List Nat)) (n : Option (List Nat))
  | elems (ws : List (List Nat)) (n : Option (List Nat)) (es : List (List (List Nat)))
  | elem (ws : List (List Nat)) (n : Option (List Nat)) (es : List (List (List Nat)))
  | group (ws : List (List Nat)) (n : Option (List Nat)) (es : List (List (List Nat)))
      (g : List (List Nat))
  | member (ws : List (List Nat)) (n : Option (List Nat)) (es : List (List (List Nat)))
      (g : List (List Nat))
  | stop (o : Obj)
  deriving DecidableEq, Repr

/-- One token: the new place, and a definition that is complete. -/
def parStep : Par → Tok → Option (Par × List Obj)
  | .decl ws, .word w => some (.decl (ws ++ [w]), [])
  | .decl ws, .punct c =>
    if c = 0x5B then some (.bound ws, []) else if c = 0x3D then some (.value ws, []) else none
  | .bound ws, .word w => some (.bounded ws (some w), [])
  | .bound ws, .punct c => if c = 0x5D then some (.closed ws none, []) else none
  | .bounded ws n, .punct c => if c = 0x5D then some (.closed ws n, []) else none
  | .closed ws n, .punct c => if c = 0x3D then some (.init ws n, []) else none
  | .value ws, .word w => some (.stop ⟨ws, none, [[w]]⟩, [])
  | .init ws n, .punct c => if c = 0x7B then some (.elems ws n [], []) else none
  | .elems ws n es, .word w => some (.elem ws n (es ++ [[w]]), [])
  | .elems ws n es, .punct c =>
    if c = 0x7B then some (.group ws n es [], [])
    else if c = 0x7D then some (.stop ⟨ws, some n, es⟩, []) else none
  | .elem ws n es, .punct c =>
    if c = 0x2C then some (.elems ws n es, [])
    else if c = 0x7D then some (.stop ⟨ws, some n, es⟩, []) else none
  | .group ws n es g, .word w => some (.member ws n es (g ++ [w]), [])
  | .member ws n es g, .punct c =>
    if c = 0x2C then some (.group ws n es g, [])
    else if c = 0x7D then some (.elem ws n (es ++ [g]), []) else none
  | .stop o, .punct c => if c = 0x3B then some (.decl [], [o]) else none
  | _, _ => none

def parRun : Par → List Tok → Option (Par × List Obj)
  | s, [] => some (s, [])
  | s, t :: r =>
    match parStep s t with
    | none => none
    | some (s', os) =>
      match parRun s' r with
      | none => none
      | some (s'', os') => some (s'', os ++ os')

/-- The objects a source text defines. -/
def objects (text : List Nat) : Option (List Obj) :=
  match tokens text with
  | none => none
  | some ts =>
    match parRun (.decl []) ts with
    | some (.decl [], os) => some os
    | _ => none

/-! ### Values -/

/-- Value of a digit. -/
def digit (c : Nat) : Option Nat :=
  if 48 ≤ c ∧ c ≤ 57 then some (c - 48)
  else if 65 ≤ c ∧ c ≤ 70 then some (c - 55)
  else if 97 ≤ c ∧ c ≤ 102 then some (c - 87)
  else none

/-- Value of digits to the base `b`. -/
def digits (b : Nat) : Nat → List Nat → Option Nat
  | v, [] => some v
  | v, c :: r =>
    match digit c with
    | none => none
    | some d => if d < b then digits b (b * v + d) r else none

/-- Value of a number: hexadecimal with the prefix 0x, or decimal.  (An octal number does not
occur.) -/
def number : List Nat → Option Nat
  | [] => none
  | [c] => digits 10 0 [c]
  | c :: d :: r =>
    if c = 48 then if d = 0x78 ∧ r ≠ [] then digits 16 0 r else none else digits 10 0 (c :: d :: r)

/-- All of them, if all are there. -/
def collect {α β : Type} (f : α → Option β) : List α → Option (List β)
  | [] => some []
  | a :: r =>
    match f a, collect f r with
    | some b, some bs => some (b :: bs)
    | _, _ => none

/-- The number of elements of an array with this many initialisers: what is between the brackets,
if anything; more initialisers than elements are an error. -/
def bound (n : Option (List Nat)) (k : Nat) : Option Nat :=
  match n with
  | none => some k
  | some w =>
    match number w with
    | none => none
    | some m => if k ≤ m then some m else none

/-- The elements of an array, those without initialiser being `zero`. -/
def array {α : Type} (zero : α) (f : List (List Nat) → Option α) (o : Obj) : Option (List α) :=
  match o.array with
  | none => none
  | some n =>
    match collect f o.elems, bound n o.elems.length with
    | some l, some m => some (l ++ List.replicate (m - l.length) zero)
    | _, _ => none

/-- An element of type uint8_t. -/
def u8 : List (List Nat) → Option Nat
  | [w] => (number w).map (· % 256)
  | _ => none

/-- An element of type NFCQCMap (tr46map.h): two of uint32_t and a char. -/
def nfcqc : List (List Nat) → Option (Nat × Nat × Nat)
  | [a, b, c] =>
    match number a, number b, number c with
    | some a, some b, some c => if c < 128 then some (a % 2 ^ 32, b % 2 ^ 32, c) else none
    | _, _, _ => none
  | _ => none

/-- The enumeration in data.h. -/
def enumerator (w : List Nat) : Option IdnaProp :=
  if w = str "PVALID" then some .pvalid
  else if w = str "CONTEXTJ" then some .contextj
  else if w = str "CONTEXTO" then some .contexto
  else if w = str "DISALLOWED" then some .disallowed
  else if w = str "UNASSIGNED" then some .unassigned
  else none

/-- An element of type struct idna_table (data.h). -/
def idnaRow : List (List Nat) → Option IdnaRow
  | [a, b, c] =>
    match number a, number b, enumerator c with
    | some a, some b, some c => some ⟨a % 2 ^ 32, b % 2 ^ 32, c⟩
    | _, _, _ => none
  | _ => none

/-- The only object with this declaration. -/
def object (ws : List (List Nat)) (os : List Obj) : Option Obj :=
  match os.filter fun o => decide (o.decl = ws) with
  | [o] => some o
  | _ => none

def words (s : List String) : List (List Nat) := s.map str

/-- The table the library sees in data.c: the first `idna_table_size` elements of `idna_table`,
which must be there. -/
def dataC (text : List Nat) : Option (List IdnaRow) :=
  match objects text with
  | none => none
  | some os =>
    match object (words ["const", "struct", "idna_table", "idna_table"]) os,
      object (words ["const", "size_t", "idna_table_size"]) os with
    | some t, some n =>
      match array ⟨0, 0, .pvalid⟩ idnaRow t, n.array, n.elems with
      | some l, none, [[w]] =>
        match number w with
        | some m => if m ≤ l.length then some (l.take m) else none
        | none => none
      | _, _, _ => none
    | _, _ => none

/-- The bytes of an array `static const uint8_t name[]`. -/
def byteArray (name : String) (os : List Obj) : Option (List Nat) :=
  match object (words ["static", "const", "uint8_t", name]) os with
  | none => none
  | some o => array 0 u8 o

/-- The tables the library sees, given the texts of data.c and tr46map_data.c. -/
def compiled (data tr46 : List Nat) : Option Tables :=
  match dataC data, objects tr46 with
  | some tbl, some os =>
    match byteArray "idna_flags" os, byteArray "idna_map_8" os, byteArray "idna_map_16" os,
      byteArray "idna_map_24" os, byteArray "mapdata" os,
      (object (words ["static", "const", "NFCQCMap", "nfcqc_map"]) os).bind
        (array (0, 0, 0) nfcqc) with
    | some fl, some m8, some m16, some m24, some md, some qc =>
      some ⟨tbl, fl, m8, m16, m24, md, qc⟩
    | _, _, _, _, _, _ => none
  | _, _ => none

end Idn2.Spec.C
