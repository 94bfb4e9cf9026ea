import Verif.Spec.Text

/-
How to read the texts that say which functions a library has.
-/

namespace Idn2.Spec.Exports

/-- Characters of the names in a linker script or a C source. -/
def isWordChar (c : Nat) : Bool :=
  (Nat.ble 0x30 c && Nat.ble c 0x39) || (Nat.ble 0x41 c && Nat.ble c 0x5A) ||
    (Nat.ble 0x61 c && Nat.ble c 0x7A) || Nat.beq c 0x5F || Nat.beq c 0x2E

/-- Equality of words. -/
def same : List Nat → List Nat → Bool
  | [], [] => true
  | a :: r, b :: t => Nat.beq a b && same r t
  | _, _ => false

/-- The words of a line, and its other characters but white space, each alone.  `w` is the word before. -/
def tokensAfter (w : List Nat) : List Nat → List (List Nat)
  | [] => if w.isEmpty then [] else [w]
  | c :: r =>
    if isWordChar c then tokensAfter (w ++ [c]) r
    else (if w.isEmpty then [] else [w]) ++
      (if Nat.beq c 0x20 || Nat.beq c 9 then [] else [[c]]) ++ tokensAfter [] r

def tokens (line : List Nat) : List (List Nat) := tokensAfter [] line

/-- The characters and words that the definitions below look for. -/
example : [str ":", str "}", str ";", str "(", str "global", str "extern", str "__typeof__"] =
    [[0x3A], [0x7D], [0x3B], [0x28], [0x67, 0x6C, 0x6F, 0x62, 0x61, 0x6C],
      [0x65, 0x78, 0x74, 0x65, 0x72, 0x6E],
      [0x5F, 0x5F, 0x74, 0x79, 0x70, 0x65, 0x6F, 0x66, 0x5F, 0x5F]] := by decide +kernel

/-- The names a linker version script exports: those with a semicolon in a part that `global:` begins, up
to `local:` or the brace.  Comments begin with `#`. -/
def exportedFrom (g : Bool) : List (List Nat) → List (List Nat)
  | a :: b :: r =>
    if same b [0x3A] then exportedFrom (same a [0x67, 0x6C, 0x6F, 0x62, 0x61, 0x6C]) r
    else if same a [0x7D] then exportedFrom false (b :: r)
    else if g && same b [0x3B] then a :: exportedFrom g r
    else exportedFrom g (b :: r)
  | _ => []

def exported (lines : List (List Nat)) : List (List Nat) :=
  exportedFrom false (lines.flatMap fun l => tokens (l.takeWhile fun c => !Nat.beq c 0x23))

/-- The functions a header declares: the words before the first parenthesis after `extern`. -/
def declaredFrom (e : Bool) : List (List Nat) → List (List Nat)
  | a :: b :: r =>
    if same a [0x65, 0x78, 0x74, 0x65, 0x72, 0x6E] then declaredFrom true (b :: r)
    else if e && same b [0x28] then a :: declaredFrom false r
    else declaredFrom e (b :: r)
  | _ => []

def declared (lines : List (List Nat)) : List (List Nat) := declaredFrom false (lines.flatMap tokens)

/-- The name that a line defines on which a definition begins: the first word; or the last one, if the
line begins with `__typeof__` (an alias). -/
def definedBy (line : List Nat) : Option (List Nat) :=
  match tokens line with
  | [] => none
  | a :: r => if same a [0x5F, 0x5F, 0x74, 0x79, 0x70, 0x65, 0x6F, 0x66, 0x5F, 0x5F] then r.getLast? else some a

def defined (lines : List (List Nat)) : List (List Nat) := lines.filterMap definedBy

example : exported [str "V1 { # one", str " global: a; # b;", str " c;", str " local: *; };",
    str "V2 { global: d; } V1;"] = [str "a", str "c", str "d"] := by decide +kernel

example : declared [str "  extern API int", str "\t f (int (*g) (int));", str "int h (void);"] =
    [str "f"] := by decide +kernel

end Idn2.Spec.Exports
