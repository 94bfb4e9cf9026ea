/-
The value of a C constant expression of literals, parentheses and the operators `&`, `^`, `|`,
`&&`, `||` and `?:` (C11 6.5.10-6.5.15), as a list of tokens.  A token `num n` stands for any operand of the value `n` that binds more tightly
(a literal, a name, a sum, a comparison, ...).
-/

namespace Idn2.Spec.CExpr

inductive Tok where
  | num (n : Nat) | bar | amp | caret | land | lor | quest | colon | lp | rp
  deriving DecidableEq, Repr

/-- Depth of parentheses behind a token. -/
def nest (d : Nat) : Tok → Nat
  | .lp => d + 1
  | .rp => d - 1
  | _ => d

/-- Depth of parentheses behind the tokens. -/
def depth (d : Nat) (f : List Tok) : Nat := f.foldl nest d

/-- Put a token in front of the first part. -/
def consHead (t : Tok) : List (List Tok) → List (List Tok)
  | [] => [[t]]
  | x :: xs => (t :: x) :: xs

/-- The parts between the operators `sep` outside parentheses; `d` is the depth at the start. -/
def splitTop (sep : Tok) : Nat → List Tok → List (List Tok)
  | _, [] => [[]]
  | d, t :: r =>
    if d = 0 ∧ t = sep then [] :: splitTop sep 0 r
    else consHead t (splitTop sep (nest d t) r)

/-- What is before and behind the first `?` outside parentheses. -/
def splitQuest : Nat → List Tok → Option (List Tok × List Tok)
  | _, [] => none
  | d, t :: r =>
    if d = 0 ∧ t = .quest then some ([], r)
    else (splitQuest (nest d t) r).map fun p => (t :: p.1, p.2)

/-- What is before and behind the `:` that belongs to a `?` before the tokens; `q` further `?` are
open. -/
def splitColon : Nat → Nat → List Tok → Option (List Tok × List Tok)
  | _, _, [] => none
  | d, q, t :: r =>
    if d = 0 ∧ t = .colon ∧ q = 0 then some ([], r)
    else
      let q := if d = 0 ∧ t = .colon then q - 1 else if d = 0 ∧ t = .quest then q + 1 else q
      (splitColon (nest d t) q r).map fun p => (t :: p.1, p.2)

/-- An operand or an expression in parentheses. -/
def prim (ev : List Tok → Option Nat) : List Tok → Option Nat
  | [.num n] => some n
  | .lp :: r => if r.getLast? = some .rp then ev r.dropLast else none
  | _ => none

/-- Values joined by an operator, from the left. -/
def fold1 (op : Nat → Nat → Nat) : List Nat → Option Nat
  | [] => none
  | x :: xs => some (xs.foldl op x)

/-- Operands `sub` joined by the operator `sep`. -/
def level (sep : Tok) (op : Nat → Nat → Nat) (sub : List Tok → Option Nat) (f : List Tok) :
    Option Nat :=
  ((splitTop sep 0 f).mapM sub).bind (fold1 op)

/-- `inclusive-OR-expression` -/
def bitOr (ev : List Tok → Option Nat) : List Tok → Option Nat :=
  level .bar (· ||| ·) (level .caret (· ^^^ ·) (level .amp (· &&& ·) (prim ev)))

/-- `logical-AND-expression` -/
def logAnd (ev : List Tok → Option Nat) : List Tok → Option Nat :=
  level .land (fun a b => if a ≠ 0 ∧ b ≠ 0 then 1 else 0) (bitOr ev)

/-- `logical-OR-expression` -/
def logOr (ev : List Tok → Option Nat) : List Tok → Option Nat :=
  level .lor (fun a b => if a ≠ 0 ∨ b ≠ 0 then 1 else 0) (logAnd ev)

/-- `conditional-expression`, up to a nesting of `k`. -/
def eval : Nat → List Tok → Option Nat
  | 0, _ => none
  | k + 1, f =>
    match splitQuest 0 f with
    | none => logOr (eval k) f
    | some (c, r) =>
      match splitColon 0 0 r with
      | none => none
      | some (a, b) =>
        (logOr (eval k) c).bind fun c => (eval k a).bind fun a => (eval k b).map fun b =>
          if c ≠ 0 then a else b

/-- The expression `f` has the value `v`. -/
def Val (f : List Tok) (v : Nat) : Prop := ∃ k, eval k f = some v

/-- The operators `?:`, `&&` and `||` occur in parentheses only. -/
def Tight (f : List Tok) : Prop :=
  splitQuest 0 f = none ∧ splitTop .lor 0 f = [f] ∧ splitTop .land 0 f = [f]

instance (f : List Tok) : Decidable (Tight f) := by unfold Tight; infer_instance

end Idn2.Spec.CExpr
