import Verif.Model.CmdLine
import Verif.Spec.Text

/-
How a command line of the tool is to be read, after the text of --help, src/idn2.c:74-99, and the
conventions of POSIX and GNU for options.
-/

namespace Idn2.Spec

/-- The long name of an option; src/idn2.c:84-99. -/
def optName : CmdOpt → List Nat
  | .help => str "help"
  | .version => str "version"
  | .decode => str "decode"
  | .lookup => str "lookup"
  | .register => str "register"
  | .tr46t => str "tr46t"
  | .tr46nt => str "tr46nt"
  | .noTr46 => str "no-tr46"
  | .std3 => str "usestd3asciirules"
  | .noRoundtrip => str "no-alabelroundtrip"
  | .debug => str "debug"
  | .quiet => str "quiet"

/-- Its letter; src/idn2.c:84-95. -/
def optLetter : CmdOpt → Option Nat
  | .help => some 'h'.toNat
  | .version => some 'V'.toNat
  | .decode => some 'd'.toNat
  | .lookup => some 'l'.toNat
  | .register => some 'r'.toNat
  | .tr46t => some 'T'.toNat
  | .tr46nt => some 'N'.toNat
  | _ => none

/-- `n` is the name of the option, or an abbreviation of its name and of no other. -/
def Names (n : List Nat) (o : CmdOpt) : Prop :=
  n = optName o ∨ (n ≠ [] ∧ n <+: optName o ∧ ∀ o', n <+: optName o' → o' = o)

/-- "no-" and what it begins with: these stand for two options, but are taken for "no-tr46". -/
def Loose (n : List Nat) (o : CmdOpt) : Prop :=
  (n = str "n" ∨ n = str "no" ∨ n = str "no-") ∧ o = .noTr46

/-- An argument that gives options: two hyphens and a name, or a hyphen and letters.  `N` tells which
names stand for which option. -/
inductive Gives (N : List Nat → CmdOpt → Prop) : List Nat → List CmdOpt → Prop
  | long {n : List Nat} {o : CmdOpt} : N n o → Gives N (str "--" ++ n) [o]
  | short {c : Nat} {r : List Nat} {os : List CmdOpt} : Each (fun c o => optLetter o = some c) (c :: r) os →
      Gives N (str "-" ++ c :: r) os

/-- An argument that is a string to be converted: it does not begin with a hyphen, or is one. -/
def Operand (w : List Nat) : Prop := ¬ str "-" <+: w ∨ w = str "-"

/-- The options and the strings of a command line.  Behind "--" there are strings only; so behind the
first string in `posix` mode. -/
inductive Reads (N : List Nat → CmdOpt → Prop) (posix : Bool) :
    List (List Nat) → List CmdOpt → List (List Nat) → Prop
  | nil : Reads N posix [] [] []
  | stop {r : List (List Nat)} : Reads N posix (str "--" :: r) [] r
  | opts {w : List Nat} {r : List (List Nat)} {os os' : List CmdOpt} {ss : List (List Nat)} :
      Gives N w os → Reads N posix r os' ss → Reads N posix (w :: r) (os ++ os') ss
  | operand {w : List Nat} {r : List (List Nat)} {os : List CmdOpt} {ss : List (List Nat)} :
      Operand w → posix = false → Reads N posix r os ss → Reads N posix (w :: r) os (w :: ss)
  | first {w : List Nat} {r : List (List Nat)} : Operand w → posix = true →
      Reads N posix (w :: r) [] (w :: r)

/-- One of --help and --version. -/
def Final (o : CmdOpt) : Prop := o = .help ∨ o = .version

/-- An argument that gives --help or --version, and the options up to that.  What is behind it does not
matter. -/
inductive EndsAt (N : List Nat → CmdOpt → Prop) : List Nat → List CmdOpt → Prop
  | long {n : List Nat} {o : CmdOpt} : N n o → Final o → EndsAt N (str "--" ++ n) [o]
  | short {a b : List Nat} {c : Nat} {os : List CmdOpt} {o : CmdOpt} :
      Each (fun c o => optLetter o = some c) a os → (∀ o ∈ os, ¬ Final o) → optLetter o = some c →
      Final o → EndsAt N (str "-" ++ a ++ c :: b) (os ++ [o])

/-- The options of a command line up to --help or --version. -/
inductive Halts (N : List Nat → CmdOpt → Prop) (posix : Bool) : List (List Nat) → List CmdOpt → Prop
  | here {w : List Nat} {r : List (List Nat)} {os : List CmdOpt} : EndsAt N w os →
      Halts N posix (w :: r) os
  | opts {w : List Nat} {r : List (List Nat)} {os os' : List CmdOpt} :
      Gives N w os → (∀ o ∈ os, ¬ Final o) → Halts N posix r os' → Halts N posix (w :: r) (os ++ os')
  | operand {w : List Nat} {r : List (List Nat)} {os : List CmdOpt} :
      Operand w → posix = false → Halts N posix r os → Halts N posix (w :: r) os

/-- The options of a run are those given and its strings are `ss`. -/
structure Selects (o : Opts) (os : List CmdOpt) (ss : List (List Nat)) : Prop where
  version : o.version = true ↔ .version ∈ os
  help : o.help = true ↔ .help ∈ os
  decode : o.decode = true ↔ .decode ∈ os
  register : o.register = true ↔ .register ∈ os
  tr46t : o.tr46t = true ↔ .tr46t ∈ os
  tr46nt : o.tr46nt = true ↔ .tr46nt ∈ os
  noTr46 : o.noTr46 = true ↔ .noTr46 ∈ os
  std3 : o.std3 = true ↔ .std3 ∈ os
  noRoundtrip : o.noRoundtrip = true ↔ .noRoundtrip ∈ os
  debug : o.debug = true ↔ .debug ∈ os
  quiet : o.quiet = true ↔ .quiet ∈ os
  inputs : o.inputs = ss

end Idn2.Spec
