import Verif.Model.Cli

/-
The option parser of the command line tool, src/idn2_cmd.c, which gengetopt generates from
src/idn2.ggo with the options given in src/Makefile.am:42-45.  Neither the generated file nor
`getopt_long` is in the repository: what they do is written here from memory and is trusted.
Left out are the messages of the parser and the allocations for copies of the strings.
-/

namespace Idn2

/-- The options; idn2.ggo:16-25, and --help and --version, which gengetopt adds. -/
inductive CmdOpt where
  | help | version | decode | lookup | register | tr46t | tr46nt | noTr46 | std3 | noRoundtrip
  | debug | quiet
  deriving DecidableEq, Repr

/-- The bytes of a name in src/idn2.ggo. -/
def chars (s : String) : List Nat := s.toList.map Char.toNat

/-- `struct option`, of which all `has_arg` and `flag` are 0 here: the name and `val`, which is the
letter or 0; idn2.ggo:16-25. -/
structure LongOption where
  name : List Nat
  val : Nat
  deriving DecidableEq, Repr

/-- `long_options` of the generated parser; idn2.ggo:16-25. -/
def longOptions : List LongOption :=
  [⟨chars "help", 0x68⟩, ⟨chars "version", 0x56⟩, ⟨chars "decode", 0x64⟩, ⟨chars "lookup", 0x6C⟩,
   ⟨chars "register", 0x72⟩, ⟨chars "tr46t", 0x54⟩, ⟨chars "tr46nt", 0x4E⟩, ⟨chars "no-tr46", 0⟩,
   ⟨chars "usestd3asciirules", 0⟩, ⟨chars "no-alabelroundtrip", 0⟩, ⟨chars "debug", 0⟩,
   ⟨chars "quiet", 0⟩]

/-- "hVdlrTN", the letters; idn2.ggo:16-20. -/
def shortOptions : List Nat := [0x68, 0x56, 0x64, 0x6C, 0x72, 0x54, 0x4E]

/-- The search for an abbreviation in `getopt_long`; `none` if it is ambiguous.  Options with the
same `val` are not told apart. (Called by the parser of idn2.ggo:16-25) -/
def abbrevOption (n : List Nat) : Option LongOption → List LongOption → Option (Option LongOption)
  | found, [] => some found
  | found, p :: r =>
    if n.isPrefixOf p.name then
      match found with
      | none => abbrevOption n (some p) r
      | some q => if q.val ≠ p.val then none else abbrevOption n found r
    else abbrevOption n found r

/-- A long option without its two hyphens in `getopt_long`; `none` if it is unknown or ambiguous, or
has an argument. (Called by the parser of idn2.ggo:16-25) -/
def longOption (w : List Nat) : Option LongOption :=
  let n := w.takeWhile (· != 0x3D)
  let found := match longOptions.find? (fun p => p.name == n) with
    | some p => some p
    | none => (abbrevOption n none longOptions).join
  if n.length ≠ w.length then none else found

/-- The `switch` of the generated parser over what `getopt_long` returns: a letter, or 0 for an
option that has none; idn2.ggo:16-25. -/
def cmdOpt (p : LongOption) : Option CmdOpt :=
  if p.val = 0x68 then some .help
  else if p.val = 0x56 then some .version
  else if p.val = 0x64 then some .decode
  else if p.val = 0x6C then some .lookup
  else if p.val = 0x72 then some .register
  else if p.val = 0x54 then some .tr46t
  else if p.val = 0x4E then some .tr46nt
  else if p.val ≠ 0 then none
  else if p.name = chars "no-tr46" then some .noTr46
  else if p.name = chars "usestd3asciirules" then some .std3
  else if p.name = chars "no-alabelroundtrip" then some .noRoundtrip
  else if p.name = chars "debug" then some .debug
  else if p.name = chars "quiet" then some .quiet
  else none

/-- What becomes of an argument: the parser goes on, returns at once, or fails.  (No counterpart of
its own; the loop of the parser of idn2.ggo:16-25) -/
inductive CmdStep where
  | more (given : List CmdOpt)
  | halt (given : List CmdOpt)
  | fail
  deriving DecidableEq, Repr

/-- `update_arg` of the generated parser: an option may be given once.  With --help and --version it
returns, as src/Makefile.am:43 asks for. -/
def giveOpt (o : CmdOpt) (given : List CmdOpt) : CmdStep :=
  if o ∈ given then .fail
  else if o = .help ∨ o = .version then .halt (given ++ [o])
  else .more (given ++ [o])

/-- The letters of an argument with one hyphen; idn2.ggo:16-20. -/
def shortLoop : List Nat → List CmdOpt → CmdStep
  | [], given => .more given
  | c :: r, given =>
    if shortOptions.contains c then
      match cmdOpt ⟨[], c⟩ with
      | none => .fail
      | some o =>
        match giveOpt o given with
        | .more given => shortLoop r given
        | x => x
    else .fail

/-- `args_info` after the parser; idn2.ggo:16-25. -/
def argsInfo (given : List CmdOpt) (inputs : List (List Nat)) : Opts where
  version := given.contains .version
  help := given.contains .help
  decode := given.contains .decode
  register := given.contains .register
  tr46t := given.contains .tr46t
  tr46nt := given.contains .tr46nt
  noTr46 := given.contains .noTr46
  std3 := given.contains .std3
  noRoundtrip := given.contains .noRoundtrip
  debug := given.contains .debug
  quiet := given.contains .quiet
  inputs := inputs

/-- An argument that begins with a hyphen and is not "-" or "--"; idn2.ggo:16-25. -/
def cmdWord (w : List Nat) (given : List CmdOpt) : CmdStep :=
  match w with
  | 0x2D :: 0x2D :: n =>
    match (longOption n).bind cmdOpt with
    | none => .fail
    | some o => giveOpt o given
  | _ => shortLoop (w.drop 1) given

/-- The loop of the parser over the arguments behind `argv[0]`.  Strings that are no options are kept
for the end, unless POSIXLY_CORRECT is set (`posix`); idn2.ggo:16-25 and Makefile.am:43. -/
def cmdLoop (posix : Bool) : List (List Nat) → List CmdOpt → List (List Nat) → Option Opts
  | [], given, inputs => some (argsInfo given inputs)
  | w :: r, given, inputs =>
    if w = [0x2D, 0x2D] then some (argsInfo given (inputs ++ r))
    else if w.head? = some 0x2D ∧ w.length > 1 then
      match cmdWord w given with
      | .more given => cmdLoop posix r given inputs
      | .halt given => some (argsInfo given [])
      | .fail => none
    else if posix then some (argsInfo given (inputs ++ w :: r))
    else cmdLoop posix r given (inputs ++ [w])

/-- `cmdline_parser`, called at src/idn2.c:199. -/
def cmdline_parser (posix : Bool) (args : List (List Nat)) : Option Opts := cmdLoop posix args [] []

/-- `main`; src/idn2.c:188-257.  `args` are the strings behind `argv[0]`. -/
def idn2Main {m : Type → Type} [CMem m] (E : Env) (posix : Bool) (args : List (List Nat))
    (S : Surround) : m Exit :=
  match cmdline_parser posix args with
  | none => pure ⟨⟨[], []⟩, 1⟩
  | some o => cliMain E o S

end Idn2
