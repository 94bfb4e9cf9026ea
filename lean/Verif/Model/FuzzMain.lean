import Verif.Model.Fuzz
import Verif.Spec.Text

/-
The driver of the fuzz targets; fuzz/main.c.

The file system is a parameter and does not change during a run.  The standard streams are a list
of events; failures of writing are not modelled.  `LLVMFuzzerTestOneInput` is a parameter.
-/

namespace Idn2
open Spec (str)

/-- What happens to a path that is opened: `open` fails, `fstat` fails, or there is a size and,
unless `read` fails, the bytes from which `read` takes up to `size`; main.c:60-81. -/
inductive FileState where
  | noOpen
  | noStat
  | file (size : Nat) (bytes : Option (List Nat))
  deriving DecidableEq, Repr

/-- The file system: the names `readdir` gives, and the files; main.c:49-84. -/
structure Fs where
  dir : List Nat → Option (List (List Nat))
  file : List Nat → FileState

/-- Events of a run; main.c:53-81. -/
inductive FuzzEv where
  /-- "File name truncation"; main.c:55 -/
  | truncated (dirname name : List Nat)
  /-- "Failed to open"; main.c:61 -/
  | openFailed (fname : List Nat)
  /-- main.c:60 -/
  | opened (fname : List Nat)
  /-- "Failed to stat"; main.c:67 -/
  | statFailed
  /-- "testing .. bytes from .." and the call of the target; main.c:75-76 -/
  | test (data fname : List Nat)
  /-- "Failed to read"; main.c:78 -/
  | readFailed (fname : List Nat)
  /-- main.c:68, 81 -/
  | closed
  /-- `system (cmd)`; main.c:102 -/
  | command (cmd : List Nat)
  deriving DecidableEq, Repr

variable {m : Type → Type} [CMem m]

/-- The body of the loop from `open` on; main.c:59-81.  The targets copy from `data`, also if there
is nothing to copy, so that it must not be a null pointer. -/
def testFile (fs : Fs) (target : List Nat → m FuzzEnd) (fname : List Nat) :
    m (List FuzzEv × FuzzEnd) := do
  match fs.file fname with
  | .noOpen => pure ([.openFailed fname], .done)
  | .noStat => pure ([.opened fname, .statFailed, .closed], .done)
  | .file size bytes =>
    let data ← malloc
    match data, bytes with
    | none, bytes =>
      -- `read` into a null pointer fails unless there is nothing to read
      if size = 0 ∧ bytes.isSome then cub
      else pure ([.opened fname, .readFailed fname, .closed], .done)
    | some p, none => do
      cfree p
      pure ([.opened fname, .readFailed fname, .closed], .done)
    | some p, some bytes =>
      if (bytes.take size).length = size then do
        touch p
        match ← target (bytes.take size) with
        | .abort => pure ([.opened fname, .test (bytes.take size) fname], .abort)
        | .done => do
          cfree p
          pure ([.opened fname, .test (bytes.take size) fname, .closed], .done)
      else do
        cfree p
        pure ([.opened fname, .readFailed fname, .closed], .done)

/-- The loop over the entries of a directory; main.c:50-82. -/
def testNames (fs : Fs) (target : List Nat → m FuzzEnd) (dirname : List Nat) :
    List (List Nat) → m (List FuzzEv × FuzzEnd)
  | [] => pure ([], .done)
  | name :: r =>
    if name.head? = some 0x2E then testNames fs target dirname r
    else if (dirname ++ str "/" ++ name).length ≥ 1024 then do
      let x ← testNames fs target dirname r
      pure (.truncated dirname name :: x.1, x.2)
    else do
      let x ← testFile fs target (dirname ++ str "/" ++ name)
      match x.2 with
      | .abort => pure x
      | .done => do
        let y ← testNames fs target dirname r
        pure (x.1 ++ y.1, y.2)

/-- `test_all_from`; main.c:42-85 -/
def testAllFrom (fs : Fs) (target : List Nat → m FuzzEnd) (dirname : List Nat) :
    m (List FuzzEv × FuzzEnd) :=
  match fs.dir dirname with
  | none => pure ([], .done)
  | some names => testNames fs target dirname names

/-- What follows the last `c`, if there is one; `strrchr`; main.c:106. -/
def afterLast (c : Nat) : List Nat → Option (List Nat)
  | [] => none
  | x :: r =>
    match afterLast c r with
    | some t => some t
    | none => if x = c then some r else none

/-- The text in an array of 1024 bytes after `snprintf`; main.c:53,98,111,117. -/
def snprintf1024 (s : List Nat) : List Nat := s.take 1023

/-- `main` from the name of the target on; main.c:106-122.  `srcdir` is SRCDIR.  `none` instead of
an exit status if an assertion has failed. -/
def fuzzDirs (fs : Fs) (target : List Nat → m FuzzEnd) (srcdir argv0 : List Nat) :
    m (List FuzzEv × Option Nat) := do
  let name := (afterLast 0x2F argv0).getD argv0
  if (srcdir ++ str "/" ++ name ++ str ".in").length ≥ 1024 then pure ([], some 1)
  else
    let x ← testAllFrom fs target (snprintf1024 (srcdir ++ str "/" ++ name ++ str ".in"))
    match x.2 with
    | .abort => pure (x.1, none)
    | .done => do
      let y ← testAllFrom fs target (snprintf1024 (srcdir ++ str "/" ++ name ++ str ".repro"))
      match y.2 with
      | .abort => pure (x.1 ++ y.1, none)
      | .done => pure (x.1 ++ y.1, some 0)

/-- `main` with TEST_RUN; main.c:87-122.  `valgrind` is the variable TESTS_VALGRIND of the
environment, `system` what `system` returns; `argv` is what `argc` counts.  Without any argument
`argv[0]` is a null pointer. -/
def fuzzMain (fs : Fs) (target : List Nat → m FuzzEnd) (srcdir : List Nat)
    (valgrind : Option (List Nat)) (system : List Nat → Int) (argv : List (List Nat)) :
    m (List FuzzEv × Option Nat) :=
  match argv with
  | [] => cub
  | [argv0] =>
    match valgrind with
    | some (c :: v) =>
      let cmd := str "TESTS_VALGRIND= " ++ (c :: v) ++ str " " ++ argv0
      if cmd.length ≥ 1024 then pure ([], some 1)
      else pure ([.command cmd], some (if system cmd ≠ 0 then 1 else 0))
    | _ => fuzzDirs fs target srcdir argv0
  | argv0 :: _ => fuzzDirs fs target srcdir argv0

/-- `main` without TEST_RUN, and without afl: one round of the loop, which reads up to 64 KiB;
main.c:126-153. -/
def fuzzStdin (target : List Nat → m FuzzEnd) (stdin : List Nat) : m FuzzEnd :=
  target (stdin.take 65536)

end Idn2
