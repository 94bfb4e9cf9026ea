import Verif.Model.Decode
import Verif.Model.Register
import Verif.Model.Error

/-
The command line tool; src/idn2.c.

The option parser is in Model/CmdLine.lean; its result `args_info` is the structure `Opts`.  Not
modelled: the texts of --help, --version, the greeting and the two
blurbs (parameters or message constructors here), translation of messages, number formatting in
the debugging output, and failures of writing to the standard streams.
-/

namespace Idn2

/-- The fields of `args_info` that the tool uses; src/idn2.ggo:16-25 and `inputs`, the strings on
the command line. -/
structure Opts where
  version : Bool := false
  help : Bool := false
  decode : Bool := false
  register : Bool := false
  tr46t : Bool := false
  tr46nt : Bool := false
  noTr46 : Bool := false
  std3 : Bool := false
  noRoundtrip : Bool := false
  debug : Bool := false
  quiet : Bool := false
  inputs : List (List Nat) := []
  deriving DecidableEq, Repr

/-- What surrounds a run: the bytes of standard input, whether reading it ends with an error,
whether it is a terminal, and the texts `WARRANTY` and `CONDITIONS` of src/blurbs.h and those of
--version and --help; src/idn2.c:146-154,208-252. -/
structure Surround where
  stdin : List Nat := []
  readError : Bool := false
  tty : Bool := false
  warranty : List Nat := []
  conditions : List Nat := []
  versionText : List Nat := []
  usageText : List Nat := []
  deriving DecidableEq, Repr

/-- Messages on standard error; src/idn2.c:56-60,119-130,185,214-222,252. -/
inductive Diag where
  /-- "idn2: tag: message" from `error`; idn2.c:185 -/
  | fail (tag msg : String)
  /-- "prefix[i] = 0x.."; idn2.c:119-120 -/
  | byte (pre : String) (i v : Nat)
  /-- "UTF-8 prefix[i] = 0x.."; idn2.c:124-125 -/
  | utf8 (pre : String) (i v : Nat)
  /-- "UCS-4 prefix[i] = U+...."; idn2.c:129-130 -/
  | ucs4 (pre : String) (i v : Nat)
  /-- idn2.c:214 -/
  | greeting
  /-- idn2.c:217 -/
  | charset
  /-- idn2.c:221-222 -/
  | instructions
  /-- idn2.c:252 -/
  | inputError
  deriving DecidableEq, Repr

/-- What has been written to the two streams. (No counterpart of its own in src/idn2.c: `stdout`
and `stderr` of src/idn2.c:106-253) -/
structure Io where
  out : List Nat := []
  err : List Diag := []
  deriving DecidableEq, Repr

/-- One text after the other. (Successive output statements of src/idn2.c:106-253) -/
def Io.app (a b : Io) : Io := ⟨a.out ++ b.out, a.err ++ b.err⟩

/-- The end of a run: what it has written and its exit status; src/idn2.c:102,185,251-256. -/
structure Exit where
  io : Io
  status : Nat
  deriving DecidableEq, Repr

/-- `hexdump`; idn2.c:105-131.  Neither conversion is freed. -/
def hexdump {m : Type → Type} [CMem m] (E : Env) (pre : String) (str : List Nat) :
    m (List Diag) := do
  let bytes := str.mapIdx fun i c => Diag.byte pre i (c &&& 0xFF)
  match ← libConv (E.U.fromLocale str) with
  | .val u8 p => do
    touch p
    let own := if str ≠ u8 then u8.mapIdx fun i c => Diag.utf8 pre i (c &&& 0xFF) else []
    match ← libConv (u8Decode u8) with
    | .val u32 q => do
      touch q
      pure (bytes ++ own ++ u32.mapIdx fun i c => Diag.ucs4 pre i c)
    | _ => pure (bytes ++ own)
  | _ => pure bytes

/-- `if (len && readbuf[len - 1] == '\n') readbuf[len - 1] = '\0';`; idn2.c:143-144.  `s` are the
bytes before the terminating zero. -/
def chop (s : List Nat) : List Nat :=
  if s.length ≠ 0 ∧ s[s.length - 1]? = some 0x0A then s.take (s.length - 1) else s

/-- "show w", "show c"; src/idn2.c:146-155. -/
def showW : List Nat := [0x73, 0x68, 0x6F, 0x77, 0x20, 0x77]
def showC : List Nat := [0x73, 0x68, 0x6F, 0x77, 0x20, 0x63]

/-- The call of the library and its tag; idn2.c:160-174.  The variable `output` has not been
initialised. -/
def convert {m : Type → Type} [CMem m] (E : Env) (o : Opts) (readbuf : List Nat) (flags : Nat) :
    m ((Option Rc × Option Cell) × String) :=
  if o.register then do
    let r ← idn2_register_ul E (some readbuf) none (some (.old 0)) flags
    pure (r, "register")
  else if o.decode then do
    let r ← idn2_to_unicode_lzlz E (some readbuf) (some (.old 0)) 0
    pure (r, "decode")
  else do
    let r ← idn2_to_ascii_lz E (some readbuf) (some (.old 0)) flags
    pure (r, "toAscii")

/-- `hexdump` if debugging output is wanted; src/idn2.c:157-158,178-179. -/
def debugDump {m : Type → Type} [CMem m] (E : Env) (o : Opts) (pre : String) (str : List Nat) :
    m (List Diag) :=
  if o.debug then hexdump E pre str else pure []

/-- `process_input` after the test for the "show" commands; idn2.c:157-185.  `false` stands for
`exit (EXIT_FAILURE)`. -/
def processText {m : Type → Type} [CMem m] (E : Env) (o : Opts) (readbuf : List Nat)
    (flags : Nat) : m (Io × Bool) := do
  let dump ← debugDump E o "input" readbuf
  let ((rc, output), tag) ← convert E o readbuf flags
  match rc with
  | none => do
    let dump' ← debugDump E o "output" readbuf
    match output with
    | some (.buf p s) => do
      touch p
      match cstr (s ++ [0]) with
      | none => cub
      | some s => do
        cfree p
        pure (⟨s ++ [0x0A], dump ++ dump'⟩, true)
    | _ => cub
  | some e => pure (⟨[], dump ++ [.fail tag (idn2_strerror e.code)]⟩, false)

/-- `process_input`; idn2.c:135-186.  `buf` are the bytes of `readbuf` up to a terminating
zero. -/
def process_input {m : Type → Type} [CMem m] (E : Env) (o : Opts) (S : Surround) (buf : List Nat)
    (flags : Nat) : m (Io × Bool) :=
  match cstr (buf ++ [0]) with
  | none => cub
  | some s =>
    if chop s = showW then pure (⟨S.warranty ++ [0x0A], []⟩, true)
    else if chop s = showC then pure (⟨S.conditions ++ [0x0A], []⟩, true)
    else processText E o (chop s) flags

/-- The flags; idn2.c:192, 224-235. -/
def cliFlags (o : Opts) : Nat :=
  let flags := if o.tr46t then IDN2_TRANSITIONAL else if o.tr46nt then IDN2_NONTRANSITIONAL
    else if o.noTr46 then IDN2_NO_TR46 else IDN2_NONTRANSITIONAL
  let flags := if flags ≠ 0 ∧ o.std3 then flags ||| IDN2_USE_STD3_ASCII_RULES else flags
  if flags ≠ 0 ∧ o.noRoundtrip then flags ||| IDN2_NO_ALABEL_ROUNDTRIP else flags

/-- The loop over the arguments; idn2.c:237-238. -/
def argLoop {m : Type → Type} [CMem m] (E : Env) (o : Opts) (S : Surround) (flags : Nat) :
    List (List Nat) → Io → m (Io × Bool)
  | [], io => pure (io, true)
  | a :: as, io => do
    let (d, go) ← process_input E o S a (flags ||| IDN2_NFC_INPUT)
    if go then argLoop E o S flags as (io.app d) else pure (io.app d, false)

/-- `getline`: the bytes up to and including the next newline, and the rest of the input; the call
is src/idn2.c:245; the function is that of the C library. -/
def getline : List Nat → List Nat × List Nat
  | [] => ([], [])
  | c :: r => if c = 0x0A then ([c], r) else (c :: (getline r).1, (getline r).2)

theorem getline_length (s : List Nat) : (getline s).1.length + (getline s).2.length = s.length := by
  induction s with
  | nil => rfl
  | cons c r ih =>
    unfold getline
    split
    · simp; omega
    · simp; omega

/-- The loop over the lines of standard input; idn2.c:245-246. -/
def lineLoop {m : Type → Type} [CMem m] (E : Env) (o : Opts) (S : Surround) (flags bp : Nat)
    (rest : List Nat) (io : Io) : m (Io × Bool) :=
  if _h : (getline rest).1.length > 0 then do
    touch bp
    let (d, go) ← process_input E o S (getline rest).1 flags
    if go then lineLoop E o S flags bp (getline rest).2 (io.app d) else pure (io.app d, false)
  else pure (io, true)
termination_by rest.length
decreasing_by
  have := getline_length rest
  omega

/-- Reading standard input; idn2.c:241-249.  `getline` allocates the buffer in its first call and
returns -1 if it cannot. -/
def readLoop {m : Type → Type} [CMem m] (E : Env) (o : Opts) (S : Surround) (flags : Nat)
    (io : Io) : m (Io × Bool) := do
  match ← malloc with
  | none => pure (io, true)
  | some bp => do
    let (io, go) ← lineLoop E o S flags bp S.stdin io
    if go then do
      cfree bp
      pure (io, true)
    else pure (io, false)

/-- The messages before the work begins; idn2.c:212-222. -/
def opening (o : Opts) (S : Surround) : List Diag :=
  (if !o.quiet && o.inputs.isEmpty && S.tty then [.greeting] else []) ++
    (if o.debug then [.charset] else []) ++
    (if !o.quiet && o.inputs.isEmpty && S.tty then [.instructions] else [])

/-- `main` after the option parser; idn2.c:202-257. -/
def cliMain {m : Type → Type} [CMem m] (E : Env) (o : Opts) (S : Surround) : m Exit := do
  if o.version then pure ⟨⟨S.versionText, []⟩, 0⟩
  else if o.help then pure ⟨⟨S.usageText, []⟩, 0⟩
  else do
    let (io, go) ← argLoop E o S (cliFlags o) o.inputs ⟨[], opening o S⟩
    if !go then pure ⟨io, 1⟩
    else if o.inputs.length = 0 then do
      let (io, go) ← readLoop E o S (cliFlags o) io
      if !go then pure ⟨io, 1⟩
      else if S.readError then pure ⟨io.app ⟨[], [.inputError]⟩, 1⟩
      else pure ⟨io, 0⟩
    else pure ⟨io, 0⟩

end Idn2
