import Verif.Model.Decode
import Verif.Model.Register
import Verif.Model.Error
import Verif.Model.GenText
import Verif.Spec.Text

/-
The example programs; examples/decode.c, lookup.c, register.c, example-toascii.c and
example-tounicode.c.

`bufsiz` is BUFSIZ, `perr` the text that `perror` writes.  A read error is the same as an empty
input.  `%d` and `%ld` write what `toString` gives.  `setlocale` and failures of writing are not
modelled.
-/

namespace Idn2
open Spec (str)

/-- What a program has written to its two streams, and its exit status; examples/*.c. -/
structure Screen where
  out : List Nat
  err : List Nat
  status : Nat
  deriving DecidableEq, Repr

/-- `fgets (buf, bufsiz, stdin)`: the bytes in front of the terminating zero, if any byte could be
read; the calls are example-toascii.c:30, example-tounicode.c:31, decode.c:36, lookup.c:35 and
register.c:35; the function is that of the C library. -/
def fgetsIn (bufsiz : Nat) (stdin : List Nat) : Option (List Nat) :=
  if stdin = [] then none else some (fgets (bufsiz - 1) stdin).1

/-- `buf[strlen (buf) - 1] = '\0'`: what the string is then. The element in front of the array
must not be written; example-toascii.c:32, example-tounicode.c:33. -/
def dropEnd {m : Type → Type} [CMem m] (buf : List Nat) : m (List Nat) :=
  if (lineStr buf).length = 0 then cub else pure ((lineStr buf).take ((lineStr buf).length - 1))

/-- The end of all five programs: a text for the error, or for the result, which is freed;
example-toascii.c:41-49, example-tounicode.c:41-49, decode.c:44-53, lookup.c:43-52,
register.c:43-52. -/
def showEnd {m : Type → Type} [CMem m] (r : Option Rc × Option Cell) (fails : Rc → Screen)
    (prints : List Nat → Screen) : m Screen :=
  match r with
  | (some e, _) => pure (fails e)
  | (none, some (.buf p s)) => do
    touch p
    match cstr (s ++ [0]) with
    | none => cub
    | some s => do
      cfree p
      pure (prints s)
  | (none, _) => cub

/-- `fprintf (stderr, "error: %s (%s, %d)\n", ...)`; decode.c:46-47, lookup.c:45-46,
register.c:45-46 -/
def errorLine (e : Rc) : List Nat :=
  str ("error: " ++ idn2_strerror e.code ++ " (" ++ idn2_strerror_name e.code ++ ", " ++
    toString e.code ++ ")\n")

/-- `main`; decode.c:25-56 -/
def example_decode {m : Type → Type} [CMem m] (E : Env) (bufsiz : Nat) (perr stdin : List Nat) :
    m Screen := do
  let prompt := str "Enter (possibly non-ASCII) domain name to decode: "
  match fgetsIn bufsiz stdin with
  | none => pure ⟨prompt, perr, 1⟩
  | some buf => do
    let src ← dropEnd buf
    let r ← idn2_to_unicode_lzlz E (some src) (some (.old 0)) 0
    showEnd r (fun e => ⟨prompt, errorLine e, 1⟩)
      (fun s => ⟨prompt ++ str "Decoded domain name: " ++ s ++ [10], [], 0⟩)

/-- `main`; lookup.c:24-55 -/
def example_lookup {m : Type → Type} [CMem m] (E : Env) (bufsiz : Nat) (perr stdin : List Nat) :
    m Screen := do
  let prompt := str "Enter (possibly non-ASCII) domain name to lookup: "
  match fgetsIn bufsiz stdin with
  | none => pure ⟨prompt, perr, 1⟩
  | some buf => do
    let src ← dropEnd buf
    let r ← idn2_lookup_ul E (some src) (some (.old 0)) 0
    showEnd r (fun e => ⟨prompt, errorLine e, 1⟩)
      (fun s => ⟨prompt ++ str "IDNA2008 domain name to lookup in DNS: " ++ s ++ [10], [], 0⟩)

/-- `main`; register.c:24-55 -/
def example_register {m : Type → Type} [CMem m] (E : Env) (bufsiz : Nat) (perr stdin : List Nat) :
    m Screen := do
  let prompt := str "Enter (possibly non-ASCII) label to register: "
  match fgetsIn bufsiz stdin with
  | none => pure ⟨prompt, perr, 1⟩
  | some buf => do
    let src ← dropEnd buf
    let r ← idn2_register_ul E (some src) none (some (.old 0)) 0
    showEnd r (fun e => ⟨prompt, errorLine e, 1⟩)
      (fun s => ⟨prompt ++ str "IDNA2008 label to register in DNS: " ++ s ++ [10], [], 0⟩)

/-- A digit of `%x`; used in example-toascii.c:36. -/
def lowDigit (d : Nat) : Nat := if d < 10 then 48 + d else 87 + d

/-- `printf ("%02x ", (unsigned) c & 0xFF)`; example-toascii.c:36, example-tounicode.c:37. -/
def print02x (c : Nat) : List Nat :=
  [lowDigit ((c &&& 0xFF) / 16), lowDigit ((c &&& 0xFF) % 16), 32]

/-- `for (i = 0; i < strlen (buf); i++) printf ("%02x ", ...)`; example-toascii.c:35-36,
example-tounicode.c:36-37. -/
def dumpLoop (buf : List Nat) (i : Nat) : List Nat :=
  if h : i < buf.length then print02x buf[i] ++ dumpLoop buf (i + 1) else []
termination_by buf.length - i

/-- example-toascii.c:34-37, example-tounicode.c:35-38 -/
def dumpLine (buf : List Nat) : List Nat :=
  str ("Read string (length " ++ toString buf.length ++ "): ") ++ dumpLoop buf 0 ++ [10]

/-- example-toascii.c:47, example-tounicode.c:47 -/
def aceLine (p : List Nat) : List Nat :=
  str ("ACE label (length " ++ toString p.length ++ "): '") ++ p ++ str "'\n"

/-- `main`; example-toascii.c:22-52.  The program goes on after `perror`, with an array that has
not been initialised. -/
def example_toascii {m : Type → Type} [CMem m] (E : Env) (bufsiz : Nat) (stdin : List Nat) :
    m Screen := do
  match fgetsIn bufsiz stdin with
  | none => cub
  | some line => do
    let buf ← dropEnd line
    let r ← idn2_to_ascii_8z E (some buf) (some (.old 0)) IDN2_NONTRANSITIONAL
    showEnd r
      (fun e => ⟨dumpLine buf ++ str ("ToASCII() failed (" ++ toString e.code ++ "): " ++
        idn2_strerror e.code ++ "\n"), [], 1⟩)
      (fun p => ⟨dumpLine buf ++ aceLine p, [], 0⟩)

/-- `main`; example-tounicode.c:23-52.  As above. -/
def example_tounicode {m : Type → Type} [CMem m] (bufsiz : Nat) (stdin : List Nat) : m Screen := do
  match fgetsIn bufsiz stdin with
  | none => cub
  | some line => do
    let buf ← dropEnd line
    let r ← idn2_to_unicode_8z8z (some buf) (some (.old 0)) 0
    showEnd r
      (fun e => ⟨dumpLine buf ++ str ("ToUnicode() failed (" ++ toString e.code ++ "): " ++
        idn2_strerror e.code ++ "\n"), [], 1⟩)
      (fun p => ⟨dumpLine buf ++ aceLine p, [], 0⟩)

end Idn2
