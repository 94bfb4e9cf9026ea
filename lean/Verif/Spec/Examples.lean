import Verif.Spec.Answer
import Verif.Model.Examples

/-
What the example programs should show.
-/

namespace Idn2

/-- The example programs. -/
inductive Example
  | decode
  | lookup
  | register
  | toascii
  | tounicode
  deriving DecidableEq

/-- Run an example program. -/
def Example.run {m : Type → Type} [CMem m] (E : Env) (bufsiz : Nat) (perr stdin : List Nat) :
    Example → m Screen
  | .decode => example_decode E bufsiz perr stdin
  | .lookup => example_lookup E bufsiz perr stdin
  | .register => example_register E bufsiz perr stdin
  | .toascii => example_toascii E bufsiz stdin
  | .tounicode => example_tounicode bufsiz stdin

namespace Spec

/-- What a program asks of the library if the name `s` is entered. -/
def asks (s : List Nat) : Example → Request
  | .decode => .to_unicode_lzlz s 0
  | .lookup => .lookup_ul s 0
  | .register => .register_ul (some s) none 0
  | .toascii => .to_ascii_8z s 8
  | .tounicode => .to_unicode_8z8z s 0

/-- The two hexadecimal digits of a byte, and a space. -/
def hexByte (b : Nat) : List Nat :=
  [(str "0123456789abcdef").getD (b / 16 % 16) 0, (str "0123456789abcdef").getD (b % 16) 0, 0x20]

/-- The text in front of the result: a prompt, or the input as length and bytes. -/
def openText (s : List Nat) : Example → List Nat
  | .decode => str "Enter (possibly non-ASCII) domain name to decode: "
  | .lookup => str "Enter (possibly non-ASCII) domain name to lookup: "
  | .register => str "Enter (possibly non-ASCII) label to register: "
  | .toascii => str ("Read string (length " ++ toString s.length ++ "): ") ++ s.flatMap hexByte ++ [10]
  | .tounicode => str ("Read string (length " ++ toString s.length ++ "): ") ++ s.flatMap hexByte ++ [10]

/-- The text around the result `n`. -/
def resultText (n : List Nat) : Example → List Nat
  | .decode => str "Decoded domain name: " ++ n ++ [10]
  | .lookup => str "IDNA2008 domain name to lookup in DNS: " ++ n ++ [10]
  | .register => str "IDNA2008 label to register in DNS: " ++ n ++ [10]
  | .toascii => str ("ACE label (length " ++ toString n.length ++ "): '") ++ n ++ str "'\n"
  | .tounicode => str ("ACE label (length " ++ toString n.length ++ "): '") ++ n ++ str "'\n"

/-- The text for an error; the first three programs write it to standard error. -/
def errorText (e : Rc) : Example → List Nat × List Nat
  | .toascii => (str ("ToASCII() failed (" ++ toString e.code ++ "): " ++ idn2_strerror e.code ++ "\n"), [])
  | .tounicode => (str ("ToUnicode() failed (" ++ toString e.code ++ "): " ++ idn2_strerror e.code ++ "\n"), [])
  | _ => ([], str ("error: " ++ idn2_strerror e.code ++ " (" ++ idn2_strerror_name e.code ++ ", " ++
      toString e.code ++ ")\n"))

/-- What a program shows if the name `s` is entered and the library answers `r`. -/
def screen (x : Example) (s : List Nat) : Ans → Screen
  | .ok n => ⟨openText s x ++ resultText n x, [], 0⟩
  | .error e => ⟨openText s x ++ (errorText e x).1, (errorText e x).2, 1⟩

/-- The run, in the heap `h`, of the program `x` after the name `s` has been entered: it shows the
answer, or that memory was short if it was, and leaves the heap as it was. -/
def ShowsAnswer (D : Data) (U : Uni) (x : Example) (s : List Nat) (run : HeapM Screen) (h : Heap) :
    Prop :=
  ∃ t h', run h = .val (t, h') ∧ h'.live = h.live ∧
    ((Failed h h' ∧ t = screen x s (.error .malloc)) ∨
      ∃ r, Answer D U (asks s x) r ∧ t = screen x s r)

end Spec
end Idn2
