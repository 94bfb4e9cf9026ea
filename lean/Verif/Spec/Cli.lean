import Verif.Model.Cli
import Verif.Spec.Register
import Verif.Spec.ToUnicode

/-
What the command line tool should do, in terms of the declarative accounts of the conversions.
-/

namespace Idn2

/-- Conversions between the locale's encoding and UTF-8 yield C strings, the former one
well-formed UTF-8. -/
structure Uni.Locale (U : Uni) : Prop where
  from_ok : ∀ s t, U.fromLocale s = some t → Spec.WellFormed t ∧ 0 ∉ t
  to_ok : ∀ s t, U.toLocale s = some t → 0 ∉ t

namespace Spec

/-- `ls` are the lines of the text; the last one may lack its newline. -/
inductive TextLines : List Nat → List (List Nat) → Prop
  | nil : TextLines [] []
  | last {l : List Nat} : l ≠ [] → 0x0A ∉ l → TextLines l [l]
  | cons {l t : List Nat} {ls : List (List Nat)} : 0x0A ∉ l → TextLines t ls →
      TextLines (l ++ 0x0A :: t) (l :: ls)

/-- `t` is `a` without the newline at its end, if there is one. -/
def NoNewline (a t : List Nat) : Prop := a = t ++ [0x0A] ∨ (a = t ∧ ¬ [0x0A] <:+ a)

/-- The strings a run is about: the arguments, or if there are none, the lines of standard input.
A line ends before its first NUL. -/
def Texts (o : Opts) (S : Surround) (ts : List (List Nat)) : Prop :=
  if o.inputs = [] then ∃ ls, TextLines S.stdin ls ∧ ts = ls.map (·.takeWhile (· != 0))
  else Each NoNewline o.inputs ts

/-- The flags of a run: NFC_INPUT, one of TRANSITIONAL, NO_TR46 and NONTRANSITIONAL, and what the
options add.  -T goes before -N, -N before --no-tr46. -/
def toolFlags (o : Opts) : Nat :=
  1 + (if o.tr46t then 4 else if o.noTr46 ∧ ¬ o.tr46nt then 64 else 8) +
    (if o.std3 then 32 else 0) + (if o.noRoundtrip then 128 else 0)

/-- The string `s` in the locale's encoding is converted to `n`.  --register goes before
--decode. -/
inductive Converts (D : Data) (U : Uni) (o : Opts) (s n : List Nat) : Prop
  | register (t : List Nat) : o.register = true → U.fromLocale s = some t → Registers D U t n →
      Converts D U o s n
  | decode (t v : List Nat) : o.register = false → o.decode = true → U.fromLocale s = some t →
      ToUnicode t v → (∀ c ∈ v, isScalar c) → U.toLocale (utf8s v) = some n → Converts D U o s n
  | lookup (u : List Nat) : o.register = false → o.decode = false → (∀ c ∈ u, isScalar c) →
      U.fromLocale s = some (utf8s u) → (toolFlags o).testBit 6 = false →
      ToAscii D U (toolFlags o) u n → Converts D U o s n
  | lookupNfc (u : List Nat) : o.register = false → o.decode = false → (∀ c ∈ u, isScalar c) →
      U.fromLocale s = some (utf8s u) → (toolFlags o).testBit 6 = true →
      ToAsciiNfc D U (toolFlags o) u n → Converts D U o s n

/-- The conversion of `s` fails with `e`. -/
inductive Refuses (D : Data) (U : Uni) (o : Opts) (s : List Nat) : Rc → Prop
  | locale : U.fromLocale s = none → Refuses D U o s .iconvFail
  | register (t : List Nat) (e : Rc) : o.register = true → U.fromLocale s = some t →
      RegisterErr D U t e → Refuses D U o s e
  | decode (t : List Nat) (e : Rc) : o.register = false → o.decode = true →
      U.fromLocale s = some t → ToUnicodeErr t e → Refuses D U o s e
  | decodeUtf8 (t v : List Nat) : o.register = false → o.decode = true →
      U.fromLocale s = some t → ToUnicode t v → ¬ (∀ c ∈ v, isScalar c) →
      Refuses D U o s .encodingError
  | decodeLocale (t v : List Nat) : o.register = false → o.decode = true →
      U.fromLocale s = some t → ToUnicode t v → (∀ c ∈ v, isScalar c) →
      U.toLocale (utf8s v) = none → Refuses D U o s .encodingError
  | lookup (u : List Nat) (e : Rc) : o.register = false → o.decode = false →
      (∀ c ∈ u, isScalar c) → U.fromLocale s = some (utf8s u) →
      (toolFlags o).testBit 6 = false → ToAsciiErr D U (toolFlags o) u e → Refuses D U o s e
  | lookupNfc (u : List Nat) (e : Rc) : o.register = false → o.decode = false →
      (∀ c ∈ u, isScalar c) → U.fromLocale s = some (utf8s u) →
      (toolFlags o).testBit 6 = true → ToAsciiErrNfc D U (toolFlags o) u e → Refuses D U o s e

/-- The text that is printed for `s`: one of the blurbs, or what it is converted to. -/
inductive Prints (D : Data) (U : Uni) (o : Opts) (S : Surround) (s : List Nat) : List Nat → Prop
  | warranty : s = [0x73, 0x68, 0x6F, 0x77, 0x20, 0x77] → Prints D U o S s S.warranty
  | conditions : s = [0x73, 0x68, 0x6F, 0x77, 0x20, 0x63] → Prints D U o S s S.conditions
  | converted (n : List Nat) : s ≠ [0x73, 0x68, 0x6F, 0x77, 0x20, 0x77] →
      s ≠ [0x73, 0x68, 0x6F, 0x77, 0x20, 0x63] → Converts D U o s n → Prints D U o S s n

/-- The word in front of an error message. -/
def tagOf (o : Opts) : String :=
  if o.register then "register" else if o.decode then "decode" else "toAscii"

/-- A message that is not an error report. -/
def NoReport (d : List Diag) : Prop := ∀ tag msg, Diag.fail tag msg ∉ d

/-- The end of a run about the strings `ts`.  They are processed in order; each result is printed
on a line of its own.  If one of them is refused, the run ends there with an error report and
status 1; otherwise it ends after the last one.  `mal` is true if memory may be short. -/
def Session (D : Data) (U : Uni) (o : Opts) (S : Surround) (mal : Prop) (ts : List (List Nat))
    (x : Exit) : Prop :=
  ∃ done rest ns ds, ts = done ++ rest ∧ Each (Prints D U o S) done ns ∧
    x.io.out = ns.flatMap (· ++ [0x0A]) ∧ NoReport ds ∧
    (o.quiet = true → o.debug = false → ∀ d ∈ ds, d = .inputError) ∧
    ((rest = [] ∧ x.io.err = ds ∧
        x.status = if o.inputs = [] ∧ S.readError = true then 1 else 0) ∨
      ∃ t post e, rest = t :: post ∧ x.status = 1 ∧
        x.io.err = ds ++ [.fail (tagOf o) (idn2_strerror e.code)] ∧
        ((Refuses D U o t e ∧ ∀ n, ¬ Prints D U o S t n) ∨ (mal ∧ e = .malloc)))

end Spec
end Idn2
