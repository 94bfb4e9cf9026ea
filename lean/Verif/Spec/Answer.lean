import Verif.Spec.Heap
import Verif.Spec.Cli
import Verif.Spec.Lookup

/-
One account of all calls of the library that allocate their result: what is asked, what the answer
is, and how a call may end.
-/

namespace Idn2

/-- A call, without the output parameter.  Inputs are not null, except that registration may lack
one of its two labels. -/
inductive Request
  | lookup_u8 (s : List Nat) (flags : Nat)
  | lookup_ul (s : List Nat) (flags : Nat)
  | to_ascii_8z (s : List Nat) (flags : Nat)
  | to_ascii_lz (s : List Nat) (flags : Nat)
  | to_ascii_4z (a : List Nat) (flags : Nat)
  | to_ascii_4i2 (a : List Nat) (flags : Nat)
  | to_unicode_8z4z (s : List Nat) (flags : Nat)
  | to_unicode_4z4z (a : List Nat) (flags : Nat)
  | to_unicode_8z8z (s : List Nat) (flags : Nat)
  | to_unicode_8zlz (s : List Nat) (flags : Nat)
  | to_unicode_lzlz (s : List Nat) (flags : Nat)
  | register_u8 (ul al : Option (List Nat)) (flags : Nat)
  | register_ul (ul al : Option (List Nat)) (flags : Nat)

/-- The call itself. -/
def Request.run {m : Type → Type} [CMem m] (E : Env) (out : Option Cell) :
    Request → m (Option Rc × Option Cell)
  | .lookup_u8 s f => idn2_lookup_u8 E (some s) out f
  | .lookup_ul s f => idn2_lookup_ul E (some s) out f
  | .to_ascii_8z s f => idn2_to_ascii_8z E (some s) out f
  | .to_ascii_lz s f => idn2_to_ascii_lz E (some s) out f
  | .to_ascii_4z a f => idn2_to_ascii_4z E (some a) out f
  | .to_ascii_4i2 a f => idn2_to_ascii_4i2 E (some a) out f
  | .to_unicode_8z4z s f => idn2_to_unicode_8z4z (some s) out f
  | .to_unicode_4z4z a f => idn2_to_unicode_4z4z (some a) out f
  | .to_unicode_8z8z s f => idn2_to_unicode_8z8z (some s) out f
  | .to_unicode_8zlz s f => idn2_to_unicode_8zlz E (some s) out f
  | .to_unicode_lzlz s f => idn2_to_unicode_lzlz E (some s) out f
  | .register_u8 ul al f => idn2_register_u8 E ul al out f
  | .register_ul ul al f => idn2_register_ul E ul al out f

/-- At least one of two strings is there. -/
def LabelArgs (ul al : Option (List Nat)) : Prop :=
  (ul ≠ none ∨ al ≠ none) ∧ ∀ s, ul = some s ∨ al = some s → 0 ∉ s

/-- Inputs that a C program can pass: strings end before their first zero, and registration needs
a label.  (An array has a length and may contain zeros.) -/
def Request.Valid : Request → Prop
  | .lookup_u8 s _ => 0 ∉ s
  | .lookup_ul s _ => 0 ∉ s
  | .to_ascii_8z s _ => 0 ∉ s
  | .to_ascii_lz s _ => 0 ∉ s
  | .to_ascii_4z a _ => 0 ∉ a
  | .to_ascii_4i2 _ _ => True
  | .to_unicode_8z4z s _ => 0 ∉ s
  | .to_unicode_4z4z a _ => 0 ∉ a
  | .to_unicode_8z8z s _ => 0 ∉ s
  | .to_unicode_8zlz s _ => 0 ∉ s
  | .to_unicode_lzlz s _ => 0 ∉ s
  | .register_u8 ul al _ => LabelArgs ul al
  | .register_ul ul al _ => LabelArgs ul al

namespace Spec

/-- A result or an error code. -/
abbrev Ans := Except Rc (List Nat)

/-- A conversion that fails with `e` comes first. -/
inductive After (conv : Option (List Nat)) (e : Rc) (next : List Nat → Ans → Prop) : Ans → Prop
  | fails : conv = none → After conv e next (.error e)
  | done (t : List Nat) (r : Ans) : conv = some t → next t r → After conv e next r

/-- The code points of a string or array, up to the first zero, in UTF-8.  All elements have to be
code points, those behind the zero included. -/
inductive InUtf8 (a : List Nat) (next : List Nat → Ans → Prop) : Ans → Prop
  | fails : ¬ (∀ c ∈ a, isScalar c) → InUtf8 a next (.error .encodingError)
  | done (r : Ans) : (∀ c ∈ a, isScalar c) → next (utf8s (a.takeWhile (· != 0))) r →
      InUtf8 a next r

/-- The code points of a name in ASCII or UTF-8. -/
inductive Shown (s : List Nat) : Ans → Prop
  | ok (v : List Nat) : ToUnicode s v → Shown s (.ok v)
  | error (e : Rc) : ToUnicodeErr s e → Shown s (.error e)

/-- The same in UTF-8. -/
inductive Shown8 (s : List Nat) : Ans → Prop
  | ok (v : List Nat) : ToUnicode s v → (∀ c ∈ v, isScalar c) → Shown8 s (.ok (utf8s v))
  | surrogate (v : List Nat) : ToUnicode s v → ¬ (∀ c ∈ v, isScalar c) →
      Shown8 s (.error .encodingError)
  | error (e : Rc) : ToUnicodeErr s e → Shown8 s (.error e)

/-- The same in the encoding of the locale. -/
inductive ShownLocale (U : Uni) (s : List Nat) : Ans → Prop
  | ok (u n : List Nat) : Shown8 s (.ok u) → U.toLocale u = some n → ShownLocale U s (.ok n)
  | locale (u : List Nat) : Shown8 s (.ok u) → U.toLocale u = none →
      ShownLocale U s (.error .encodingError)
  | error (e : Rc) : Shown8 s (.error e) → ShownLocale U s (.error e)

/-- Registration of a U-label, or of an A-label with or without a U-label beside it. -/
def Registered (D : Data) (U : Uni) (flags : Nat) (ul : Option (List Nat)) :
    Option (List Nat) → Ans → Prop
  | some a, r => RegisterA D U ul a r
  | none, r => ∃ t, ul = some t ∧ RegisterU D U flags t r

/-- What a call has to answer.  The functions that read the locale's encoding add
IDN2_NFC_INPUT (1) to the flags.  Those to Unicode have no flags. -/
def Answer (D : Data) (U : Uni) : Request → Ans → Prop
  | .lookup_u8 s f => Lookup D U f s
  | .lookup_ul s f => After (U.fromLocale s) .iconvFail (Lookup D U (f ||| 1))
  | .to_ascii_8z s f => Lookup D U f s
  | .to_ascii_lz s f => After (U.fromLocale s) .iconvFail (Lookup D U (f ||| 1))
  | .to_ascii_4z a f => InUtf8 a (Lookup D U f)
  | .to_ascii_4i2 a f => InUtf8 a (Lookup D U f)
  | .to_unicode_8z4z s _ => Shown s
  | .to_unicode_4z4z a _ => InUtf8 a Shown
  | .to_unicode_8z8z s _ => Shown8 s
  | .to_unicode_8zlz s _ => ShownLocale U s
  | .to_unicode_lzlz s _ => After (U.fromLocale s) .iconvFail (ShownLocale U)
  | .register_u8 ul al f => Registered D U f ul al
  | .register_ul none al f => Registered D U (f ||| 1) none al
  | .register_ul (some s) al f =>
      After (U.fromLocale s) .iconvFail fun t => Registered D U (f ||| 1) (some t) al

/-- A call with the output parameter `out` has returned `rc` and left `o` there; the heap was `h`
and is `h'`. -/
inductive Ended (out : Option Cell) (h h' : Heap) : Ans → Option Rc → Option Cell → Prop
  | error (e : Rc) : h'.live = h.live → Ended out h h' (.error e) (some e) out
  /-- Nowhere to store the result. -/
  | noOutput (n : List Nat) : out = none → h'.live = h.live → Ended out h h' (.ok n) none none
  /-- The result is in a new block. -/
  | stored (n : List Nat) (p : Nat) : out ≠ none → p ∉ h.live → h'.live = p :: h.live →
      Ended out h h' (.ok n) none (some (.buf p n))

end Spec
end Idn2
