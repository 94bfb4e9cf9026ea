import Verif.Spec.Extension
import Verif.Spec.Utf8

/-
RFC 5891, section 4 (Registration Protocol) and section 5 (Domain Name Lookup Protocol),
transcribed from the standard.  `D` is the table of RFC 5892, `U` the normaliser.
-/

namespace Idn2.Spec.Rfc5891

/-- Sections 4.4 and 5.5: the A-label of `v`. -/
def aLabel (v : List Nat) : List Nat := xn ++ Punycode.encode v

/-- Sections 4.2.3.4 and 5.4: labels with right-to-left characters keep the Bidi rule of
RFC 5893. -/
def BidiOk (U : Uni) (v : List Nat) : Prop := hasRtl U v → BidiRule U v

/-- Section 4.2: a string of which the A-label may be registered. -/
structure ULabel (D : Data) (U : Uni) (v : List Nat) : Prop where
  /-- 4.1: Unicode, in NFC -/
  scalar : ∀ c ∈ v, isScalar c
  nfc : U.nfc v = some v
  /-- 4.2.2: no code point that is DISALLOWED or UNASSIGNED -/
  disallowed : ∀ c ∈ v, D.prop c ≠ .disallowed
  unassigned : ∀ c ∈ v, D.prop c ≠ .unassigned
  /-- 4.2.3.1 -/
  hyphens : ¬ (v[2]? = some 0x2D ∧ v[3]? = some 0x2D)
  first : v.head? ≠ some 0x2D
  last : v.getLast? ≠ some 0x2D
  /-- 4.2.3.2 -/
  mark : ∀ c, v.head? = some c → U.isM c = false
  /-- 4.2.3.3: there is a contextual rule and the label keeps it -/
  contextj : ∀ pos c, v[pos]? = some c → D.prop c = .contextj → ContextJ U v pos c
  contexto : ∀ pos c, v[pos]? = some c → D.prop c = .contexto → ContextO U v pos c
  /-- 4.2.3.4 -/
  bidi : BidiOk U v
  /-- 4.2.4: not ASCII only, and the limit of the DNS -/
  nonascii : ∃ c ∈ v, 0x80 ≤ c
  length : (aLabel v).length ≤ 63

/-- Sections 4.1 and 4.2.1: a registration may be requested with a U-label, with an A-label, or
with both. -/
inductive Submission
  | ulabel (v : List Nat)
  | alabel (a : List Nat)
  | both (v a : List Nat)

/-- The arguments of `idn2_register_u8` for it. -/
def Submission.args : Submission → Option (List Nat) × Option (List Nat)
  | .ulabel v => (some (utf8s v), none)
  | .alabel a => (none, some a)
  | .both v a => (some (utf8s v), some a)

/-- Section 4: the request is granted, and the label is registered. -/
inductive Grants (D : Data) (U : Uni) : Submission → List Nat → Prop
  | ulabel (v : List Nat) : ULabel D U v → Grants D U (.ulabel v) (aLabel v)
  /-- 4.2.1: the A-label must be the one that 4.4 produces of the U-label it stands for, ... -/
  | alabel (a v : List Nat) : a = aLabel v → ULabel D U v → Grants D U (.alabel a) a
  /-- ... which must be the U-label given beside it. -/
  | both (v a : List Nat) : a = aLabel v → ULabel D U v → Grants D U (.both v a) a

/-- Section 5.4: the tests that a label MUST pass to be looked up. -/
structure Must (D : Data) (U : Uni) (v : List Nat) : Prop where
  nfc : U.nfc v = some v
  hyphens : ¬ (v[2]? = some 0x2D ∧ v[3]? = some 0x2D)
  mark : ∀ c, v.head? = some c → U.isM c = false
  disallowed : ∀ c ∈ v, D.prop c ≠ .disallowed
  contextj : ∀ pos c, v[pos]? = some c → D.prop c = .contextj → ContextJ U v pos c
  /-- of CONTEXTO only that there is a rule -/
  contexto : ∀ c ∈ v, D.prop c = .contexto → hasContextO c
  unassigned : ∀ c ∈ v, D.prop c ≠ .unassigned

/-- Sections 5.3 to 5.5: the label `l` is looked up as `d`; `v` is the U-label the tests have been
applied to, if any.  Which A-labels are converted is up to the application. -/
inductive LooksUp (D : Data) (U : Uni) (convert : List Nat → Prop) (l : List Nat) :
    List Nat → Option (List Nat) → Prop
  /-- not the business of this protocol -/
  | ldh : (∀ c ∈ l, c < 0x80) → ¬ XnPrefix l → LooksUp D U convert l l none
  | unconverted : (∀ c ∈ l, c < 0x80) → XnPrefix l → ¬ convert l → LooksUp D U convert l l none
  /-- 5.3: converted to lower case, then to a U-label; what comes out of 5.5 must be the
  original. -/
  | converted (v : List Nat) : convert l → l.map asciiLower = aLabel v → (∃ c ∈ v, 0x80 ≤ c) →
      (∀ c ∈ v, isScalar c) → Must D U v → LooksUp D U convert l (aLabel v) (some v)
  | ulabel : (∃ c ∈ l, 0x80 ≤ c) → Must D U l → LooksUp D U convert l (aLabel l) (some l)

/-- The name `u` is looked up as `n`; `xs` are what becomes of the labels, and the U-labels
tested. -/
def LookupName (D : Data) (U : Uni) (convert : List Nat → Prop) (u n : List Nat)
    (xs : List (List Nat × Option (List Nat))) : Prop :=
  Each (fun l x => LooksUp D U convert l x.1 x.2) (splitDot u) xs ∧ n = joinDot (xs.map Prod.fst)

/-- Section 5.4: the test that SHOULD be applied in addition. -/
def Should (U : Uni) (xs : List (List Nat × Option (List Nat))) : Prop :=
  ∀ x ∈ xs, ∀ v, x.2 = some v → BidiOk U v

/-- The limits of the DNS, with or without the empty label of the root. -/
def DnsLimits (ds : List (List Nat)) : Prop :=
  (∀ d ∈ ds, d.length ≤ 63) ∧
    (joinDot ds).length ≤ if ds.getLast? = some [] then 254 else 253

/-- The A-labels that lookup converts: those with "xn--" in lower case, unless
NO_ALABEL_ROUNDTRIP (bit 7) is given. -/
def Converts (flags : Nat) (l : List Nat) : Prop := flags.testBit 7 = false ∧ xn <+: l

/-- No capital letter before a hyphen, that is, none among the literal characters of an
A-label. -/
def NoCapitals (l : List Nat) : Prop :=
  ∀ a b, l = a ++ 0x2D :: b → ∀ c ∈ a, ¬ (0x41 ≤ c ∧ c ≤ 0x5A)

/-- Labels for which the Bidi check of the library is the Bidi rule. -/
def PlainBidi (U : Uni) (v : List Nat) : Prop :=
  ¬ ((∃ x ∈ v, U.bidi x = .EN) ∧ (∃ x ∈ v, U.bidi x = .AN)) ∧
    ∀ c, v.getLast? = some c → U.bidi c ≠ .NSM

end Idn2.Spec.Rfc5891
