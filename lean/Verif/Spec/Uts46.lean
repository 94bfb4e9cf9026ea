import Verif.Spec.ToAscii
import Verif.Spec.Extension
import Verif.Spec.BidiName
import Verif.Spec.Std3

/-
UTS #46, section 4 (Processing) and section 4.2 (ToASCII), transcribed from the standard, with
CheckHyphens, CheckBidi, CheckJoiners and VerifyDnsLength on.  `transitional` and `std3` are
Transitional_Processing and UseSTD3ASCIIRules.
-/

namespace Idn2.Spec.Uts46

/-- Section 5: disallowed_STD3_valid and disallowed_STD3_mapped are read as disallowed if
UseSTD3ASCIIRules, otherwise as valid and mapped. -/
def status (D : Data) (std3 : Bool) (c : Nat) : Status :=
  match D.status c with
  | .std3Valid => if std3 then .disallowed else .valid
  | .std3Mapped => if std3 then .disallowed else .mapped
  | s => s

/-- Section 4, step 1. -/
def mapOne (D : Data) (transitional std3 : Bool) (c : Nat) : List Nat :=
  match status D std3 c with
  | .mapped => D.mapping c
  | .ignored => []
  | .deviation => if transitional then D.mapping c else [c]
  | _ => [c]

/-- Section 4.1, without the criterion on bidirectional text, which is about the whole name. -/
structure Valid (D : Data) (U : Uni) (transitional std3 : Bool) (l : List Nat) : Prop where
  nfc : U.nfc l = some l
  hyphens : ¬ (l[2]? = some 0x2D ∧ l[3]? = some 0x2D)
  edges : NoEdgeHyphen l
  dot : 0x2E ∉ l
  mark : ∀ c, l.head? = some c → U.isM c = false
  chars : ∀ c ∈ l, status D std3 c = .valid ∨
    (transitional = false ∧ status D std3 c = .deviation)
  joiners : ∀ pos c, l[pos]? = some c → c = 0x200C ∨ c = 0x200D → ContextJ U l pos c

/-- RFC 3492: `t` is a Punycode form of `v`, the basic code points literally, the digits in any
case.  Texts that encode ASCII only, or nothing, are no Punycode here: later revisions of UTS #46
and RFC 5890 exclude them. -/
structure Punycodes (t v : List Nat) : Prop where
  scalar : ∀ c ∈ v, isScalar c
  nonascii : ∃ c ∈ v, 0x80 ≤ c
  head : Punycode.headPart v <+: t
  digits : t.map asciiLower = (Punycode.encode v).map asciiLower

/-- Section 4, step 4. -/
inductive Converted (D : Data) (U : Uni) (transitional std3 : Bool) (l : List Nat) :
    List Nat → Prop
  | alabel (t v : List Nat) : l = xn ++ t → Punycodes t v → Valid D U false std3 v →
      Converted D U transitional std3 l v
  | ulabel : ¬ xn <+: l → Valid D U transitional std3 l → Converted D U transitional std3 l l

/-- Section 4: the labels `vs` are the result of processing `u`, without errors. -/
structure Processing (D : Data) (U : Uni) (transitional std3 : Bool) (u : List Nat)
    (vs : List (List Nat)) : Prop where
  allowed : ∀ c ∈ u, status D std3 c ≠ .disallowed
  labels : ∃ x, U.nfc (u.flatMap (mapOne D transitional std3)) = some x ∧
    Each (Converted D U transitional std3) (splitDot x) vs
  bidi : BidiNameRule U vs

/-- Section 4.2, step 3. -/
def ace (v : List Nat) : List Nat :=
  if ∀ c ∈ v, c < 0x80 then v else xn ++ Punycode.encode v

/-- The labels but the empty one for the root. -/
def noRoot (ds : List (List Nat)) : List (List Nat) :=
  if ds.getLast? = some [] then ds.dropLast else ds

/-- Section 4.2, step 4. -/
structure DnsLength (ds : List (List Nat)) : Prop where
  label : ∀ d ∈ noRoot ds, 1 ≤ d.length ∧ d.length ≤ 63
  name : 1 ≤ (joinDot (noRoot ds)).length ∧ (joinDot (noRoot ds)).length ≤ 253

/-- Section 4.2: ToASCII of `u` is `n`; `vs` are the labels in Unicode. -/
structure ToASCII (D : Data) (U : Uni) (transitional std3 : Bool) (u : List Nat)
    (vs : List (List Nat)) (n : List Nat) : Prop where
  processing : Processing D U transitional std3 u vs
  result : n = joinDot (vs.map ace)
  length : DnsLength (vs.map ace)

/-- Section 4.3: ToUnicode of `u` is `v`, without errors. -/
def ToUnicode (D : Data) (U : Uni) (std3 : Bool) (u v : List Nat) : Prop :=
  ∃ vs, Processing D U false std3 u vs ∧ v = joinDot vs

/-- There is nothing to map and to normalise in `u`. -/
def Mapped (D : Data) (U : Uni) (std3 : Bool) (u : List Nat) : Prop :=
  U.nfc (u.flatMap (mapOne D false std3)) = some u

/-- The A-labels of `u` have the form of host names: letters, digits and hyphens (also
underscores), at most 63. -/
def HostALabels (u : List Nat) : Prop :=
  ∀ l ∈ splitDot u, xn <+: l → l.length ≤ 63 ∧ ∀ c ∈ l, isLDHU c

/-- What IDNA2008 demands in addition of the code points of a label that is not ASCII: PVALID, or
CONTEXTJ or CONTEXTO; without STD3 rules also DISALLOWED characters that are valid then, but of
the ASCII characters the underscore only. -/
def Permitted (D : Data) (std3 : Bool) (c : Nat) : Prop :=
  Idna2008 D c ∨ (std3 = false ∧ D.prop c = .disallowed ∧ D.status c = .std3Valid ∧
    (c < 0x80 → isLDHU c))

/-- The additional demand of the library on the labels: nothing but letters, digits, hyphens and
underscores as ASCII characters in transitional processing, otherwise `Permitted`. -/
def Extra (D : Data) (transitional std3 : Bool) (vs : List (List Nat)) : Prop :=
  ∀ v ∈ vs, (∃ c ∈ v, 0x80 ≤ c) → ∀ c ∈ v,
    if transitional then c < 0x80 → isLDHU c else Permitted D std3 c

/-- The label `l` stands for `v`. -/
inductive LabelNames (l : List Nat) : List Nat → Prop
  | alabel (t v : List Nat) : l = xn ++ t → Punycodes t v → LabelNames l v
  | ulabel : ¬ xn <+: l → LabelNames l l

/-- The labels that the name `u` stands for, valid or not. -/
def Names (D : Data) (U : Uni) (transitional std3 : Bool) (u : List Nat) (vs : List (List Nat)) :
    Prop :=
  ∃ x, U.nfc (u.flatMap (mapOne D transitional std3)) = some x ∧ Each LabelNames (splitDot x) vs

/-- The side conditions under which lookup does not accept more than UTS #46, on the labels that
the name stands for. -/
structure Side (D : Data) (U : Uni) (transitional std3 : Bool) (vs : List (List Nat)) :
    Prop where
  /-- no empty label but the one for the root, and not the root alone -/
  labels : noRoot vs ≠ [] ∧ ∀ v ∈ noRoot vs, v ≠ []
  /-- the Bidi rule for whole names -/
  bidi : BidiNameRule U vs
  /-- without STD3 rules, no character in the output that should have been mapped -/
  mapped : std3 = false → ∀ v ∈ vs, ∀ c ∈ v, D.status c ≠ .std3Mapped
  /-- in transitional processing, the contextual rules of the joiners -/
  joiners : transitional = true → ∀ v ∈ vs, ∀ pos c, v[pos]? = some c → c = 0x200C ∨ c = 0x200D →
    ContextJ U v pos c

end Idn2.Spec.Uts46
