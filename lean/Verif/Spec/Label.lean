import Verif.Model.Env
import Verif.Spec.Tables

/-
Declarative versions of the label conditions: RFC 5893 (Bidi), RFC 5892 appendix A
(contextual rules), RFC 5891 / UTS #46 label validity.  Nothing here refers to the
algorithms of the library.
-/

namespace Idn2.Spec

/-! ### RFC 5893, section 2 -/

/-- The label holds a character of class R, AL or AN. -/
def hasRtl (U : Uni) (label : List Nat) : Prop :=
  ∃ c ∈ label, U.bidi c = .R ∨ U.bidi c = .AL ∨ U.bidi c = .AN

/-- Rule 2: the classes allowed in an RTL label. -/
def rtlClass (b : Bidi) : Prop :=
  b = .R ∨ b = .AL ∨ b = .AN ∨ b = .EN ∨ b = .ES ∨ b = .CS ∨ b = .ET ∨ b = .ON ∨ b = .BN ∨ b = .NSM

/-- Rule 5: the classes allowed in an LTR label. -/
def ltrClass (b : Bidi) : Prop :=
  b = .L ∨ b = .EN ∨ b = .ES ∨ b = .CS ∨ b = .ET ∨ b = .ON ∨ b = .BN ∨ b = .NSM

/-- Rules 3 and 6: the label ends with a character satisfying `P` followed by zero or more
NSM characters. -/
def endsWith (U : Uni) (P : Bidi → Prop) (label : List Nat) : Prop :=
  ∃ pre c nsm, label = pre ++ c :: nsm ∧ P (U.bidi c) ∧ ∀ x ∈ nsm, U.bidi x = .NSM

/-- The Bidi rule (rules 1 to 6) of RFC 5893 for one label. -/
def BidiRule (U : Uni) (label : List Nat) : Prop :=
  ∃ c r, label = c :: r ∧
    (((U.bidi c = .R ∨ U.bidi c = .AL) ∧
      (∀ x ∈ label, rtlClass (U.bidi x)) ∧
      endsWith U (fun b => b = .R ∨ b = .AL ∨ b = .EN ∨ b = .AN) label ∧
      ¬ ((∃ x ∈ label, U.bidi x = .EN) ∧ (∃ x ∈ label, U.bidi x = .AN))) ∨
     (U.bidi c = .L ∧
      (∀ x ∈ label, ltrClass (U.bidi x)) ∧
      endsWith U (fun b => b = .L ∨ b = .EN) label))

/-! ### RFC 5892, appendix A.1 and A.2 -/

/-- The code point before position `pos` is a virama. -/
def viramaBefore (U : Uni) (label : List Nat) (pos : Nat) : Prop :=
  ∃ c, 0 < pos ∧ label[pos - 1]? = some c ∧ U.ccc c = 9

/-- `(Joining_Type:{L,D})(Joining_Type:T)*` just before `pos`. -/
def joinsBefore (U : Uni) (label : List Nat) (pos : Nat) : Prop :=
  ∃ i c, i < pos ∧ label[i]? = some c ∧ (U.joining c = .L ∨ U.joining c = .D) ∧
    ∀ k x, i < k → k < pos → label[k]? = some x → U.joining x = .T

/-- `(Joining_Type:T)*(Joining_Type:{R,D})` just after `pos`. -/
def joinsAfter (U : Uni) (label : List Nat) (pos : Nat) : Prop :=
  ∃ j c, pos < j ∧ label[j]? = some c ∧ (U.joining c = .R ∨ U.joining c = .D) ∧
    ∀ k x, pos < k → k < j → label[k]? = some x → U.joining x = .T

/-- Appendix A.1, A.2: ZWNJ and ZWJ. -/
def ContextJ (U : Uni) (label : List Nat) (pos : Nat) (cp : Nat) : Prop :=
  (cp = 0x200C ∧ (viramaBefore U label pos ∨ (joinsBefore U label pos ∧ joinsAfter U label pos))) ∨
  (cp = 0x200D ∧ viramaBefore U label pos)

/-! ### RFC 5892, appendix A.3 to A.9 -/

def ContextO (U : Uni) (label : List Nat) (pos : Nat) (cp : Nat) : Prop :=
  -- A.3 MIDDLE DOT
  (cp = 0xB7 ∧ 0 < pos ∧ label[pos - 1]? = some 0x6C ∧ label[pos + 1]? = some 0x6C) ∨
  -- A.4 GREEK LOWER NUMERAL SIGN
  (cp = 0x375 ∧ ∃ c, label[pos + 1]? = some c ∧ U.script c = .greek) ∨
  -- A.5, A.6 HEBREW PUNCTUATION GERESH, GERSHAYIM
  ((cp = 0x5F3 ∨ cp = 0x5F4) ∧ 0 < pos ∧ ∃ c, label[pos - 1]? = some c ∧ U.script c = .hebrew) ∨
  -- A.7 KATAKANA MIDDLE DOT
  (cp = 0x30FB ∧ ∃ c ∈ label, U.script c = .hiragana ∨ U.script c = .katakana ∨ U.script c = .han) ∨
  -- A.8 ARABIC-INDIC DIGITS
  (0x660 ≤ cp ∧ cp ≤ 0x669 ∧ ∀ c ∈ label, ¬ (0x6F0 ≤ c ∧ c ≤ 0x6F9)) ∨
  -- A.9 EXTENDED ARABIC-INDIC DIGITS
  (0x6F0 ≤ cp ∧ cp ≤ 0x6F9 ∧ ∀ c ∈ label, ¬ (0x660 ≤ c ∧ c ≤ 0x669))

/-- The code points for which appendix A.3-A.9 has a rule. -/
def hasContextO (cp : Nat) : Prop :=
  cp = 0xB7 ∨ cp = 0x375 ∨ cp = 0x5F3 ∨ cp = 0x5F4 ∨ cp = 0x30FB ∨ (0x660 ≤ cp ∧ cp ≤ 0x669) ∨
    (0x6F0 ≤ cp ∧ cp ≤ 0x6F9)

/-! ### Label validity -/

/-- The labels the library's Bidi check lets through: a label without right-to-left
characters, or one that starts with R or AL, has only the classes of rule 2, and whose last
character is of class R, AL, EN, AN or NSM. -/
def BidiAccepted (U : Uni) (label : List Nat) : Prop :=
  hasRtl U label →
    (∃ c, label.head? = some c ∧ (U.bidi c = .R ∨ U.bidi c = .AL)) ∧
    (∀ x ∈ label, rtlClass (U.bidi x)) ∧
    (∃ c, label.getLast? = some c ∧ (U.bidi c = .R ∨ U.bidi c = .AL ∨ U.bidi c = .EN ∨
      U.bidi c = .AN ∨ U.bidi c = .NSM))

/-- UTS #46 validity of one code point: valid; a deviation in nontransitional processing;
one of the two STD3 statuses when STD3 rules are not in use. -/
def Tr46Valid (D : Data) (transitional allowStd3 : Bool) (c : Nat) : Prop :=
  D.status c = .valid ∨ (transitional = false ∧ D.status c = .deviation) ∨
    (allowStd3 = true ∧ (D.status c = .std3Valid ∨ D.status c = .std3Mapped))

/-- `Fault D U what label e`: the condition named by the error code `e` is one of those
selected by `what` (bit numbers as in idna.h), and `label` violates it. -/
inductive Fault (D : Data) (U : Uni) (what : Nat) (label : List Nat) : Rc → Prop
  /-- normalisation is impossible -/
  | nfc : what.testBit 0 = true → U.nfc label = none → Fault D U what label .nfc
  /-- normalisation changes the label -/
  | notNfc (t : List Nat) : what.testBit 0 = true → U.nfc label = some t → t ≠ label →
      Fault D U what label .notNfc
  /-- hyphens in the third and fourth position -/
  | twoHyphen : what.testBit 1 = true → label[2]? = some 0x2D → label[3]? = some 0x2D →
      Fault D U what label .twoHyphen
  /-- a hyphen at the start or the end -/
  | hyphenStartEnd : what.testBit 2 = true →
      label.head? = some 0x2D ∨ label.getLast? = some 0x2D → Fault D U what label .hyphenStartEnd
  /-- a combining mark at the start -/
  | leadingCombining (c : Nat) : what.testBit 3 = true → label.head? = some c → U.isM c = true →
      Fault D U what label .leadingCombining
  /-- a DISALLOWED code point; in UTS #46 mode with STD3 rules off those with an STD3 status are
  let through -/
  | disallowed (c : Nat) : what.testBit 4 = true → c ∈ label → D.prop c = .disallowed →
      ¬ ((what.testBit 12 = true ∨ what.testBit 13 = true) ∧ what.testBit 14 = true ∧
        (D.status c = .std3Valid ∨ D.status c = .std3Mapped)) → Fault D U what label .disallowed
  /-- a CONTEXTJ code point at all -/
  | contextjAny (c : Nat) : what.testBit 5 = true → c ∈ label → D.prop c = .contextj →
      Fault D U what label .contextj
  /-- a CONTEXTJ code point whose rule is not satisfied -/
  | contextj (pos c : Nat) : what.testBit 6 = true → label[pos]? = some c → D.prop c = .contextj →
      (c = 0x200C ∨ c = 0x200D) → ¬ ContextJ U label pos c → Fault D U what label .contextj
  /-- a CONTEXTJ code point without rule -/
  | contextjNoRule (c : Nat) : what.testBit 6 = true → c ∈ label → D.prop c = .contextj →
      c ≠ 0x200C → c ≠ 0x200D → Fault D U what label .contextjNoRule
  /-- a CONTEXTO code point at all -/
  | contextoAny (c : Nat) : what.testBit 7 = true → c ∈ label → D.prop c = .contexto →
      Fault D U what label .contexto
  /-- a CONTEXTO code point without rule -/
  | contextoNoRule (c : Nat) : (what.testBit 8 = true ∨ what.testBit 9 = true) → c ∈ label →
      D.prop c = .contexto → ¬ hasContextO c → Fault D U what label .contextoNoRule
  /-- a CONTEXTO code point whose rule is not satisfied -/
  | contexto (pos c : Nat) : what.testBit 9 = true → label[pos]? = some c →
      D.prop c = .contexto → hasContextO c → ¬ ContextO U label pos c →
      Fault D U what label .contexto
  /-- an UNASSIGNED code point -/
  | unassigned (c : Nat) : what.testBit 10 = true → c ∈ label → D.prop c = .unassigned →
      Fault D U what label .unassigned
  /-- the Bidi check -/
  | bidi : what.testBit 11 = true → ¬ BidiAccepted U label → Fault D U what label .bidi
  /-- a full stop (UTS #46 mode) -/
  | dotInLabel : (what.testBit 12 = true ∨ what.testBit 13 = true) → 0x2E ∈ label →
      Fault D U what label .dotInLabel
  /-- a code point that is not valid in transitional processing -/
  | invalidTransitional (c : Nat) : what.testBit 12 = true → c ∈ label →
      ¬ Tr46Valid D true (what.testBit 14) c → Fault D U what label .invalidTransitional
  /-- a code point that is not valid in nontransitional processing -/
  | invalidNontransitional (c : Nat) : what.testBit 12 = false → what.testBit 13 = true →
      c ∈ label → ¬ Tr46Valid D false (what.testBit 14) c →
      Fault D U what label .invalidNontransitional

/-- The order in which the conditions of `Fault` are examined: the normal form first, the hyphen
and combining mark rules, then code point classes, contextual rules, the Bidi rule and at last
UTS #46 validity.  The two codes of a contextual rule (violated, no such rule) have the same
rank. -/
def faultRank : Rc → Nat
  | .nfc => 0
  | .notNfc => 0
  | .twoHyphen => 1
  | .hyphenStartEnd => 2
  | .leadingCombining => 3
  | .disallowed => 4
  | .contextj => 5
  | .contextjNoRule => 5
  | .contexto => 6
  | .contextoNoRule => 6
  | .unassigned => 7
  | .bidi => 8
  | .dotInLabel => 9
  | .invalidTransitional => 10
  | .invalidNontransitional => 10
  | _ => 11

/-- Step `k` of the examination finds a fault at position `pos` (0 if the step is about the label
as a whole).  The steps with a loop look at one code point after the other. -/
inductive FaultAt (D : Data) (U : Uni) (what : Nat) (label : List Nat) : Nat → Nat → Rc → Prop
  | nfc : what.testBit 0 = true → U.nfc label = none → FaultAt D U what label 0 0 .nfc
  | notNfc (t : List Nat) : what.testBit 0 = true → U.nfc label = some t → t ≠ label →
      FaultAt D U what label 0 0 .notNfc
  | twoHyphen : what.testBit 1 = true → label[2]? = some 0x2D → label[3]? = some 0x2D →
      FaultAt D U what label 1 0 .twoHyphen
  | hyphenStartEnd : what.testBit 2 = true →
      label.head? = some 0x2D ∨ label.getLast? = some 0x2D →
      FaultAt D U what label 2 0 .hyphenStartEnd
  | leadingCombining (c : Nat) : what.testBit 3 = true → label.head? = some c → U.isM c = true →
      FaultAt D U what label 3 0 .leadingCombining
  | disallowed (pos c : Nat) : what.testBit 4 = true → label[pos]? = some c →
      D.prop c = .disallowed →
      ¬ ((what.testBit 12 = true ∨ what.testBit 13 = true) ∧ what.testBit 14 = true ∧
        (D.status c = .std3Valid ∨ D.status c = .std3Mapped)) →
      FaultAt D U what label 4 pos .disallowed
  | contextjAny (pos c : Nat) : what.testBit 5 = true → label[pos]? = some c →
      D.prop c = .contextj → FaultAt D U what label 5 pos .contextj
  | contextj (pos c : Nat) : what.testBit 6 = true → label[pos]? = some c → D.prop c = .contextj →
      (c = 0x200C ∨ c = 0x200D) → ¬ ContextJ U label pos c → FaultAt D U what label 6 pos .contextj
  | contextjNoRule (pos c : Nat) : what.testBit 6 = true → label[pos]? = some c →
      D.prop c = .contextj → c ≠ 0x200C → c ≠ 0x200D → FaultAt D U what label 6 pos .contextjNoRule
  | contextoAny (pos c : Nat) : what.testBit 7 = true → label[pos]? = some c →
      D.prop c = .contexto → FaultAt D U what label 7 pos .contexto
  | contextoWithout (pos c : Nat) : what.testBit 8 = true → label[pos]? = some c →
      D.prop c = .contexto → ¬ hasContextO c → FaultAt D U what label 8 pos .contextoNoRule
  | contextoNoRule (pos c : Nat) : what.testBit 9 = true → label[pos]? = some c →
      D.prop c = .contexto → ¬ hasContextO c → FaultAt D U what label 9 pos .contextoNoRule
  | contexto (pos c : Nat) : what.testBit 9 = true → label[pos]? = some c →
      D.prop c = .contexto → hasContextO c → ¬ ContextO U label pos c →
      FaultAt D U what label 9 pos .contexto
  | unassigned (pos c : Nat) : what.testBit 10 = true → label[pos]? = some c →
      D.prop c = .unassigned → FaultAt D U what label 10 pos .unassigned
  | bidi : what.testBit 11 = true → ¬ BidiAccepted U label → FaultAt D U what label 11 0 .bidi
  | dotInLabel (pos : Nat) : (what.testBit 12 = true ∨ what.testBit 13 = true) →
      label[pos]? = some 0x2E → FaultAt D U what label 12 pos .dotInLabel
  | invalidTransitional (pos c : Nat) : what.testBit 12 = true → label[pos]? = some c →
      ¬ Tr46Valid D true (what.testBit 14) c → FaultAt D U what label 13 pos .invalidTransitional
  | invalidNontransitional (pos c : Nat) : what.testBit 12 = false → what.testBit 13 = true →
      label[pos]? = some c → ¬ Tr46Valid D false (what.testBit 14) c →
      FaultAt D U what label 13 pos .invalidNontransitional

/-- The fault found first: of the first step that finds any, the one at the first position. -/
def FirstFault (D : Data) (U : Uni) (what : Nat) (label : List Nat) (e : Rc) : Prop :=
  ∃ k pos, FaultAt D U what label k pos e ∧ ∀ k' pos' e', FaultAt D U what label k' pos' e' →
    k < k' ∨ (k = k' ∧ pos ≤ pos')

end Idn2.Spec
