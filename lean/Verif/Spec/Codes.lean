import Verif.Spec.Label

/-
The return codes of the functions.
-/

namespace Idn2.Spec

/-- Every code point that needs a contextual rule has one. -/
structure Ruled (D : Data) : Prop where
  contextj : ∀ c, D.prop c = .contextj → c = 0x200C ∨ c = 0x200D
  contexto : ∀ c, D.prop c = .contexto → hasContextO c

/-- The errors of the Punycode coders. -/
def punyCodes : List Rc := [.punycodeBadInput, .punycodeBigOutput, .punycodeOverflow]

/-- The errors of the tests common to lookup and registration. -/
def testCodes : List Rc :=
  [.nfc, .notNfc, .twoHyphen, .hyphenStartEnd, .leadingCombining, .disallowed, .contextj, .unassigned,
    .bidi]

/-- The errors of lookup when memory suffices. -/
def lookupCodes : List Rc :=
  testCodes ++ punyCodes ++ [.invalidFlags, .encodingError, .tooBigDomain, .tooBigLabel,
    .invalidTransitional, .invalidNontransitional, .alabelRoundtripFailed]

/-- The errors of registration when memory suffices. -/
def registerCodes : List Rc :=
  testCodes ++ punyCodes ++ [.contexto, .encodingError, .tooBigLabel, .invalidAlabel,
    .ualabelMismatch]

/-- The errors to-unicode is documented to return, when memory suffices; decode.c:51-59,172-179. -/
def toUnicodeDocumented : List Rc := [.tooBigDomain, .tooBigLabel, .encodingError]

end Idn2.Spec
