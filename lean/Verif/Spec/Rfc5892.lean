import Verif.Spec.Label

/-
RFC 5892: the classes of code points that the text of the document itself settles, without the
Unicode database.  The sections are those of the RFC.
-/

namespace Idn2.Spec

/-- Section 2.6, Exceptions, the code points that are PVALID. -/
def exceptionsValid : List (Nat × Nat) :=
  [(0xDF, 0xDF), (0x3C2, 0x3C2), (0x6FD, 0x6FE), (0xF0B, 0xF0B), (0x3007, 0x3007)]

/-- Section 2.6, Exceptions, the code points that are CONTEXTO. -/
def exceptionsContextO : List (Nat × Nat) :=
  [(0xB7, 0xB7), (0x375, 0x375), (0x5F3, 0x5F4), (0x660, 0x669), (0x6F0, 0x6F9), (0x30FB, 0x30FB)]

/-- Section 2.6, Exceptions, the code points that are DISALLOWED. -/
def exceptionsDisallowed : List (Nat × Nat) :=
  [(0x640, 0x640), (0x7FA, 0x7FA), (0x302E, 0x302F), (0x3031, 0x3035), (0x303B, 0x303B)]

/-- Section 2.8, JoinControl. -/
def joinControl : List (Nat × Nat) := [(0x200C, 0x200D)]

/-- Section 2.5, LDH. -/
def ldh : List (Nat × Nat) := [(0x2D, 0x2D), (0x30, 0x39), (0x61, 0x7A)]

/-- The rest of ASCII. -/
def asciiRest : List (Nat × Nat) := [(0, 0x2C), (0x2E, 0x2F), (0x3A, 0x60), (0x7B, 0x7F)]

/-- Section 2.9, OldHangulJamo (the assigned conjoining Jamo). -/
def oldHangulJamo : List (Nat × Nat) :=
  [(0x1100, 0x11FF), (0xA960, 0xA97C), (0xD7B0, 0xD7C6), (0xD7CB, 0xD7FB)]

/-- Section 2.3, IgnorableProperties, the noncharacters. -/
def noncharacters : List (Nat × Nat) :=
  (0xFDD0, 0xFDEF) :: (List.range 17).map fun k => (0x10000 * k + 0xFFFE, 0x10000 * k + 0xFFFF)

/-- Surrogates and private use, which no section allows. -/
def surrogatesPrivate : List (Nat × Nat) :=
  [(0xD800, 0xDFFF), (0xE000, 0xF8FF), (0xF0000, 0xFFFFD), (0x100000, 0x10FFFD)]

/-- Section 2.4, IgnorableBlocks: Combining Diacritical Marks for Symbols, Musical Symbols, Ancient
Greek Musical Notation. -/
def ignorableBlocks : List (Nat × Nat) := [(0x20D0, 0x20FF), (0x1D100, 0x1D1FF), (0x1D200, 0x1D24F)]

/-- `c` is in one of the ranges. -/
def InRanges (rs : List (Nat × Nat)) (c : Nat) : Prop := ∃ r ∈ rs, r.1 ≤ c ∧ c ≤ r.2

instance (rs : List (Nat × Nat)) (c : Nat) : Decidable (InRanges rs c) := by
  unfold InRanges; infer_instance

/-- What the document says without the Unicode database: the class of `c`. -/
inductive Settled : Nat → IdnaProp → Prop
  | valid {c : Nat} : InRanges exceptionsValid c → Settled c .pvalid
  | contexto {c : Nat} : InRanges exceptionsContextO c → Settled c .contexto
  | disallowed {c : Nat} : InRanges exceptionsDisallowed c → Settled c .disallowed
  | ldh {c : Nat} : InRanges ldh c → Settled c .pvalid
  | ascii {c : Nat} : InRanges asciiRest c → Settled c .disallowed
  | join {c : Nat} : InRanges joinControl c → Settled c .contextj
  | jamo {c : Nat} : InRanges oldHangulJamo c → Settled c .disallowed
  | nonchar {c : Nat} : InRanges noncharacters c → Settled c .disallowed
  | surrogate {c : Nat} : InRanges surrogatesPrivate c → Settled c .disallowed

/-- Code points that may be in no label, whatever the version of Unicode. -/
def Barred (c : Nat) : Prop := Settled c .disallowed ∨ InRanges ignorableBlocks c

end Idn2.Spec
