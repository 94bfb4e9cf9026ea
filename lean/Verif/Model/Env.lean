import Verif.Model.Mem
import Verif.Model.Utf8
import Verif.Model.Tables

/-
What the library takes from outside: its own tables and the Unicode functions of
libunistring.
-/

namespace Idn2

/-- Bidirectional classes (`UC_BIDI_*`); the classes the code never names are `other`;
bidi.c:47-108. -/
inductive Bidi where
  | L | R | AL | AN | EN | ES | CS | ET | ON | BN | NSM | other
  deriving DecidableEq, Repr

/-- Joining types (`UC_JOINING_TYPE_*`); context.c:74-93. -/
inductive Joining where
  | U | T | C | L | R | D
  deriving DecidableEq, Repr

/-- Scripts the code compares with; all other names (and a null script) are `other`;
context.c:113-125,151,162,213-215. -/
inductive Script where
  | greek | hebrew | hiragana | katakana | han | other
  deriving DecidableEq, Repr

/-- libunistring functions of which only the interface is known; the calls are
idna.c:69,105,141,170, bidi.c:45,65,71,97, context.c:56,74,87,105,118 and lookup.c:399. -/
structure Uni where
  /-- `u32_normalize (UNINORM_NFC, ...)`; `none` is an error other than ENOMEM. -/
  nfc : List Nat → Option (List Nat)
  /-- `uc_combining_class` -/
  ccc : Nat → Nat
  /-- `uc_bidi_category` -/
  bidi : Nat → Bidi
  /-- `uc_joining_type` -/
  joining : Nat → Joining
  /-- `uc_script` and its name -/
  script : Nat → Script
  /-- `uc_is_general_category (_, UC_CATEGORY_M)` -/
  isM : Nat → Bool
  /-- `u8_strconv_from_encoding (_, locale_charset (), iconveh_error)` -/
  fromLocale : List Nat → Option (List Nat)
  /-- `u8_strconv_to_encoding (_, locale_charset (), iconveh_error)` -/
  toLocale : List Nat → Option (List Nat)

/-- The environment of the library. (The tables and the libraries linked with lib/*.c) -/
structure Env where
  T : Tables
  U : Uni

end Idn2
