import Verif.Basic

/-
Return code values and error strings; lib/idn2.h.in:273-304, lib/error.c.
-/

namespace Idn2

/-- Numeric value of the return codes; idn2.h.in:273-304 (IDN2_OK is 0). -/
def Rc.code : Rc → Int
  | .malloc => -100
  | .noCodeset => -101
  | .iconvFail => -102
  | .encodingError => -200
  | .nfc => -201
  | .punycodeBadInput => -202
  | .punycodeBigOutput => -203
  | .punycodeOverflow => -204
  | .tooBigDomain => -205
  | .tooBigLabel => -206
  | .invalidAlabel => -207
  | .ualabelMismatch => -208
  | .invalidFlags => -209
  | .notNfc => -300
  | .twoHyphen => -301
  | .hyphenStartEnd => -302
  | .leadingCombining => -303
  | .disallowed => -304
  | .contextj => -305
  | .contextjNoRule => -306
  | .contexto => -307
  | .contextoNoRule => -308
  | .unassigned => -309
  | .bidi => -310
  | .dotInLabel => -311
  | .invalidTransitional => -312
  | .invalidNontransitional => -313
  | .alabelRoundtripFailed => -314

/-- Numeric value of a return code; `none` is IDN2_OK; idn2.h.in:273-304. -/
def rcCode : Option Rc → Int
  | none => 0
  | some e => e.code

/-- The enumerators of `idn2_rc` with their values; idn2.h.in:273-304. -/
def idn2_rc : List (String × Int) :=
  [("IDN2_OK", 0),
   ("IDN2_MALLOC", -100),
   ("IDN2_NO_CODESET", -101),
   ("IDN2_ICONV_FAIL", -102),
   ("IDN2_ENCODING_ERROR", -200),
   ("IDN2_NFC", -201),
   ("IDN2_PUNYCODE_BAD_INPUT", -202),
   ("IDN2_PUNYCODE_BIG_OUTPUT", -203),
   ("IDN2_PUNYCODE_OVERFLOW", -204),
   ("IDN2_TOO_BIG_DOMAIN", -205),
   ("IDN2_TOO_BIG_LABEL", -206),
   ("IDN2_INVALID_ALABEL", -207),
   ("IDN2_UALABEL_MISMATCH", -208),
   ("IDN2_INVALID_FLAGS", -209),
   ("IDN2_NOT_NFC", -300),
   ("IDN2_2HYPHEN", -301),
   ("IDN2_HYPHEN_STARTEND", -302),
   ("IDN2_LEADING_COMBINING", -303),
   ("IDN2_DISALLOWED", -304),
   ("IDN2_CONTEXTJ", -305),
   ("IDN2_CONTEXTJ_NO_RULE", -306),
   ("IDN2_CONTEXTO", -307),
   ("IDN2_CONTEXTO_NO_RULE", -308),
   ("IDN2_UNASSIGNED", -309),
   ("IDN2_BIDI", -310),
   ("IDN2_DOT_IN_LABEL", -311),
   ("IDN2_INVALID_TRANSITIONAL", -312),
   ("IDN2_INVALID_NONTRANSITIONAL", -313),
   ("IDN2_ALABEL_ROUNDTRIP_FAILED", -314)]

/-- The `switch` of `idn2_strerror`; error.c:50-112. -/
def strerrorCases : List (Int × String) :=
  [(0, "success"),
   (-100, "out of memory"),
   (-101, "could not determine locale encoding format"),
   (-102, "could not convert string to UTF-8"),
   (-200, "string encoding error"),
   (-201, "string could not be NFC normalized"),
   (-202, "string contains invalid punycode data"),
   (-203, "punycode encoded data will be too large"),
   (-204, "punycode conversion resulted in overflow"),
   (-205, "domain name longer than 255 characters"),
   (-206, "domain label longer than 63 characters"),
   (-207, "input A-label is not valid"),
   (-208, "input A-label and U-label does not match"),
   (-300, "string is not in Unicode NFC format"),
   (-301, "string contains forbidden two hyphens pattern"),
   (-302, "string start/ends with forbidden hyphen"),
   (-303, "string contains a forbidden leading combining character"),
   (-304, "string contains a disallowed character"),
   (-305, "string contains a forbidden context-j character"),
   (-306, "string contains a context-j character with null rule"),
   (-307, "string contains a forbidden context-o character"),
   (-308, "string contains a context-o character with null rule"),
   (-309, "string contains unassigned code point"),
   (-310, "string has forbidden bi-directional properties"),
   (-311, "domain label has forbidden dot (TR46)"),
   (-312, "domain label has character forbidden in transitional mode (TR46)"),
   (-313, "domain label has character forbidden in non-transitional mode (TR46)"),
   (-314, "A-label roundtrip failed")]

/-- `idn2_strerror`; error.c:45-115. -/
def idn2_strerror (rc : Int) : String := (strerrorCases.lookup rc).getD "Unknown error"

/-- The `switch` of `idn2_strerror_name`; error.c:135-196. -/
def strerrorNameCases : List (Int × String) :=
  [(0, "IDN2_OK"),
   (-100, "IDN2_MALLOC"),
   (-101, "IDN2_NO_NODESET"),
   (-102, "IDN2_ICONV_FAIL"),
   (-200, "IDN2_ENCODING_ERROR"),
   (-201, "IDN2_NFC"),
   (-202, "IDN2_PUNYCODE_BAD_INPUT"),
   (-203, "IDN2_PUNYCODE_BIG_OUTPUT"),
   (-204, "IDN2_PUNYCODE_OVERFLOW"),
   (-205, "IDN2_TOO_BIG_DOMAIN"),
   (-206, "IDN2_TOO_BIG_LABEL"),
   (-207, "IDN2_INVALID_ALABEL"),
   (-208, "IDN2_UALABEL_MISMATCH"),
   (-209, "IDN2_INVALID_FLAGS"),
   (-300, "IDN2_NOT_NFC"),
   (-301, "IDN2_2HYPHEN"),
   (-302, "IDN2_HYPHEN_STARTEND"),
   (-303, "IDN2_LEADING_COMBINING"),
   (-304, "IDN2_DISALLOWED"),
   (-305, "IDN2_CONTEXTJ"),
   (-306, "IDN2_CONTEXTJ_NO_RULE"),
   (-307, "IDN2_CONTEXTO"),
   (-308, "IDN2_CONTEXTO_NO_RULE"),
   (-309, "IDN2_UNASSIGNED"),
   (-310, "IDN2_BIDI"),
   (-311, "IDN2_DOT_IN_LABEL"),
   (-312, "IDN2_INVALID_TRANSITIONAL"),
   (-313, "IDN2_INVALID_NONTRANSITIONAL"),
   (-314, "IDN2_ALABEL_ROUNDTRIP_FAILED")]

/-- `idn2_strerror_name`; error.c:131-198. -/
def idn2_strerror_name (rc : Int) : String := (strerrorNameCases.lookup rc).getD "IDN2_UNKNOWN"

end Idn2
