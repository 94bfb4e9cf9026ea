{
 "claims": [
  {
   "property": "C01",
   "status": "proved",
   "theorems": [
    "Idn2.C01_punycode_roundtrip"
   ],
   "note": "labels of more than 3855 code points may instead give a reported overflow"
  },
  {
   "property": "C02",
   "status": "proved",
   "theorems": [
    "Idn2.C02_punycode_decode_encode",
    "Idn2.C02_decode_injective",
    "Idn2.C02_underscore_alias"
   ],
   "note": ""
  },
  {
   "property": "C03",
   "status": "proved",
   "theorems": [
    "Idn2.C03_encode_safe",
    "Idn2.C03_decode_safe"
   ],
   "note": ""
  },
  {
   "property": "C04",
   "status": "proved",
   "theorems": [
    "Idn2.C04_encode_correct"
   ],
   "note": ""
  },
  {
   "property": "C05",
   "status": "proved",
   "theorems": [
    "Idn2.C05_decode_output"
   ],
   "note": ""
  },
  {
   "property": "C06",
   "status": "partial",
   "theorems": [
    "Idn2.C06_scalar_partial",
    "Idn2.C06_violated"
   ],
   "note": "Low surrogates DC00..DFFF can be produced (C06_violated); everything else is a scalar value."
  },
  {
   "property": "C07",
   "status": "proved",
   "theorems": [
    "Idn2.C07_lookup_limits"
   ],
   "note": "every string and flag word; labels <=63, whole <=253 or <=254 with a final dot"
  },
  {
   "property": "C08",
   "status": "proved",
   "theorems": [
    "Idn2.C08_lookup_ascii"
   ],
   "note": "every string and flag word"
  },
  {
   "property": "C09",
   "status": "proved",
   "theorems": [
    "Idn2.C09_lookup_safe"
   ],
   "note": "undefined behaviour is a distinct outcome of the model and is excluded for every NUL-free byte list and flag word, assuming the tables implement some data and NFC obeys its laws"
  },
  {
   "property": "C10",
   "status": "proved",
   "theorems": [
    "Idn2.C10_labelwise",
    "Idn2.C10_labelwise_error"
   ],
   "note": "iff; errors come from a label or are TOO_BIG_DOMAIN"
  },
  {
   "property": "C11",
   "status": "proved",
   "theorems": [
    "Idn2.C11_ascii_passthrough"
   ],
   "note": "both directions"
  },
  {
   "property": "C12",
   "status": "proved",
   "theorems": [
    "Idn2.C12_idempotent"
   ],
   "note": "All flag words with bit 7 (NO_ALABEL_ROUNDTRIP) off; beside it an example shows that it fails with bit 7 on."
  },
  {
   "property": "C13",
   "status": "proved",
   "theorems": [
    "Idn2.C13_invalid_flags"
   ],
   "note": "iff"
  },
  {
   "property": "C14",
   "status": "proved",
   "theorems": [
    "Idn2.C14_flags",
    "Idn2.C14_default"
   ],
   "note": "only five flag bits matter"
  },
  {
   "property": "C15",
   "status": "partial",
   "theorems": [
    "Idn2.C15_null_partial",
    "Idn2.C15_violated"
   ],
   "note": "Holds for all conversions but idn2_to_unicode_8z8z and _8zlz, which leave the output pointer unset (C15_violated)."
  },
  {
   "property": "C16",
   "status": "proved",
   "theorems": [
    "Idn2.C16_8z",
    "Idn2.C16_4z",
    "Idn2.C16_4i2"
   ],
   "note": "idn2_to_ascii_4i2 checks the elements after the first zero as well."
  },
  {
   "property": "C17",
   "status": "partial",
   "theorems": [
    "Idn2.C17_4i_partial",
    "Idn2.C17_violated"
   ],
   "note": "The bytes are stored but never a terminating zero (C17_violated)."
  },
  {
   "property": "C18",
   "status": "proved",
   "theorems": [
    "Idn2.C18_8z4z",
    "Idn2.C18_4z4z",
    "Idn2.C18_44i",
    "Idn2.C18_44i_encoding",
    "Idn2.C18_8z8z"
   ],
   "note": ""
  },
  {
   "property": "C19",
   "status": "proved",
   "theorems": [
    "Idn2.C19_unicode_identity"
   ],
   "note": ""
  },
  {
   "property": "C20",
   "status": "proved",
   "theorems": [
    "Idn2.C20_unicode_limits"
   ],
   "note": "8z4z directly; the other entry points reduce to it by C18."
  },
  {
   "property": "C21",
   "status": "proved",
   "theorems": [
    "Idn2.C21_unicode_inverts",
    "Idn2.C21_transitional",
    "Idn2.C44_violated"
   ],
   "note": "Refined statement (nontransitional; STD3 rules or no disallowed_STD3_mapped character). C21_transitional shows the first proviso is needed, C44_violated the second."
  },
  {
   "property": "C22",
   "status": "proved",
   "theorems": [
    "Idn2.C22_register_alabel"
   ],
   "note": "Stated as an equivalence, for every U-label argument and flag word."
  },
  {
   "property": "C23",
   "status": "proved",
   "theorems": [
    "Idn2.C23_register_consistent"
   ],
   "note": ""
  },
  {
   "property": "C24",
   "status": "proved",
   "theorems": [
    "Idn2.C24_register_output",
    "Idn2.C24_recursion"
   ],
   "note": "Output and absence of undefined behaviour when allocation succeeds; the recursion bound holds for any allocator."
  },
  {
   "property": "C25",
   "status": "proved",
   "theorems": [
    "Idn2.C25_registered_lookup",
    "Idn2.C25_registered_lookup_nfc"
   ],
   "note": "Registration without IDN2_NFC_INPUT: every non-conflicting lookup flag word without IDN2_TRANSITIONAL. Registration with IDN2_NFC_INPUT: lookup with IDN2_NO_TR46 and IDN2_NFC_INPUT, under an explicit hypothesis on NFC."
  },
  {
   "property": "C26",
   "status": "partial",
   "theorems": [
    "Idn2.C26_bidi_exact",
    "Idn2.C26_no_rtl",
    "Idn2.C26_rfc_accepted",
    "Idn2.C26_bidi_rule_partial",
    "Idn2.C26_bidi_rule_violated"
   ],
   "note": "violated: rule 4 unchecked, final NSM satisfies rule 3; the accepted set is characterised exactly"
  },
  {
   "property": "C27",
   "status": "proved",
   "theorems": [
    "Idn2.C27_contextj"
   ],
   "note": ""
  },
  {
   "property": "C28",
   "status": "proved",
   "theorems": [
    "Idn2.C28_contexto"
   ],
   "note": ""
  },
  {
   "property": "C29",
   "status": "proved",
   "theorems": [
    "Idn2.C29_label_test"
   ],
   "note": ""
  },
  {
   "property": "C30",
   "status": "proved",
   "theorems": [
    "Idn2.C30_property_lookup",
    "Idn2.C30_shipped"
   ],
   "note": "for any valid CSV file, and for the shipped one"
  },
  {
   "property": "C31",
   "status": "proved",
   "theorems": [
    "Idn2.C31_map_lookup",
    "Idn2.C31_shipped",
    "Idn2.C31_nfcqc_lookup"
   ],
   "note": "for any valid files, and for the shipped ones"
  },
  {
   "property": "C32",
   "status": "proved",
   "theorems": [
    "Idn2.C32_disallowed",
    "Idn2.C32_mapped"
   ],
   "note": "For scalar-value inputs in TR46 mode: disallowed characters; length limit and NFC failure; otherwise success is equivalent to validity and conversion of the labels of NFC of the characterwise image."
  },
  {
   "property": "C33",
   "status": "proved",
   "theorems": [
    "Idn2.C33_mapped_form",
    "Idn2.C33_case_dots"
   ],
   "note": "Equality of outcomes (results and errors) for equal mapped forms, and for names equal after folding ASCII case and dot variants."
  },
  {
   "property": "C34",
   "status": "proved",
   "theorems": [
    "Idn2.C34_std3_alphabet"
   ],
   "note": "Bits: USE_STD3 on, NO_TR46 and NO_ALABEL_ROUNDTRIP off."
  },
  {
   "property": "C35",
   "status": "proved",
   "theorems": [
    "Idn2.C35_alabel_genuine"
   ],
   "note": "Bit 7 off; states that the modelled decoder yields u, that t is the RFC 3492 encoding of u, and that u has no fault under the IDNA2008 and (with TR46) UTS #46 tests."
  },
  {
   "property": "C36",
   "status": "partial",
   "theorems": [
    "Idn2.C36_nfc_input_partial",
    "Idn2.C36_accepted_partial",
    "Idn2.C36_violated",
    "Idn2.C36_tr46_ignored",
    "Idn2.C36_exact"
   ],
   "note": "Violated after a supplementary character (C36_violated). Same outcome proved for names without supplementary characters, with the quick check of UAX #15 being sound for the normaliser as hypothesis and no non-ASCII label becoming ASCII; for all other names only that what is accepted has an accepted NFC form with the same result. In TR46 mode the flag is proved irrelevant for acceptance. What the code does instead is described exactly, for all labels, by C36_exact."
  },
  {
   "property": "C37",
   "status": "proved",
   "theorems": [
    "Idn2.C37_utf8",
    "Idn2.C37_malformed"
   ],
   "note": ""
  },
  {
   "property": "C38",
   "status": "proved",
   "theorems": [
    "Idn2.C38_null_output",
    "Idn2.C41_4i",
    "Idn2.C41_44i"
   ],
   "note": "The 13 calls with an output pointer (Spec.Call) return the same code with a null output as with any other, in unlimited memory; idn2_to_ascii_4i and idn2_to_unicode_44i likewise (last conjunct of C41_4i and C41_44i). With limited memory combine with C40."
  },
  {
   "property": "C39",
   "status": "proved",
   "theorems": [
    "Idn2.C39_untouched",
    "Idn2.C41_4i",
    "Idn2.C41_44i"
   ],
   "note": "For every heap and every schedule of failing allocations, all 13 calls of Spec.Call; for the two functions that fill a caller's array the clause is in C41_4i and C41_44i."
  },
  {
   "property": "C40",
   "status": "proved",
   "theorems": [
    "Idn2.C40_malloc",
    "Idn2.C41_4i",
    "Idn2.C41_44i"
   ],
   "note": "IDN2_MALLOC is returned only if one of the allocations made during the call failed (Failed h h'); otherwise code and contents of the output are those of unlimited memory. libunistring conversions are modelled as one allocation each."
  },
  {
   "property": "C41",
   "status": "proved",
   "theorems": [
    "Idn2.C41_no_leak",
    "Idn2.C41_4i",
    "Idn2.C41_44i"
   ],
   "note": "Frees and accesses of blocks that are not live are undefined behaviour in the model, and every call has an outcome; the live blocks afterwards are exactly those before plus the returned block."
  },
  {
   "property": "C42",
   "status": "proved",
   "theorems": [
    "Idn2.C42_transitional",
    "Idn2.C42_deviations",
    "Idn2.C42_shipped",
    "Idn2.C42_mapped"
   ],
   "note": "C42_transitional is for any tables, with hypotheses on deviation characters in the input and in the normalised mapped name. C42_shipped is for the tables of the repository, where only the input is restricted and the normaliser is assumed to bring in none of the four characters (C106_uax15 reduces this to the normalisation data). C42_deviations: which characters have the status; C42_mapped: what they are mapped to."
  },
  {
   "property": "C43",
   "status": "partial",
   "theorems": [
    "Idn2.C43_codes_distinct",
    "Idn2.C43_violated",
    "Idn2.C43_error_strings_partial",
    "Idn2.C43_unknown"
   ],
   "note": "violated for IDN2_INVALID_FLAGS (strerror) and IDN2_NO_CODESET (strerror_name)"
  },
  {
   "property": "C44",
   "status": "partial",
   "theorems": [
    "Idn2.C44_alabel_stable_partial",
    "Idn2.C44_violated"
   ],
   "note": "Violated for characters of status disallowed_STD3_mapped (C44_violated, witness U+00A8); proved for A-labels without such characters."
  },
  {
   "property": "C45",
   "status": "proved",
   "theorems": [
    "Idn2.C45_locale_lookup",
    "Idn2.C45_locale_unicode"
   ],
   "note": ""
  },
  {
   "property": "C46",
   "status": "proved",
   "theorems": [
    "Idn2.C46_decode_only",
    "Idn2.C46_decode_all"
   ],
   "note": "Soundness for every capacity; completeness up to the overflow error, which is shown to need more than 3855 code points."
  },
  {
   "property": "C47",
   "status": "proved",
   "theorems": [
    "Idn2.C47_register_ascii"
   ],
   "note": ""
  },
  {
   "property": "C48",
   "status": "proved",
   "theorems": [
    "Idn2.C48_lookup_spec",
    "Idn2.C48_lookup_nfc"
   ],
   "note": "Equivalence for all NUL-free inputs; C48_lookup_nfc is the case NO_TR46 with NFC_INPUT (bits 0 and 6 together), C48_lookup_spec all others."
  },
  {
   "property": "C49",
   "status": "proved",
   "theorems": [
    "Idn2.C49_to_unicode_spec",
    "Idn2.C49_first_error"
   ],
   "note": "Exact: equivalence for success and for each error code, the code of an undecodable label included. The name 'first refused label' includes the running 255 limit."
  },
  {
   "property": "C50",
   "status": "proved",
   "theorems": [
    "Idn2.C50_exact",
    "Idn2.C50_exact_ok",
    "Idn2.C50_first_fault",
    "Idn2.C50_reported"
   ],
   "note": "C50_exact is the complete account (equivalence for every code and every mask); C50_first_fault and C50_reported are the same in terms of the unordered list of conditions."
  },
  {
   "property": "C51",
   "status": "proved",
   "theorems": [
    "Idn2.C51_register_ulabel",
    "Idn2.C51_register_good",
    "Idn2.C51_register_nfc",
    "Idn2.C51_register_error",
    "Idn2.C51_alabel_error",
    "Idn2.C51_register_norm",
    "Idn2.C51_register_error_norm"
   ],
   "note": "Exact acceptance of U-labels; with NFC_INPUT in terms of Spec.Norm for every label (C51_register_norm) and in terms of NFC itself under QuickSound (UAX #15) for BMP labels. The error theorems are implications from a reported error to its reason; the equivalences are C65 and C66."
  },
  {
   "property": "C52",
   "status": "proved",
   "theorems": [
    "Idn2.C52_first_label",
    "Idn2.C52_lookup_error",
    "Idn2.C52_lookup_error_iff",
    "Idn2.C52_exclusive",
    "Idn2.C52_lookup_error_nfc",
    "Idn2.C52_lookup_error_nfc_iff",
    "Idn2.C52_exclusive_nfc"
   ],
   "note": "Equivalences for scalar-value names: C52_lookup_error_iff (UTS #46 or NO_TR46 without NFC_INPUT) and C52_lookup_error_nfc_iff (NO_TR46 with NFC_INPUT). Malformed UTF-8: C37 and C64."
  },
  {
   "property": "C53",
   "status": "proved",
   "theorems": [
    "Idn2.C53_generators",
    "Idn2.C53_refused",
    "Idn2.C53_safe",
    "Idn2.C53_missing_field",
    "Idn2.C53_missing_value",
    "Idn2.C53_long_comment",
    "Idn2.C53_missing_mapping"
   ],
   "note": "For every text in the grammar of Spec/Text with well-formed data (FilesOk): both generators succeed and the tables implement the data; undefined behaviour only by lines that overrun the arrays for mappings (C53_safe, see C99), which well-formed data do not have; refusal iff the rows are refused. Witnesses for texts outside the grammar. sscanf numbers with sign, 0x prefix or more than 32 bits are modelled as undefined and are outside the grammar."
  },
  {
   "property": "C54",
   "status": "proved",
   "theorems": [
    "Idn2.C54_shipped_text"
   ],
   "note": "Kernel evaluation over all bytes of the three files, in pieces of 250 lines, composed by proved lemmas. The bytes are transcribed by tools/gen_data.py."
  },
  {
   "property": "C55",
   "status": "proved",
   "theorems": [
    "Idn2.C55_encode_error",
    "Idn2.C55_encode_space",
    "Idn2.C55_decode_space"
   ],
   "note": "Encoder: every error code; decoder: punycodeBigOutput only (badInput versus overflow is not separated for the decoder)."
  },
  {
   "property": "C56",
   "status": "proved",
   "theorems": [
    "Idn2.C56_flags"
   ],
   "note": "all 32 combinations of the flag options; the flags are never in conflict"
  },
  {
   "property": "C57",
   "status": "proved",
   "theorems": [
    "Idn2.C57_texts",
    "Idn2.C57_session",
    "Idn2.C57_status",
    "Idn2.C57_version_help"
   ],
   "note": "Hypotheses: arguments are C strings, locale conversion yields C strings of well-formed UTF-8. The gengetopt parser and the texts of --version, --help and the blurbs are parameters."
  },
  {
   "property": "C58",
   "status": "proved",
   "theorems": [
    "Idn2.C58_stdin_args"
   ],
   "note": "relates two runs; messages compared without greeting and instructions"
  },
  {
   "property": "C59",
   "status": "proved",
   "theorems": [
    "Idn2.C59_memory"
   ],
   "note": "heap model; failure pattern arbitrary. As modelled getline allocates its buffer once; the arrays of the option parser are not modelled."
  },
  {
   "property": "C60",
   "status": "partial",
   "theorems": [
    "Idn2.C60_no_leak_partial",
    "Idn2.C60_debug_leaks"
   ],
   "note": "Proved without --debug. With --debug false: hexdump never frees its two conversions (C60_debug_leaks, four blocks for one argument)."
  },
  {
   "property": "C61",
   "status": "partial",
   "theorems": [
    "Idn2.C61_dumps_partial",
    "Idn2.C61_output_dump_wrong"
   ],
   "note": "The input half is proved. The output half is false: the dump labelled output shows the input again, for every string (second part of C61_dumps_partial); witness C61_output_dump_wrong."
  },
  {
   "property": "C62",
   "status": "proved",
   "theorems": [
    "Idn2.C62_decode_exact",
    "Idn2.C62_unique"
   ],
   "note": "Exact outcome of punycode_decode (result or error code) for every input and capacity below 2^32 - 1, as an equivalence with the inductive description Spec.Punycode.Decoding; that description has exactly one outcome."
  },
  {
   "property": "C63",
   "status": "proved",
   "theorems": [
    "Idn2.C63_encode_exact",
    "Idn2.C63_no_overflow"
   ],
   "note": "Exact outcome of punycode_encode for every input and capacity below 2^64, as an equivalence with Spec.Punycode.Encoding; no overflow report when the capacity is at most 3854."
  },
  {
   "property": "C64",
   "status": "proved",
   "theorems": [
    "Idn2.C64_lookup",
    "Idn2.C64_unique"
   ],
   "note": "Equivalence between the outcome of the modelled idn2_lookup_u8 (no allocation failure; for that C40) and Spec.Lookup, for all flags and NUL-free strings; existence and uniqueness of the outcome."
  },
  {
   "property": "C65",
   "status": "proved",
   "theorems": [
    "Idn2.C65_register_ulabel",
    "Idn2.C65_unique"
   ],
   "note": "Equivalence with Spec.RegisterU; existence and uniqueness of the outcome. Without allocation failure (C40)."
  },
  {
   "property": "C66",
   "status": "proved",
   "theorems": [
    "Idn2.C66_register_alabel",
    "Idn2.C66_unique"
   ],
   "note": "Equivalence with Spec.RegisterA; existence and uniqueness of the outcome. Without allocation failure (C40)."
  },
  {
   "property": "C67",
   "status": "proved",
   "theorems": [
    "Idn2.C67_compiled",
    "Idn2.C67_refused",
    "Idn2.C67_shipped"
   ],
   "note": "Generators from input bytes to output bytes; the texts printed are read by a model of the part of C they use (Spec/CText). Assumes fewer than 2^31 csv lines (int counter) and well-formed data (FilesOk)."
  },
  {
   "property": "C68",
   "status": "proved",
   "theorems": [
    "Idn2.C68_check_version",
    "Idn2.C68_null",
    "Idn2.C68_total",
    "Idn2.C68_self"
   ],
   "note": "strverscmp is a function of the C library, modelled after glibc and trusted; version numbers with leading zeros in a component are outside of C68_check_version (they are fractional parts to strverscmp)."
  },
  {
   "property": "C69",
   "status": "partial",
   "theorems": [
    "Idn2.C69_targets",
    "Idn2.C69_to_unicode_partial",
    "Idn2.C69_empty_undefined",
    "Idn2.C69_alabel_cut"
   ],
   "note": "Proved for the register and to-ASCII targets, and for the to-Unicode target if the data is not empty or no allocation fails. False for the to-Unicode target with empty data and a failing malloc(4), which it does not check: C69_empty_undefined. C69_alabel_cut states that the register target cuts four bytes off its A-label."
  },
  {
   "property": "C70",
   "status": "proved",
   "theorems": [
    "Idn2.C70_unique",
    "Idn2.C70_answer",
    "Idn2.C70_no_failure",
    "Idn2.C70_string"
   ],
   "note": "All thirteen functions that allocate their result. The locale's conversion functions are assumed to return C strings, well-formed UTF-8 in the direction to UTF-8 (Uni.Locale). Null inputs are C15, 4i and 44i are C17, C18 and C41."
  },
  {
   "property": "C71",
   "status": "partial",
   "theorems": [
    "Idn2.C71_line_partial",
    "Idn2.C71_no_newline",
    "Idn2.C71_long_line",
    "Idn2.C71_nul_undefined",
    "Idn2.C71_no_input"
   ],
   "note": "Proved for lines that end with a newline, contain no NUL and fit the array. False otherwise: the other theorems say what happens then (last byte lost, undefined behaviour)."
  },
  {
   "property": "C72",
   "status": "proved",
   "theorems": [
    "Idn2.C72_ascii_encoding",
    "Idn2.C72_trailing_hyphen",
    "Idn2.C72_ascii_not_decodable",
    "Idn2.C72_vectors",
    "Idn2.C72_unicode_vectors"
   ],
   "note": "C72_ascii_encoding: the encoding of an ASCII-only string that fits; C72_trailing_hyphen: every string ending in a hyphen is refused by the decoder, whatever the sizes; C72_ascii_not_decodable: so no successful encoding of an ASCII-only string (including the empty one) is decoded. C72_vectors and C72_unicode_vectors check all the rows of the two test tables: one row of tests/test-punycode.c contradicts the code."
  },
  {
   "property": "C73",
   "status": "partial",
   "theorems": [
    "Idn2.C73_value",
    "Idn2.C73_added_partial",
    "Idn2.C73_same",
    "Idn2.C73_refused",
    "Idn2.C73_violated"
   ],
   "note": "Proved: the expression a macro makes of the flags has one value, which is the value of the flags up to the two bits (C73_value); it is exactly the value with both bits added if ?:, && and || are in parentheses (C73_added_partial); without TRANSITIONAL and NO_TR46 the answers are those of the function with the flags as written, whatever the expression (C73_same); with one of them in an expression of |, & and ^ the call is refused (C73_refused). Violated otherwise: the macros lack parentheses, and from 1 ? IDN2_TRANSITIONAL : 0 nothing is added (C73_violated)."
  },
  {
   "property": "C74",
   "status": "proved",
   "theorems": [
    "Idn2.C74_flag_bits",
    "Idn2.C74_flag_bits_array",
    "Idn2.C74_flag_bits_locale",
    "Idn2.C74_exact"
   ],
   "note": "If direction for all calls that look up, with any data; both directions (C74_exact) for idn2_lookup_u8 with the data of the examples."
  },
  {
   "property": "C75",
   "status": "proved",
   "theorems": [
    "Idn2.C75_extension",
    "Idn2.C75_conservative"
   ],
   "note": "Names as IDNA2008 wants them: IDN2_NO_TR46 (the word 64) against any word of flags without conflict, TRANSITIONAL, NO_TR46 and NO_ALABEL_ROUNDTRIP. The converse is for USE_STD3_ASCII_RULES; without it more A-labels are looked up (example). Assumes the laws of NFC and of the data (the latter proved for the shipped files)."
  },
  {
   "property": "C76",
   "status": "proved",
   "theorems": [
    "Idn2.C76_corpus",
    "Idn2.C76_failures",
    "Idn2.C76_long",
    "Idn2.C76_stdin",
    "Idn2.C76_valgrind",
    "Idn2.C76_empty_undefined"
   ],
   "note": "The file system is a parameter that does not change during a run. Failed allocations: for the register and to-ASCII targets and file systems without empty files; for an empty file the driver passes a null pointer on (C76_empty_undefined). The second snprintf is unchecked, which is shown to have no effect."
  },
  {
   "property": "C77",
   "status": "proved",
   "theorems": [
    "Idn2.C77_laws",
    "Idn2.C77_quick",
    "Idn2.C77_equivalent",
    "Idn2.C77_lookup"
   ],
   "note": "Facts about the data of Unicode (single code points and pairs) are hypotheses; they are proved for a part of the real data (Hangul, some Latin) together with the shipped quick-check property, and were checked by a script against Unicode 14 for all code points and pairs (a test, not a proof). That libunistring implements UAX #15 is assumed."
  },
  {
   "property": "C78",
   "status": "partial",
   "theorems": [
    "Idn2.C78_removed",
    "Idn2.C78_same_partial",
    "Idn2.C78_violated"
   ],
   "note": "The first half is false: the code removes the characters instead of refusing the name (C78_removed, for results and errors, every name); \"a_b\" is looked up as \"ab\" (C78_violated). NEWS documents the removal. The second half is proved as an equivalence for names without such characters (C78_same_partial)."
  },
  {
   "property": "C79",
   "status": "proved",
   "theorems": [
    "Idn2.C79_no_collision",
    "Idn2.C79_stands",
    "Idn2.C79_shown",
    "Idn2.C79_unchecked",
    "Idn2.C79_unchecked_nfc"
   ],
   "note": "StandsFor is the Spec of what a name stands for; C79_no_collision both directions, C79_stands existence and uniqueness, C79_shown the link to to-unicode. C79_unchecked: with NO_ALABEL_ROUNDTRIP, for all flags but NO_TR46 combined with NFC_INPUT; C79_unchecked_nfc for that combination, if NFC makes lower-case letters, digits and hyphens only of themselves."
  },
  {
   "property": "C80",
   "status": "proved",
   "theorems": [
    "Idn2.C80_unchecked",
    "Idn2.C80_unchecked_same",
    "Idn2.C80_nfc_input",
    "Idn2.C80_nfc_names"
   ],
   "note": "Both parts for every input; examples beside the theorems show that the converse fails, and C80_nfc_names gives the converse of the second part for names whose labels are in NFC."
  },
  {
   "property": "C81",
   "status": "proved",
   "theorems": [
    "Idn2.C81_closed",
    "Idn2.C81_idempotent",
    "Idn2.C81_lookup"
   ],
   "note": "Closedness is checked in the kernel for every line of the shipped mapping file; the rest follows for any closed data. With USE_STD3_ASCII_RULES the mapping is the one with STD3 rules."
  },
  {
   "property": "C82",
   "status": "partial",
   "theorems": [
    "Idn2.C82_back",
    "Idn2.C82_no_collision_partial",
    "Idn2.C82_violated"
   ],
   "note": "Proved for U-labels that are not ASCII. False for ASCII U-labels, which registration does not test: \"xn--zca\" given as U-label and \"\u00df\" get the same name (C82_violated). With NFC_INPUT it is assumed that only lower-case letters, digits and hyphens themselves normalise to such."
  },
  {
   "property": "C83",
   "status": "proved",
   "theorems": [
    "Idn2.C83_compose",
    "Idn2.C83_parts"
   ],
   "note": "For every flag word; E is any environment satisfying the laws of World."
  },
  {
   "property": "C84",
   "status": "partial",
   "theorems": [
    "Idn2.C84_valid",
    "Idn2.C84_bidi_name_partial",
    "Idn2.C84_bidi_name_violated"
   ],
   "note": "C84_valid holds in full. The Bidi rule is applied to labels with right-to-left characters only, and (C26) without rule 4 and with any final mark; the other labels of a Bidi domain name are not checked: C84_bidi_name_violated."
  },
  {
   "property": "C85",
   "status": "proved",
   "theorems": [
    "Idn2.C85_compose"
   ],
   "note": "For all byte strings."
  },
  {
   "property": "C86",
   "status": "partial",
   "theorems": [
    "Idn2.C86_again_partial",
    "Idn2.C86_violated"
   ],
   "note": "Exact: nothing changes if no label of the result begins with xn-- in any letter case; otherwise the second call is refused (C86_violated gives such a name)."
  },
  {
   "property": "C87",
   "status": "partial",
   "theorems": [
    "Idn2.C87_empty_partial",
    "Idn2.C87_violated"
   ],
   "note": "Violated: empty labels are let through (C87_violated). What holds: the result has an empty label exactly where the mapped and normalised name has one."
  },
  {
   "property": "C88",
   "status": "partial",
   "theorems": [
    "Idn2.C88_genuine_partial",
    "Idn2.C88_shown_partial",
    "Idn2.C88_violated"
   ],
   "note": "Proved for UTS #46 processing (transitional or not). Violated with NO_TR46: the prefix is compared with regard to case there (C88_violated)."
  },
  {
   "property": "C89",
   "status": "proved",
   "theorems": [
    "Idn2.C89_deviation"
   ],
   "note": "That normalisation brings forth no deviation character is assumed, as in C42."
  },
  {
   "property": "C90",
   "status": "proved",
   "theorems": [
    "Idn2.C90_letter_case",
    "Idn2.C90_lower"
   ],
   "note": "Names equal up to ASCII letter case; errors included."
  },
  {
   "property": "C91",
   "status": "proved",
   "theorems": [
    "Idn2.C91_lookup",
    "Idn2.C91_register",
    "Idn2.C91_shipped"
   ],
   "note": "Memory failures excluded (IDN2_MALLOC). Each listed code is shown to occur by an example, except IDN2_NFC and IDN2_INVALID_TRANSITIONAL, which depend on the normaliser."
  },
  {
   "property": "C92",
   "status": "partial",
   "theorems": [
    "Idn2.C92_documented_partial",
    "Idn2.C92_violated"
   ],
   "note": "False as documented: the Punycode decoder's codes are returned too (C92_violated). Proved: only the documented codes, or a Punycode code when some label begins with xn--."
  },
  {
   "property": "C93",
   "status": "proved",
   "theorems": [
    "Idn2.TestLookup.C93_line",
    "Idn2.TestLookup.C93_reads"
   ],
   "note": "For every file in the format of Spec/IdnaTest.lean and every function in place of idn2_lookup_u8. That tests/IdnaTest.txt itself is in this format is not proved here."
  },
  {
   "property": "C94",
   "status": "partial",
   "theorems": [
    "Idn2.TestLookup.C94_status_partial",
    "Idn2.TestLookup.C94_violated",
    "Idn2.TestLookup.C94_summary",
    "Idn2.TestLookup.C94_library",
    "Idn2.TestLookup.C94_special",
    "Idn2.TestLookup.C94_range",
    "Idn2.TestLookup.C94_program",
    "Idn2.TestLookup.C94_singles",
    "Idn2.TestLookup.C94_range_calls"
   ],
   "note": "Violated: transitional lookups, and names that should be refused and are not, never count as failures; IDN2_ENCODING_ERROR passes for any row (C94_violated). C94_status_partial says exactly when the status is 0, with the number of failed single calls of test_homebrewed as a parameter; C94_singles and C94_range_calls say, for any library, which calls outside of the tables are made and which answers count as failed; C94_special proves that with this library it is 0 unless an allocation fails, C94_range that test_unicode_range is free of undefined behaviour and leaks, C94_program that the status depends only on the table and the file. These assume that 'a' is not a combining mark. C94_summary says which numbers the last line printed has. C94_library relates the function to the specification of lookup."
  },
  {
   "property": "C95",
   "status": "partial",
   "theorems": [
    "Idn2.TestPrograms.C95_register",
    "Idn2.TestPrograms.C95_register_violated",
    "Idn2.TestPrograms.C95_register_library",
    "Idn2.TestPrograms.C95_special_library",
    "Idn2.TestPrograms.C95_unicode",
    "Idn2.TestPrograms.C95_unicode_violated",
    "Idn2.TestPrograms.C95_array_violated",
    "Idn2.TestPrograms.C95_punycode_partial",
    "Idn2.TestPrograms.C95_punycode_count",
    "Idn2.TestPrograms.C95_punycode_violated",
    "Idn2.TestPrograms.C95_decoding_violated",
    "Idn2.TestPrograms.C95_punycode_library",
    "Idn2.TestPrograms.C95_strerror",
    "Idn2.TestPrograms.C95_strerror_library",
    "Idn2.TestPrograms.C95_locale"
   ],
   "note": "Proved for test-strerror.c and test-locale.c without conditions; for test-register.c when the functions set their output parameter on success (which the library does), for test-tounicode.c when the results are well-formed UTF-8, convertible and at most 127 code points: without these conditions the programs have undefined behaviour (witnesses proved). test-punycode.c violates it: its status is always 0 (proved), and a decoding is compared over a quarter of its bytes only; what its counter says is C95_punycode_partial and C95_punycode_count."
  },
  {
   "property": "C96",
   "status": "proved",
   "theorems": [
    "Idn2.TestGlibc.C96_status",
    "Idn2.TestGlibc.C96_sets_library",
    "Idn2.TestGlibc.C96_utf8_library",
    "Idn2.TestGlibc.C96_latin1_library"
   ],
   "note": "For functions that set their output parameter when they succeed (the library does: C96_sets_library). The listed calls of idn2_to_unicode_lzlz are proved of the library for any tables under UTF-8 and under Latin-1; the listed calls of idn2_lookup_ul are not proved of the library."
  },
  {
   "property": "C97",
   "status": "partial",
   "theorems": [
    "Idn2.C97_complete",
    "Idn2.C97_complete_nfc",
    "Idn2.C97_sound_partial",
    "Idn2.C97_shipped_partial",
    "Idn2.C97_violated_empty",
    "Idn2.C97_violated_root",
    "Idn2.C97_violated_bidi",
    "Idn2.C97_violated_std3",
    "Idn2.C97_violated_mapped",
    "Idn2.C97_violated_joiner",
    "Idn2.C97_violated_length"
   ],
   "note": "Completeness (C97_complete, C97_complete_nfc) for names of fewer than 255 code points after mapping; soundness (C97_sound_partial) under the side conditions Spec.Uts46.Side on the labels the name stands for and, with STD3 rules, for names without the characters these exclude; C97_shipped_partial joins both for the tables in the repository. Each condition is necessary: C97_violated_*."
  },
  {
   "property": "C98",
   "status": "partial",
   "theorems": [
    "Idn2.C98_agree",
    "Idn2.C98_back",
    "Idn2.C98_lookup_partial",
    "Idn2.C98_violated_mapped",
    "Idn2.C98_violated_valid",
    "Idn2.C98_violated_star",
    "Idn2.C98_violated_length",
    "Idn2.processing_ace"
   ],
   "note": "Agreement for mapped names that are processed without error, and for the results of ToASCII and of lookup; to-unicode neither maps nor validates, refuses some A-labels and long labels (negations proved)."
  },
  {
   "property": "C99",
   "status": "proved",
   "theorems": [
    "Idn2.C99_accepts",
    "Idn2.C99_ub",
    "Idn2.C99_refused",
    "Idn2.C99_safe",
    "Idn2.C99_text",
    "Idn2.C99_right",
    "Idn2.C99_shipped",
    "Idn2.C99_violated_21",
    "Idn2.C99_gap",
    "Idn2.C99_span",
    "Idn2.C99_twice",
    "Idn2.C99_disorder",
    "Idn2.C99_unchecked_needed"
   ],
   "note": "Exact: C99_accepts, C99_ub and C99_refused say for every sequence of lines which of the three outcomes occurs. C99_text is the same for texts in the grammar of Spec/Text. The undefined behaviour is a defect of the generator (C99_violated_21); C99_gap, C99_span, C99_twice and C99_disorder are accepted files with wrong tables. The message 'genmapdata too small', after which the program goes on, ends the model."
  },
  {
   "property": "C100",
   "status": "partial",
   "theorems": [
    "Idn2.C100_sound",
    "Idn2.C100_complete_partial",
    "Idn2.C100_violated"
   ],
   "note": "Soundness (C100_sound) is complete; with NFC_INPUT it speaks of the normalised name, and combined with NO_ALABEL_ROUNDTRIP it needs that NFC makes letters, digits and hyphens only of themselves. Completeness (C100_complete_partial) excludes A-labels with a capital letter among the literal characters, which the library refuses against the protocol (C100_violated)."
  },
  {
   "property": "C101",
   "status": "partial",
   "theorems": [
    "Idn2.C101_complete",
    "Idn2.C101_alabel_partial",
    "Idn2.C101_ulabel_partial",
    "Idn2.C101_violated"
   ],
   "note": "Completeness (C101_complete) is proved for all requests and flags. Soundness (C101_alabel_partial, C101_ulabel_partial) excludes labels with both EN and AN or with an NSM at the end, for which the library's Bidi check is weaker than RFC 5893, and ASCII strings given as U-label, which are registered untested; both are violations (C101_violated, C26_bidi_rule_violated)."
  },
  {
   "property": "C102",
   "status": "proved",
   "theorems": [
    "Idn2.C102_register",
    "Idn2.C102_to_ascii",
    "Idn2.C102_to_unicode"
   ],
   "note": "The calls are recorded with allocations that succeed; the calls of idn2_strerror and idn2_strerror_name for empty data are left out of the model."
  },
  {
   "property": "C103",
   "status": "partial",
   "theorems": [
    "Idn2.C103_outcome",
    "Idn2.C103_reads",
    "Idn2.C103_halts",
    "Idn2.C103_only_partial",
    "Idn2.C103_violated",
    "Idn2.C103_order",
    "Idn2.C103_dashes",
    "Idn2.C103_session",
    "Idn2.C103_refused",
    "Idn2.C103_foo"
   ],
   "note": "C103_outcome is an exact account of what the parser accepts. Missing for the property as stated: the ambiguous abbreviations --n, --no and --no- are accepted (C103_violated), so that the converse is stated without them. The generated parser and getopt_long are not in the repository; their model is written from memory and trusted."
  },
  {
   "property": "C104",
   "status": "partial",
   "theorems": [
    "Idn2.C104_disagree",
    "Idn2.C104_refused",
    "Idn2.C104_violated"
   ],
   "note": "Violated: exactly the code points added after Unicode 11 (6476) are UNASSIGNED in the property file and not disallowed in the mapping table (C104_disagree). C104_refused: without TRANSITIONAL and NO_ALABEL_ROUNDTRIP no name with such a character in a label has a result, for all normalisers with the laws of NFC. C104_violated: UTS #46 has a result for each such left-to-right letter, and the library has it in transitional processing only."
  },
  {
   "property": "C105",
   "status": "proved",
   "theorems": [
    "Idn2.C105_labels",
    "Idn2.C105_count",
    "Idn2.C105_shipped"
   ],
   "note": "C105_labels: lookup succeeds exactly if every part between separators does and the lengths are within the limits; each part gives one label without full stop. For any data in which only the three other full stops are mapped to text with a full stop; C105_shipped: for the tables in the repository, where that is checked on all lines. All flags, all names of scalar values (others are refused, C37)."
  },
  {
   "property": "C106",
   "status": "partial",
   "theorems": [
    "Idn2.C106_sources",
    "Idn2.C106_no_tr46",
    "Idn2.C106_std3_partial",
    "Idn2.C106_split",
    "Idn2.C106_violated",
    "Idn2.C106_uax15"
   ],
   "note": "Violated without USE_STD3_ASCII_RULES (C106_violated, C106_split, for the shipped tables: 23 characters). C106_std3_partial: no delimiter in any result with STD3 rules and UTS #46 processing and A-labels checked. C106_sources: otherwise, with UTS #46 processing, delimiters of a result come from the name or these characters, under the hypothesis that normalisation makes no delimiters (reduced to the normalisation data by C106_uax15). C106_no_tr46: without UTS #46 processing they come from ASCII labels of the name, for all other flags and any normaliser."
  },
  {
   "property": "C107",
   "status": "proved",
   "theorems": [
    "Idn2.C107_host",
    "Idn2.C107_pass"
   ],
   "note": "Stated with HostLabel and Reserved of Spec/HostName.lean. The hypothesis hm of C107_pass says that ASCII characters are no combining marks for the normaliser library."
  },
  {
   "property": "C108",
   "status": "proved",
   "theorems": [
    "Idn2.C108_settled",
    "Idn2.C108_blocks",
    "Idn2.C108_context",
    "Idn2.C108_lookup",
    "Idn2.C108_register"
   ],
   "note": "Settled and Barred (Spec/Rfc5892.lean) write out the parts of RFC 5892 that need no Unicode data. The derived classes (LetterDigits, Unstable, default ignorable characters, UNASSIGNED) are not checked against the Unicode database, which is not in the repository."
  },
  {
   "property": "C109",
   "status": "proved",
   "theorems": [
    "Idn2.C109_agree",
    "Idn2.C109_lookup"
   ],
   "note": "The marks are read from the text of the mapping table (Data/MapText.lean) by their column; lines and rows correspond in order (map_text_ok). Exceptions are the full stop and the code points of C104."
  },
  {
   "property": "C110",
   "status": "proved",
   "theorems": [
    "Idn2.C110_mapping",
    "Idn2.C110_emit",
    "Idn2.C110_stable",
    "Idn2.C110_lookup",
    "Idn2.C110_caseless",
    "Idn2.C110_folded"
   ],
   "note": "NFKC_Casefold is read from the text of the file by a small specification of its lines (Spec/Casefold.lean). Exceptions are the two ideographic full stops, which UTS #46 makes separators; C110_lookup lists the deviation characters and, with the default flags, the characters of C44."
  },
  {
   "property": "C111",
   "status": "proved",
   "theorems": [
    "Idn2.C111_quick",
    "Idn2.C111_status",
    "Idn2.C111_mapped",
    "Idn2.C111_property",
    "Idn2.C111_lookup"
   ],
   "note": "C111_quick: NFC_QC = No in the rows that the generator reads is Full_Composition_Exclusion, which the generator skips. C111_status and C111_property by whole-table kernel checks. C111_mapped and C111_lookup follow for all names. In C111_lookup the six code points of status disallowed_STD3_mapped are excepted when STD3 rules are off (C44)."
  },
  {
   "property": "C112",
   "status": "proved",
   "theorems": [
    "Idn2.C112_bounded",
    "Idn2.C112_uax15",
    "Idn2.C112_unbounded"
   ],
   "note": "C112_bounded at the level of the model of idn2_lookup_u8, without any hypothesis on the tables. C112_uax15 gives the constant for the algorithm of UAX #15. C112_unbounded: with NO_TR46 the early exit is missing and no bound holds."
  },
  {
   "property": "C113",
   "status": "proved",
   "theorems": [
    "Idn2.C113_encode",
    "Idn2.C113_encode_short",
    "Idn2.C113_decode"
   ],
   "note": "Stated with encodeWithin and decodeWithin, which are the models of the coders with the number of rounds as a parameter; punycode_encode and punycode_decode are the instances with the length of the input (encodeWithin_length, decodeWithin_length, by definition)."
  },
  {
   "property": "C114",
   "status": "proved",
   "theorems": [
    "Idn2.C114_lookup",
    "Idn2.C114_shown",
    "Idn2.C114_removed",
    "Idn2.C114_mapped",
    "Idn2.C114_tr46",
    "Idn2.C114_status",
    "Idn2.C114_property",
    "Idn2.C114_visible",
    "Idn2.C114_bidi_controls"
   ],
   "note": "Shipped.Invisible is defined by the lines of DerivedNormalizationProps.txt (NFKC_CF with an empty mapping). C114_shown is for UTS #46 processing, transitional or not; C114_lookup is for flags without TRANSITIONAL and NO_ALABEL_ROUNDTRIP. C114_lookup, C114_shown and C114_removed are about the program, the other theorems about the tables and the specification; C114_mapped speaks of the text before NFC."
  },
  {
   "property": "C115",
   "status": "partial",
   "theorems": [
    "Idn2.C115_declared",
    "Idn2.C115_exported_partial",
    "Idn2.C115_hidden",
    "Idn2.C115_violated"
   ],
   "note": "Violated: the version script names idn2_decode_ul, which does not exist (C115_violated). Everything else is proved: C115_declared, C115_hidden, and C115_exported_partial with this one exception. The lines on which definitions begin were selected by a script and are trusted; the preprocessor is not modelled."
  },
  {
   "property": "C116",
   "status": "partial",
   "theorems": [
    "Idn2.C116_any",
    "Idn2.C116_lookup_partial",
    "Idn2.C116_violated",
    "Idn2.C116_bidi_controls",
    "Idn2.C21_unicode_inverts"
   ],
   "note": "Violated: to-unicode shows every string that Punycode can express (C116_any), also one with a full stop of another script, which is another name in lookup (C116_violated), and the bidirectional controls (C116_bidi_controls). Proved for results of lookup with UTS #46 processing and checked A-labels: what is shown consists of valid labels (C116_lookup_partial); that looking it up again gives the same result is C21_unicode_inverts, under the conditions stated there."
  }
 ]
}
