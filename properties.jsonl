{"id": "C01", "title": "Punycode encode/decode round trip", "statement": "If a sequence of code points is successfully Punycode-encoded, and its ASCII part uses only letters, digits, '-' and '_', and it contains a non-ASCII code point, then decoding the produced ASCII returns exactly the original code points, in the original order.", "quantifier": "every label (any length, any code points, any output capacity for which the encoder succeeds)", "why_tests_cant": "The label space is infinite and the two coders are written independently (different loops, different overflow guards, different first-time tests); a test only samples labels.", "anchors": ["lib/puny_encode.c: punycode_encode", "lib/puny_decode.c: punycode_decode"]}
{"id": "C02", "title": "Punycode decode/encode round trip (decoding is injective up to documented aliases)", "statement": "If an ASCII string is successfully Punycode-decoded, then encoding the result gives back the same string, except that digits after the last '-' are lower-cased (and '_' there, which the decoder treats as digit 0, comes back as 'a'). Hence no two different canonical A-labels decode to the same U-label.", "quantifier": "every byte string and every output capacity for which the decoder succeeds", "why_tests_cant": "Injectivity relates every pair of inputs; tests cannot enumerate pairs.", "anchors": ["lib/puny_decode.c: punycode_decode, decode_digit", "lib/puny_encode.c: punycode_encode"]}
{"id": "C03", "title": "Punycode coders are memory safe, free of arithmetic undefined behaviour, and terminate", "statement": "Whatever the input and whatever the announced capacity, as long as the caller's array is at least as large as announced, the coders never write outside the output array, never divide by zero and always return.", "quantifier": "all inputs, all capacities", "why_tests_cant": "Off-by-one writes only show for particular length/capacity combinations; termination is a statement about all inputs.", "anchors": ["lib/puny_encode.c: punycode_encode, adapt", "lib/puny_decode.c: punycode_decode, adapt"]}
{"id": "C04", "title": "Punycode encoder computes the RFC 3492 encoding despite 32-bit arithmetic", "statement": "When the encoder reports success its output is exactly the RFC 3492 Bootstring encoding computed with unbounded integers, and it succeeds exactly when the code points are acceptable, every RFC delta fits in 32 bits and the encoding fits the given capacity: 32-bit wrap-around never produces a wrong success.", "quantifier": "all code point sequences and capacities", "why_tests_cant": "Wrap-around only occurs at extreme values; agreement with a specification over all inputs is not testable.", "anchors": ["lib/puny_encode.c: punycode_encode, adapt, encode_digit"]}
{"id": "C05", "title": "Punycode decoder output is well formed", "statement": "Every code point produced by a successful decode is either a letter, digit, '-' or '_' copied from the input or lies in 0x80..0x10FFFF outside 0xD800..0xDBFF; at least one of them is non-ASCII; the number of code points is smaller than or equal to the number of input characters and at most the announced capacity.", "quantifier": "all inputs and capacities for which decoding succeeds", "why_tests_cant": "Universally quantified range property of an arithmetic loop.", "anchors": ["lib/puny_decode.c: punycode_decode"]}
{"id": "C06", "title": "Conversion to UTF-32 yields Unicode scalar values", "statement": "The UTF-32 output of the to-unicode functions contains only Unicode scalar values (no surrogate code points).", "quantifier": "every input domain", "why_tests_cant": "Quantifies over all A-labels; the offending ones are a tiny fraction of the space.", "anchors": ["lib/puny_decode.c: punycode_decode (line 226)", "lib/decode.c: idn2_to_unicode_8z4z"]}
{"id": "C07", "title": "Lookup output respects DNS size limits", "statement": "When lookup succeeds, each label of the output has at most 63 bytes, and the whole output has at most 253 bytes, or at most 254 bytes if it ends with a dot.", "quantifier": "every input string and every flag combination", "why_tests_cant": "Length accounting across an unbounded number of labels; boundary cases depend on every combination of label lengths.", "anchors": ["lib/lookup.c: idn2_lookup_u8, label"]}
{"id": "C08", "title": "Lookup output is ASCII", "statement": "When lookup succeeds, every byte of the output is in 1..127 (plain ASCII without NUL).", "quantifier": "every input string and flag combination", "why_tests_cant": "Universally quantified over all Unicode inputs.", "anchors": ["lib/lookup.c: idn2_lookup_u8, label"]}
{"id": "C09", "title": "Lookup is memory safe", "statement": "Lookup never writes outside its fixed-size label and domain buffers or its computed-size mapping buffer, never reads past the end of a string, and always terminates.", "quantifier": "every NUL-terminated input string (valid UTF-8 or not) and every flag combination", "why_tests_cant": "Buffer-size arithmetic over all inputs; fuzzing only samples.", "anchors": ["lib/lookup.c: idn2_lookup_u8, label, _tr46"]}
{"id": "C10", "title": "Label-wise behaviour of lookup without TR46", "statement": "With IDN2_NO_TR46, lookup succeeds iff every dot-separated label converts on its own and the total length limit holds, and then the output is the converted labels joined by dots in the same order: labels are never merged, dropped, reordered or influenced by their neighbours.", "quantifier": "every input domain, any number of labels", "why_tests_cant": "Compositionality over an unbounded number of labels.", "anchors": ["lib/lookup.c: idn2_lookup_u8, label"]}
{"id": "C11", "title": "ASCII pass-through", "statement": "With IDN2_NO_TR46, a pure ASCII domain none of whose labels starts with 'xn--' is returned byte for byte unchanged if its labels and total length are within the limits, and rejected with IDN2_TOO_BIG_LABEL or IDN2_TOO_BIG_DOMAIN otherwise.", "quantifier": "every ASCII domain", "why_tests_cant": "All ASCII strings.", "anchors": ["lib/lookup.c: idn2_lookup_u8, label"]}
{"id": "C12", "title": "ToASCII is idempotent", "statement": "With A-label round-trip checking enabled (the default), if lookup of a name succeeds then lookup of the result, with the same flags, succeeds and returns the same bytes.", "quantifier": "every input and every valid flag combination without IDN2_NO_ALABEL_ROUNDTRIP", "why_tests_cant": "Composition of two runs over all inputs and flags.", "anchors": ["lib/lookup.c: idn2_lookup_u8, label, _tr46"]}
{"id": "C13", "title": "Conflicting flags are always rejected, others never", "statement": "Lookup returns IDN2_INVALID_FLAGS iff the flags contain both TRANSITIONAL and NONTRANSITIONAL, or NO_TR46 with either of them, or both ALABEL_ROUNDTRIP and NO_ALABEL_ROUNDTRIP.", "quantifier": "every flag word and every non-NULL input", "why_tests_cant": "Requires that no other path yields INVALID_FLAGS for any input.", "anchors": ["lib/lookup.c: set_default_flags, idn2_lookup_u8"]}
{"id": "C14", "title": "Default flags and ignored flags", "statement": "Flags 0 behave exactly like IDN2_NONTRANSITIONAL, and IDN2_ALLOW_UNASSIGNED, IDN2_ALABEL_ROUNDTRIP (when not conflicting) and undefined flag bits have no effect on the result.", "quantifier": "every input and flag word", "why_tests_cant": "Equality of two functions over all inputs.", "anchors": ["lib/lookup.c: set_default_flags, label, _tr46"]}
{"id": "C15", "title": "NULL-argument conventions", "statement": "A NULL input makes every conversion return IDN2_OK and store NULL (or an empty string / zero length for the array variants) in the output.", "quantifier": "every conversion function, every flag word, NULL and non-NULL output pointers", "why_tests_cant": "The statement covers every function and flag word.", "anchors": ["lib/lookup.c", "lib/decode.c: idn2_to_unicode_8z8z, idn2_to_unicode_8zlz", "lib/register.c"]}
{"id": "C16", "title": "ToASCII entry points agree", "statement": "idn2_to_ascii_8z equals idn2_lookup_u8; idn2_to_ascii_4z and idn2_to_ascii_4i2 on UTF-32 input give the result of idn2_lookup_u8 on its UTF-8 form (4i2 taking the array up to its first zero element), and IDN2_ENCODING_ERROR iff the input holds a non-scalar value before the terminator.", "quantifier": "every UTF-32 array and flag word", "why_tests_cant": "Equality of functions over all inputs.", "anchors": ["lib/lookup.c: idn2_to_ascii_4i, idn2_to_ascii_4i2, idn2_to_ascii_4z, idn2_to_ascii_8z"]}
{"id": "C17", "title": "idn2_to_ascii_4i stores a zero-terminated string", "statement": "On success idn2_to_ascii_4i writes the result and its terminating zero into the caller's 64-byte buffer.", "quantifier": "every input and every previous content of the buffer", "why_tests_cant": "Depends on what the buffer held before; tests that pre-zero the buffer cannot see it.", "anchors": ["lib/lookup.c: idn2_to_ascii_4i"]}
{"id": "C18", "title": "ToUnicode entry points agree", "statement": "idn2_to_unicode_4z4z, _44i and _8z8z return the result of idn2_to_unicode_8z4z re-encoded; _44i copies at most *outlen code points and always reports the full length.", "quantifier": "every input, every output capacity", "why_tests_cant": "Equality of functions over all inputs and capacities.", "anchors": ["lib/decode.c"]}
{"id": "C19", "title": "ToUnicode leaves non-ACE names alone", "statement": "A valid UTF-8 domain in which no label starts with 'xn--' (in any letter case) is returned unchanged by the to-unicode functions if each label has at most 63 code points and the total is at most 255, and rejected otherwise.", "quantifier": "every such domain", "why_tests_cant": "All strings.", "anchors": ["lib/decode.c: idn2_to_unicode_8z4z"]}
{"id": "C20", "title": "ToUnicode respects size limits and is memory safe", "statement": "A successful to-unicode conversion yields at most 255 code points and each label at most 63; the functions never write outside their fixed buffers whatever the input.", "quantifier": "every NUL-terminated input", "why_tests_cant": "Length accounting over unboundedly many labels.", "anchors": ["lib/decode.c: idn2_to_unicode_8z4z"]}
{"id": "C21", "title": "ToUnicode inverts ToASCII", "statement": "If lookup of a name (TR46 nontransitional, A-labels checked) yields an ASCII name, then converting it to Unicode succeeds; and looking up the Unicode form again yields the same ASCII name, provided STD3 rules are on or the Unicode form has no character of status disallowed_STD3_mapped. Both provisos (nontransitional, STD3) are necessary.", "quantifier": "every input and every flag combination without TRANSITIONAL, NO_TR46, NO_ALABEL_ROUNDTRIP", "why_tests_cant": "Composition of three conversions over all inputs.", "anchors": ["lib/lookup.c", "lib/decode.c"]}
{"id": "C22", "title": "Registration returns the A-label it was given, and only if it is genuine", "statement": "idn2_register_u8 with an A-label succeeds only if that A-label decodes to a U-label which passes all registration tests and re-encodes to exactly the given A-label; the stored name is exactly the given A-label; if a U-label is given too it must equal the decoded one byte for byte.", "quantifier": "every U-label/A-label pair and flag word", "why_tests_cant": "Universally quantified over pairs.", "anchors": ["lib/register.c: idn2_register_u8"]}
{"id": "C23", "title": "Registration with A-label, U-label, or both is consistent", "statement": "If registration succeeds with an A-label then registering the corresponding U-label alone succeeds with the same result, as does registering both.", "quantifier": "every A-label", "why_tests_cant": "Relates three calls over all inputs.", "anchors": ["lib/register.c: idn2_register_u8"]}
{"id": "C24", "title": "Registration output and memory safety", "statement": "A successful registration stores an ASCII name of at most 63 bytes, and the function never overruns its fixed buffers and never recurses more than once.", "quantifier": "every input", "why_tests_cant": "Buffer arithmetic over all inputs.", "anchors": ["lib/register.c: idn2_register_u8"]}
{"id": "C25", "title": "What can be registered can be looked up", "statement": "If registering a non-ASCII U-label without IDN2_NFC_INPUT succeeds, then looking up that U-label with any non-conflicting flags without IDN2_TRANSITIONAL (in particular the default flags and IDN2_NO_TR46) succeeds with the same result. If it is registered with IDN2_NFC_INPUT, lookup with IDN2_NO_TR46 and IDN2_NFC_INPUT succeeds with the same result.", "quantifier": "every U-label and every such pair of flag words", "why_tests_cant": "Depends on every entry of two independent Unicode tables (IDNA2008 properties and TR46 statuses) and on two different test sets.", "anchors": ["lib/register.c", "lib/lookup.c", "lib/idna-tables-properties.csv", "lib/IdnaMappingTable.txt"]}
{"id": "C26", "title": "Bidi rule", "statement": "A label containing right-to-left characters is accepted by the bidi check iff it satisfies the RFC 5893 rule; labels without such characters are always accepted.", "quantifier": "every label", "why_tests_cant": "All sequences of bidi classes, any length.", "anchors": ["lib/bidi.c: _idn2_bidi"]}
{"id": "C27", "title": "CONTEXTJ rules", "statement": "ZERO WIDTH NON-JOINER and ZERO WIDTH JOINER are accepted at a position iff the RFC 5892 appendix A.1/A.2 condition holds (virama before, or for ZWNJ a joining context (L|D) T* ZWNJ T* (R|D)).", "quantifier": "every label, every position", "why_tests_cant": "Regular-expression match over unboundedly long context.", "anchors": ["lib/context.c: _idn2_contextj_rule"]}
{"id": "C28", "title": "CONTEXTO rules", "statement": "Each contextual-rule-other character is accepted iff the RFC 5892 appendix A.3-A.9 condition for it holds, and characters with no rule are never silently accepted.", "quantifier": "every label, every position", "why_tests_cant": "All labels.", "anchors": ["lib/context.c: _idn2_contexto_rule, _idn2_contexto_with_rule"]}
{"id": "C29", "title": "Label validation is exact", "statement": "The label test succeeds iff each of the selected conditions holds for the label, and an error code identifies a condition that really fails.", "quantifier": "every label and every selection of tests", "why_tests_cant": "All labels times all test selections.", "anchors": ["lib/idna.c: _idn2_label_test"]}
{"id": "C30", "title": "IDNA2008 property table lookup", "statement": "For every 32-bit value, the derived-property lookup returns the property given by the row of idna-tables-properties.csv that covers it, and UNASSIGNED if no row does.", "quantifier": "all 2^32 values; every well-formed property file", "why_tests_cant": "Depends on the file, the generator and a binary search, for every code point.", "anchors": ["lib/tables.c: property", "lib/gendata.c: main", "lib/idna-tables-properties.csv"]}
{"id": "C31", "title": "TR46 mapping table lookup", "statement": "For every code point the compiled TR46 table yields exactly the status and mapping sequence of the row of IdnaMappingTable.txt that covers it, in spite of merging, de-duplication, bit packing and splitting into three tables; the lookup never reads outside the tables.", "quantifier": "all 32-bit values; every well-formed mapping file", "why_tests_cant": "A compiler-correctness statement over every table entry and every input file.", "anchors": ["lib/gentr46map.c", "lib/tr46map.c: get_idna_map, get_map_data, map_is", "lib/IdnaMappingTable.txt"]}
{"id": "C32", "title": "TR46 processing maps each character as specified", "statement": "In TR46 mode the name that is validated and encoded is NFC of the concatenation of the per-character TR46 mappings (kept, replaced, removed) selected by the flags; a name containing a disallowed character is rejected.", "quantifier": "every input and flag word", "why_tests_cant": "All inputs; two separately written passes must agree.", "anchors": ["lib/lookup.c: _tr46"]}
{"id": "C33", "title": "Lookup depends only on the mapped name; ASCII case and dot variants do not matter", "statement": "Two inputs with the same TR46-mapped form give the same result. In particular in TR46 mode the result is invariant under changing the case of ASCII letters and under replacing '.' by U+3002, U+FF0E or U+FF61.", "quantifier": "all pairs of inputs", "why_tests_cant": "Relational property over all pairs.", "anchors": ["lib/lookup.c: _tr46, idn2_lookup_u8"]}
{"id": "C34", "title": "STD3 output alphabet", "statement": "With IDN2_USE_STD3_ASCII_RULES, TR46 processing and A-labels being checked, a successful lookup result consists only of lower-case letters, digits, '-' and '.'.", "quantifier": "every input and every flag combination with USE_STD3_ASCII_RULES, without NO_TR46 and NO_ALABEL_ROUNDTRIP", "why_tests_cant": "All Unicode inputs.", "anchors": ["lib/lookup.c: _tr46, label", "lib/idna.c: _idn2_label_test"]}
{"id": "C35", "title": "Accepted A-labels are genuine", "statement": "With round-trip checking enabled, an 'xn--' label in a successful lookup result decodes, the decoded label passes the IDNA2008/TR46 label tests, and re-encodes to exactly that label.", "quantifier": "every input and flag combination", "why_tests_cant": "All inputs; security property behind CVE-2019-12290.", "anchors": ["lib/lookup.c: label"]}
{"id": "C36", "title": "IDN2_NFC_INPUT normalises", "statement": "Without TR46 processing and with IDN2_NFC_INPUT the result depends only on the NFC form of the input: an input and its NFC form give the same result. (With TR46 processing the flag has no influence on what is accepted.) Exactly: the label is left alone if the quick check of UAX #15 says yes to the code points that do not follow a supplementary one, else replaced by its NFC form.", "quantifier": "all inputs", "why_tests_cant": "Relational property over all inputs; fails only for particular code point neighbourhoods.", "anchors": ["lib/idna.c: _isNFC, _idn2_u8_to_u32_nfc"]}
{"id": "C37", "title": "Malformed UTF-8 is always rejected", "statement": "If lookup succeeds the input was well-formed UTF-8; if the input is not well-formed UTF-8 the result is an error.", "quantifier": "every byte string and flag word", "why_tests_cant": "All byte strings.", "anchors": ["lib/lookup.c: idn2_lookup_u8", "lib/idna.c: _idn2_u8_to_u32_nfc"]}
{"id": "C38", "title": "Passing a NULL output pointer does not change the verdict", "statement": "lookup, register and to-unicode return the same code when called with a NULL output pointer (memory allocation permitting) as with a non-NULL one.", "quantifier": "all inputs and flags", "why_tests_cant": "Relational property.", "anchors": ["lib/lookup.c", "lib/register.c", "lib/decode.c"]}
{"id": "C39", "title": "Outputs untouched on failure", "statement": "When a conversion fails, the caller's output pointer or buffer is left exactly as it was, at whatever allocation the failure happens.", "quantifier": "all inputs, flags and allocation-failure schedules", "why_tests_cant": "Quantifies over failure schedules.", "anchors": ["lib/lookup.c", "lib/decode.c", "lib/register.c"]}
{"id": "C40", "title": "Allocation failure is reported and never changes a result", "statement": "Under any pattern of allocation failures every conversion returns either IDN2_MALLOC or exactly the result it would return with unlimited memory.", "quantifier": "all inputs, flags and allocation-failure schedules", "why_tests_cant": "Exponentially many failure schedules.", "anchors": ["lib/lookup.c", "lib/decode.c", "lib/register.c", "lib/idna.c"]}
{"id": "C41", "title": "No memory leak, double free or use after free", "statement": "Each call frees everything it allocates except the returned result, on every path and under every pattern of allocation failures; it never frees twice and never reads freed memory.", "quantifier": "all inputs, flags and allocation-failure schedules", "why_tests_cant": "All paths times all failure schedules.", "anchors": ["lib/lookup.c", "lib/decode.c", "lib/register.c", "lib/idna.c"]}
{"id": "C42", "title": "Transitional processing agrees with non-transitional on names without deviation characters", "statement": "If non-transitional lookup succeeds for a name that holds no deviation character, neither before nor after mapping and normalisation, then transitional lookup with the same STD3 and A-label flags succeeds with the same result.", "quantifier": "every input and every pair of flag words that agree on USE_STD3_ASCII_RULES and NO_ALABEL_ROUNDTRIP", "why_tests_cant": "Relates two modes over all inputs.", "anchors": ["lib/lookup.c: _tr46, label"]}
{"id": "C43", "title": "Error strings", "statement": "Every return code the library can produce has its own description and its own symbolic name.", "quantifier": "every return code", "why_tests_cant": "Needs injectivity over all codes; no test enumerates pairs.", "anchors": ["lib/error.c: idn2_strerror, idn2_strerror_name"]}
{"id": "C44", "title": "A-labels accepted by lookup are stable under TR46", "statement": "In TR46 mode with default flags, if an A-label is accepted then the Unicode form shown to the user maps back to that same A-label.", "quantifier": "every A-label", "why_tests_cant": "All A-labels; failures are confined to a few hundred code points.", "anchors": ["lib/idna.c: _idn2_label_test (TEST_ALLOW_STD3_DISALLOWED)", "lib/lookup.c: _tr46"]}
{"id": "C45", "title": "Locale entry points reduce to the UTF-8 ones", "statement": "idn2_lookup_ul / idn2_to_ascii_lz / idn2_register_ul return IDN2_ICONV_FAIL iff locale conversion of the input fails, and otherwise behave as the UTF-8 function on the converted string with NFC normalisation on; the lzlz/8zlz to-unicode variants likewise convert at the edges.", "quantifier": "every input, flag word and locale converter", "why_tests_cant": "Quantifies over all converters.", "anchors": ["lib/lookup.c: idn2_lookup_ul", "lib/register.c: idn2_register_ul", "lib/decode.c"]}
{"id": "C46", "title": "The Punycode decoder accepts exactly the encodings", "statement": "Decoding succeeds with result u only if the input consists of letters, digits, '-' and '_', its canonical form (digits after the last hyphen lowercased, '_' read as 'a') is the RFC 3492 encoding of u, u holds a non-ASCII code point and only code points the decoder may emit, and u fits the capacity; conversely every such input is decoded to u, except that labels of more than 3855 code points may be refused with an overflow error.", "quantifier": "all byte strings and capacities below 2^32-1", "why_tests_cant": "An equivalence between an arithmetic loop with overflow checks and a declarative encoding, over all strings.", "anchors": ["lib/puny_decode.c: punycode_decode"]}
{"id": "C47", "title": "An ASCII U-label is registered untested", "statement": "Registering an ASCII U-label without A-label returns it unchanged when it has at most 63 bytes and IDN2_TOO_BIG_LABEL otherwise, whatever characters it holds and whatever the flags.", "quantifier": "every ASCII byte string and flag word", "why_tests_cant": "Absence of any test is a statement about all ASCII strings.", "anchors": ["lib/register.c: idn2_register_u8"]}
{"id": "C48", "title": "Lookup computes the declarative ToASCII", "statement": "Lookup succeeds with result n exactly when the flags do not conflict, the input is the UTF-8 form of scalar values u, and n is the image of u under a declarative ToASCII relation: map and normalise (unless NO_TR46), every label valid under UTS #46, every label unchanged / a genuine A-label / Punycode of a valid U-label, joined by dots within the DNS length limits. With NO_TR46 and NFC_INPUT each non-ASCII label and each decoded A-label is first normalised, in the exact way C36 describes.", "quantifier": "every NUL-free byte string, every flag word, all Unicode data and normalisers satisfying the laws", "why_tests_cant": "An equivalence over all inputs and flags, including that nothing else is accepted.", "anchors": ["lib/lookup.c: idn2_lookup_u8, label, _tr46", "lib/idna.c: _idn2_label_test"]}
{"id": "C49", "title": "To-unicode computes a declarative ToUnicode and reports the first bad label", "statement": "idn2_to_unicode_8z4z succeeds with v exactly when v is the dot-join of the images of the labels of s, where a label starting with xn-- in any letter case is Punycode-decoded and any other label is read as UTF-8 of at most 63 bytes, and v has at most 255 code points. It fails with code e exactly when some label is refused with e (Punycode error, bad encoding, label too long, name too long) after all earlier labels were converted.", "quantifier": "every NUL-free byte string, every code point sequence and every error code", "why_tests_cant": "An equivalence over all inputs; tests only sample accepted and refused names.", "anchors": ["lib/decode.c:63-159 idn2_to_unicode_8z4z"]}
{"id": "C50", "title": "label_test reports the first violated condition in a fixed order", "statement": "The outcome of _idn2_label_test is the fault found first: the code of the first step that finds any fault, at the first position within that step, in the order NFC, two hyphens, hyphen at start or end, leading combining mark, DISALLOWED, CONTEXTJ present, CONTEXTJ rule, CONTEXTO present, CONTEXTO without rule, CONTEXTO rule, UNASSIGNED, Bidi, dot in label, UTS #46 validity. It is success exactly if no selected condition is violated.", "quantifier": "every mask, every label of code points up to U+10FFFF, all tables implementing some data, every normaliser", "why_tests_cant": "Needs every combination of simultaneous violations for every mask.", "anchors": ["lib/idna.c:135-296 _idn2_label_test"]}
{"id": "C51", "title": "Registration of a label, success and every error", "statement": "Without NFC_INPUT idn2_register_u8 accepts a U-label exactly if it is ASCII of at most 63 bytes (returned unchanged) or the UTF-8 form of a label that passes all registration tests and whose A-label has at most 63 characters (returned); with NFC_INPUT the same holds of what NFC_INPUT makes of the label (C36: its normal form, unless a supplementary character hides that it is not normal). A refusal states its reason: tooBigLabel for long ASCII, encodingError for bytes that are not UTF-8, the first failing test in the order of the tests, punycodeBigOutput for a long A-label (punycodeOverflow if the label has 2^32 code points or more). For an A-label: tooBigLabel, invalidAlabel (prefix missing or non-ASCII), a Punycode error exactly if there is nothing it encodes, encodingError for surrogates, ualabelMismatch, the first failing test, and ualabelMismatch for an A-label in non-canonical form.", "quantifier": "every pair of byte strings, every flag word, every implementation of the Unicode functions satisfying the laws", "why_tests_cant": "The tests register a few dozen labels; the claim is about which of all byte strings are accepted and which reason is given for each of the others.", "anchors": ["lib/register.c:73-207 idn2_register_u8", "lib/idna.c:135-296 _idn2_label_test"]}
{"id": "C52", "title": "Every error code of lookup has the stated reason", "statement": "idn2_lookup_u8 refuses a name with a code exactly if a declarative account of the failure gives that code: in UTS #46 processing a disallowed code point (disallowed), 255 or more mapped code points (tooBigDomain), failing normalisation (encodingError), the first A-label that cannot be decoded (the Punycode code of its first defect), otherwise the first failing test of the last invalid label; then the first label, in order, that cannot be converted (tooBigLabel, Punycode codes, encodingError for surrogates, first failing test, alabelRoundtripFailed), or tooBigDomain if the name gets too long before. With NO_TR46 the error is exactly that of the first label that fails on its own. The account of failure excludes the account of success.", "quantifier": "every string without NUL, every flag word, every label count, every implementation of the Unicode functions satisfying the laws", "why_tests_cant": "The tests check a few hundred names; which of several faults in several labels is reported has exponentially many combinations.", "anchors": ["lib/lookup.c: idn2_lookup_u8, label, _tr46", "lib/idna.c:135-296 _idn2_label_test"]}
{"id": "C53", "title": "The generators read the text of the data files as what it says", "statement": "For every text of idna-tables-properties.csv, IdnaMappingTable.txt and DerivedNormalizationProps.txt that follows the format of these files (blanks, comments, CR, ranges, hexadecimal numbers of any letter case, further fields) and states well-formed data, gendata and gentr46map succeed, gendata's output lines are valid C initialisers, and the tables produced answer every query as the text says; no such text makes the scanning run into undefined behaviour (other than, with data that are not well-formed, by too many mappings, see C99), and a text is refused exactly if its data are refused. Outside the format: a line without second field, an NFC_QC line without value (null pointers), comments beyond 1023 bytes (read as data).", "quantifier": "every text in the grammar, of any length", "why_tests_cant": "The generators only ever run on one version of three files; the claim is about every later version of the Unicode files in the format.", "anchors": ["lib/gendata.c:56-94 main", "lib/gentr46map.c:67-92 _nextField", "lib/gentr46map.c:94-130 _scan_file", "lib/gentr46map.c:233-346 read_IdnaMappings", "lib/gentr46map.c:358-405 read_NFCQC"]}
{"id": "C54", "title": "The bytes of the shipped data files yield the tables", "statement": "Run on the bytes of the three data files in the repository, the two generators succeed and the tables made implement exactly the property, status, mapping and NFC_QC value that the lines of the files give to each code point.", "quantifier": "every byte of the shipped files; every code point", "why_tests_cant": "The whole chain from 3.7 MB of text to the answer for each of 1114112 code points is covered, not a sample.", "anchors": ["lib/idna-tables-properties.csv", "lib/IdnaMappingTable.txt", "lib/DerivedNormalizationProps.txt", "lib/gendata.c", "lib/gentr46map.c"]}
{"id": "C55", "title": "The error codes of the Punycode coders tell the truth", "statement": "The encoder returns punycodeBadInput only for code points that cannot be encoded, punycodeOverflow only if an RFC 3492 delta (or the number of code points) exceeds 32 bits, punycodeBigOutput only if the encoding is longer than the space; for encodable labels of up to 3855 code points, not all ASCII, it fails exactly if the space is too small, with punycodeBigOutput. The decoder returns punycodeBigOutput only if the string is longer than the space.", "quantifier": "every sequence of code points, every byte string, every capacity", "why_tests_cant": "The tests check a fixed list of labels with one capacity; callers that retry with a bigger buffer rely on the code for all inputs.", "anchors": ["lib/puny_encode.c:136-246 punycode_encode", "lib/puny_decode.c:140-244 punycode_decode"]}
{"id": "C56", "title": "The command line tool's options select consistent library flags", "statement": "For every combination of options idn2 calls the library with NFC_INPUT, exactly one of TRANSITIONAL (with -T), NO_TR46 (with --no-tr46, without -T and -N) and NONTRANSITIONAL, USE_STD3_ASCII_RULES and NO_ALABEL_ROUNDTRIP exactly if asked for, and nothing else; such flags are never refused as invalid.", "quantifier": "every combination of options, every string", "why_tests_cant": "The test scripts run the tool with single options; precedence between options and absence of a conflict for all combinations is not covered.", "anchors": ["src/idn2.c:192, 224-235 main"]}
{"id": "C57", "title": "What a run of the command line tool prints", "statement": "The tool processes its arguments, or without arguments the lines of standard input (up to a NUL), in order; each string without its final newline is converted as the declarative accounts of register, to-unicode and lookup say (-r before -d before lookup; \"show w\" and \"show c\" print the blurbs), and the result is printed on a line of its own; at the first string that is refused it reports the message of a code for which the declarative account of failure holds and exits with 1; the exit status is 0 exactly if every string has a result and input could be read; with --quiet and without --debug nothing but error reports goes to stderr.", "quantifier": "every sequence of arguments, every content of standard input, every combination of options, every locale conversion", "why_tests_cant": "Sessions of any number of strings of any content, with any failing position, cannot be enumerated.", "anchors": ["src/idn2.c:135-186 process_input", "src/idn2.c:188-257 main"]}
{"id": "C58", "title": "Strings on standard input and as arguments give the same", "statement": "For strings without NUL and newline, passing them as arguments or one per line on standard input gives the same output, the same exit status and the same messages (but for the greeting).", "quantifier": "every non-empty list of strings, every combination of options", "why_tests_cant": "The two loops pass different flags to the library and different buffers; the claim relates two runs for all inputs.", "anchors": ["src/idn2.c:237-249 main", "src/idn2.c:140-144 process_input"]}
{"id": "C59", "title": "The command line tool survives allocation failures", "statement": "Whatever allocations fail, a run of the tool has no undefined behaviour, leaves the blocks of others alone, and every line it prints is a correct result; it ends as if memory were plentiful, or with the error report of IDN2_MALLOC and status 1, or (if the line buffer cannot be allocated) as if standard input were empty.", "quantifier": "every run, every pattern of allocation failures", "why_tests_cant": "Failure patterns are exponential in the number of allocations.", "anchors": ["src/idn2.c:105-186", "src/idn2.c:188-257 main"]}
{"id": "C60", "title": "The command line tool frees what it allocates", "statement": "A run that ends with status 0 has freed every block allocated on the way.", "quantifier": "every run, every pattern of allocation failures", "why_tests_cant": "Leak checkers see single runs only.", "anchors": ["src/idn2.c:105-131 hexdump", "src/idn2.c:135-186 process_input", "src/idn2.c:241-249 main"]}
{"id": "C61", "title": "The debugging dumps show input and output", "statement": "With --debug, the bytes dumped as \"input\" are those of the string and the bytes dumped as \"output\" are those of the result.", "quantifier": "every string, every locale conversion", "why_tests_cant": "The debugging output is not tested at all; the claim is about all strings.", "anchors": ["src/idn2.c:157-158, 178-179 process_input", "src/idn2.c:105-131 hexdump"]}
{"id": "C62", "title": "Every outcome of the Punycode decoder", "statement": "For every string and every capacity, the decoder returns exactly the outcome described by RFC 3492 with the limits of 32-bit arithmetic and of the output array: the decoded string, or the error code of what goes wrong first (character or delimiter, a number that is cut off, overflow of a number or of the code point, a code point that may not be inserted, no room).  There is exactly one such outcome.", "quantifier": "every string of bytes, every capacity below 2^32 - 1", "why_tests_cant": "The order in which overflow, bad code points and a full array are noticed depends on every digit; tests see a few strings.", "anchors": ["lib/puny_decode.c:141-253 punycode_decode"]}
{"id": "C63", "title": "Every outcome of the Punycode encoder", "statement": "For every sequence of code points and every capacity, the encoder returns exactly the outcome described by RFC 3492 with the limits of 32-bit arithmetic and of the output array: the encoding, or the error code of what goes wrong first.  With an output of at most 3854 characters (the library never asks for more) the encoder never reports an overflow of a sequence of fewer than 2^32 code points.", "quantifier": "every sequence of code points, every capacity below 2^64", "why_tests_cant": "The overflow checks need inputs of thousands of code points; whether one can be reached in an array of given size is a statement about all inputs.", "anchors": ["lib/puny_encode.c:137-254 punycode_encode"]}
{"id": "C64", "title": "Lookup: one relation gives the outcome for every flag word and every string", "statement": "For every flag word and every NUL-free byte string there is exactly one outcome, a name or an error code, that the declarative relation Spec.Lookup allows, and it is the outcome of idn2_lookup_u8: invalidFlags for conflicting flags, encodingError for malformed UTF-8 (with NO_TR46 only if the malformed label is reached), otherwise the ToASCII result or the first failure.", "quantifier": "every flag word, every NUL-free byte string of any length, every outcome, every implementation of the Unicode functions satisfying the laws", "why_tests_cant": "A test compares one call with one expected outcome; the claim fixes the outcome of every call, refusals included.", "anchors": ["lib/lookup.c: idn2_lookup_u8, label, _tr46, set_default_flags", "lib/idna.c:135-296 _idn2_label_test"]}
{"id": "C65", "title": "Registration of a U-label: the outcome of every call", "statement": "For every flag word and every byte string given as U-label without an A-label, the relation Spec.RegisterU allows exactly one outcome and idn2_register_u8 has that outcome: ASCII of at most 63 bytes is returned unchanged, longer ASCII is tooBigLabel, malformed UTF-8 is encodingError, otherwise after NFC_INPUT the first failing test, the length error of the encoder, or the A-label.", "quantifier": "every flag word, every byte string, every outcome, every implementation of the Unicode functions satisfying the laws", "why_tests_cant": "Fixes which of several simultaneous defects is reported, for unboundedly many labels.", "anchors": ["lib/register.c:73-207 idn2_register_u8"]}
{"id": "C66", "title": "Registration of an A-label: the outcome of every call", "statement": "For every byte string given as A-label, with or without a U-label, and whatever the flags, the relation Spec.RegisterA allows exactly one outcome and idn2_register_u8 has that outcome: tooBigLabel over 63 bytes; invalidAlabel without lower-case xn--, with nothing after it or with a non-ASCII byte; the decoder's code; encodingError for surrogates; ualabelMismatch if the given U-label is not the decoded one; the first failing test; ualabelMismatch if the A-label is not in canonical form; otherwise the A-label itself.", "quantifier": "every A-label and optional U-label as byte strings, every flag word, every outcome, every implementation of the Unicode functions satisfying the laws", "why_tests_cant": "The order of the checks matters only for inputs with two defects, and there are unboundedly many of those.", "anchors": ["lib/register.c:73-207 idn2_register_u8"]}
{"id": "C67", "title": "The C texts the generators print are compiled to the tables of the files", "statement": "For all texts in the format of the three data files that state well-formed data (with fewer than 2^31 lines in the csv file), gendata and gentr46map print C texts; both are accepted by a C compiler, that is, every array has at least as many elements as initialisers, every constant and name is a valid one and idna_table_size is within the array; and the arrays the compiler makes of them answer every table query as the files say. The generator ends with a message instead exactly if there are no tables to print. The three files in the repository are such a case.", "quantifier": "all texts in the grammar of Spec/Text that state well-formed data, of any length; the bytes of the shipped files", "why_tests_cant": "A wrong array size, separator, field width or counter shows only for data of particular sizes; the build exercises one set of data files.", "anchors": ["lib/gendata.c:56-94 main", "lib/gentr46map.c:563-623 _print_tr46_map", "lib/gentr46map.c:625-687 main"]}
{"id": "C68", "title": "idn2_check_version compares version numbers by their components", "statement": "For every required version and every library version that are version numbers (decimal numerals without leading zeros separated by full stops), idn2_check_version returns the library version unless that comes before the required one in the order of the components as numbers, a version that goes on being later than the one that ends; otherwise it returns NULL. It returns the library version for NULL and for the library's own version string, whatever that is. The order is total.", "quantifier": "all pairs of version numbers with any number of components of any size; all strings for the check against itself", "why_tests_cant": "The test suite calls the function with its own version only; confusing 2.10 with 2.1 or 2.9, or taking the operands in the wrong order, shows only for other pairs, of which there are infinitely many.", "anchors": ["lib/version.c:59-66 idn2_check_version"]}
{"id": "C69", "title": "The fuzz targets are sound programs", "statement": "For every input of any size and whichever allocations fail, a run of the register, to-ASCII and to-Unicode fuzz targets has no undefined behaviour, ends in an assertion only after a failed allocation, and if it returns has freed everything it and the library allocated.", "quantifier": "all byte strings, all heaps, all schedules of failing allocations", "why_tests_cant": "The targets are themselves the tests; they run on a corpus, without failing allocations, and a leak or a write outside of a buffer in them would be blamed on the library only for the inputs that show it.", "anchors": ["fuzz/libidn2_register_fuzzer.c:27-73 LLVMFuzzerTestOneInput", "fuzz/libidn2_to_ascii_8z_fuzzer.c:36-119 LLVMFuzzerTestOneInput", "fuzz/libidn2_to_unicode_8z8z_fuzzer.c:30-118 LLVMFuzzerTestOneInput"]}
{"id": "C70", "title": "Every call gives the one answer there is, or says that memory is short", "statement": "Every request (any of the thirteen functions that allocate their result, with any inputs a C program can pass and any flags) has exactly one answer, a result or an error code other than IDN2_MALLOC, given by a declarative account. The call has no undefined behaviour and ends by returning that answer, a result being stored in one new block (or dropped if the output pointer is null), or by returning IDN2_MALLOC after one of its allocations has failed. In all other cases output parameter and heap are as before, and without a failing allocation it is always the answer.", "quantifier": "all requests, output parameters, heaps, schedules of failing allocations, Unicode data and conversion functions that satisfy the stated laws", "why_tests_cant": "Tests compare single calls with expected strings while all allocations succeed; they cannot show that no input whatever gives a different code, result or heap.", "anchors": ["lib/lookup.c:534-933 idn2_lookup_u8, idn2_lookup_ul, idn2_to_ascii_8z, idn2_to_ascii_lz, idn2_to_ascii_4z, idn2_to_ascii_4i2", "lib/decode.c:64-448 idn2_to_unicode_8z4z, _4z4z, _8z8z, _8zlz, _lzlz", "lib/register.c:74-265 idn2_register_u8, idn2_register_ul"]}
{"id": "C71", "title": "The example programs show the library's answer to the line that is entered", "statement": "If a line is entered, each of the five example programs ends without undefined behaviour after showing the input (where it does so), and the result or the error text that belongs to the library's answer for that line, with exit status 0 or 1, and has freed all memory; if memory is short it says so.", "quantifier": "all inputs, all sizes of the buffer, all schedules of failing allocations", "why_tests_cant": "The examples are compiled but not run by the test suite; lines without newline, with NUL bytes or longer than the buffer would not be tried anyway.", "anchors": ["examples/decode.c:25-56 main", "examples/lookup.c:24-55 main", "examples/register.c:24-55 main", "examples/example-toascii.c:22-52 main", "examples/example-tounicode.c:23-52 main"]}
{"id": "C72", "title": "ASCII-only strings have a Punycode encoding that is refused", "statement": "A non-empty string of ASCII code points that fits is encoded as itself followed by a hyphen, and no string that ends in a hyphen is ever decoded: the decoder answers IDN2_PUNYCODE_BAD_INPUT. Hence ASCII-only strings never survive the round trip. In particular the last row of tests/test-punycode.c is not decoded, while all other rows of that table and of tests/test-tounicode.c come out as stated.", "quantifier": "all strings of ASCII code points, all strings ending in a hyphen, all array sizes; all rows of the two tables", "why_tests_cant": "The test program has one such row; it counts the failure but returns 0, so the test passes. That every string ending in a hyphen is refused, whatever comes before it, is a statement about infinitely many inputs.", "anchors": ["lib/puny_encode.c:136-245", "lib/puny_decode.c:140-244", "tests/test-punycode.c:39-321", "tests/test-tounicode.c:41-302"]}
{"id": "C73", "title": "The libidn compatibility macros add NFC_INPUT and NONTRANSITIONAL to the flags, however these are written", "statement": "idna_to_ascii_4i/4z/8z/lz(..., f) call the corresponding idn2 function with the value of the expression f, plus IDN2_NFC_INPUT and IDN2_NONTRANSITIONAL, for every expression f. Without TRANSITIONAL and NO_TR46 in f the answer is that of the function with the flags f themselves.", "quantifier": "all flag expressions of operands, parentheses and the operators & ^ | && || ?:, all inputs, all data", "why_tests_cant": "Tests pass a literal or a variable. The macros leave out the parentheses around f, which only shows with operators that bind less tightly than |, and then only with flags that conflict.", "anchors": ["lib/idn2.h.in:392-411 idna_to_ascii_4i idna_to_ascii_4z idna_to_ascii_8z idna_to_ascii_lz", "lib/lookup.c:107-124 set_default_flags", "lib/lookup.c:724-933 idn2_to_ascii_4i idn2_to_ascii_4z idn2_to_ascii_8z idn2_to_ascii_lz"]}
{"id": "C74", "title": "Which bits of the flags lookup depends on, exactly", "statement": "Two words of flags give the same answer for every input if and only if both conflict, or none does and they agree on NO_TR46 and NO_ALABEL_ROUNDTRIP and, with NO_TR46, on NFC_INPUT, otherwise on TRANSITIONAL and USE_STD3_ASCII_RULES. In particular NFC_INPUT has no effect with UTS #46 processing, USE_STD3_ASCII_RULES has none without, and functions with locale input never depend on NFC_INPUT.", "quantifier": "all words of flags, all inputs, all data (the direction 'only if' with the data of the examples)", "why_tests_cant": "2^32 words of flags and all inputs; that a flag has no effect cannot be seen from samples.", "anchors": ["lib/lookup.c:107-124 set_default_flags", "lib/lookup.c:127-255 label", "lib/lookup.c:263-489 _tr46", "lib/lookup.c:534-620 idn2_lookup_u8", "lib/lookup.c:659-684 idn2_lookup_ul", "lib/lookup.c:724-933 idn2_to_ascii_4i idn2_to_ascii_4i2 idn2_to_ascii_4z idn2_to_ascii_8z idn2_to_ascii_lz", "lib/idna.c:136-296 _idn2_label_test"]}
{"id": "C75", "title": "UTS #46 lookup extends IDNA2008 lookup", "statement": "For a name whose labels consist of code points IDNA2008 allows (PVALID, CONTEXTJ, CONTEXTO), have no hyphen at the start or the end (nor has the label an A-label stands for), no two hyphens in third and fourth position unless they start with \"xn--\", and do not start with a mark: a result of lookup with IDN2_NO_TR46 is also the result of every lookup with nontransitional UTS #46 processing. With USE_STD3_ASCII_RULES the converse holds for names in NFC; names not in NFC have no result with IDN2_NO_TR46.", "quantifier": "all names of that kind, all flags of that kind, all implementations of the data satisfying the laws", "why_tests_cant": "It compares two code paths (one with mapping, normalisation and a second set of label tests) for all names over more than 100000 allowed code points.", "anchors": ["lib/lookup.c:127-255 label", "lib/lookup.c:263-489 _tr46", "lib/lookup.c:534-620 idn2_lookup_u8", "lib/idna.c:136-296 _idn2_label_test"]}
{"id": "C76", "title": "The fuzz driver runs its target on every input of the corpus", "statement": "If no allocation fails, a run of a fuzz target over its corpus (main with TEST_RUN, called by any path) calls the target with the contents of exactly the files of SRCDIR/NAME.in and SRCDIR/NAME.repro that are not hidden, whose path fits and which can be read, in order; it ends with status 0, all files closed (never two open at a time) and all memory freed. If the name of the first directory does not fit, nothing is tested and the status is 1. With failed allocations (register and to-ASCII targets, no empty files) there is no undefined behaviour and nothing but inputs of the corpus is tested. With TESTS_VALGRIND set and no argument it only starts itself under that command and reports its failure. The other driver gives the target the whole standard input as far as the target can tell.", "quantifier": "all file systems, all program paths and arguments, all standard inputs, all schedules of allocation failures", "why_tests_cant": "The driver is the test harness itself; file systems with unreadable, growing, truncated or over-long entries and failing allocations are not set up by any test.", "anchors": ["fuzz/main.c:42-85 test_all_from", "fuzz/main.c:87-122 main", "fuzz/main.c:126-153 main"]}
{"id": "C77", "title": "What is assumed of NFC holds for the algorithm of UAX #15", "statement": "Canonical decomposition, ordering and composition as in UAX #15, over any data with a few pointwise properties (decompositions are full, a composite decomposes as its parts, ASCII is inert, the full stop and NUL are produced by nothing), satisfy all the laws the theorems about the library assume of its normaliser; two texts have the same normal form iff they are canonically equivalent; text that passes the quick check (all characters NFC_Quick_Check = Yes, classes in order) is unchanged. So lookup with IDN2_NFC_INPUT and without TR46 processing has the same outcome for canonically equivalent names (without supplementary characters and without labels that become ASCII, see C36).", "quantifier": "all texts of any length, all normalisation data with the pointwise properties, all flags", "why_tests_cant": "A normaliser tested on strings says nothing of the strings not tested; idempotence and soundness of the quick check are statements about the interaction of marks in texts of any length.", "anchors": ["lib/idna.c:55-125", "lib/idna.c:141-147", "lib/lookup.c:185", "lib/lookup.c:399"]}
{"id": "C78", "title": "STD3 rules refuse, and change nothing else", "statement": "With USE_STD3_ASCII_RULES and UTS #46 processing a name with a character that STD3 rules disallow (status disallowed_STD3_valid or disallowed_STD3_mapped) is refused, as UTS #46 section 4 demands; any other name has the same result as without the flag, unless mapping, normalisation or an A-label brings in such a character, and then it is refused.", "quantifier": "all flag words, all names over Unicode scalar values, all Unicode data satisfying the stated laws", "why_tests_cant": "The flag interacts with mapping, normalisation, the decoding of A-labels and every other flag; tests/test-lookup.c has six names.", "anchors": ["lib/lookup.c:262-489 _tr46", "lib/idna.c:135-296 _idn2_label_test"]}
{"id": "C79", "title": "Lookup has no collisions: the result tells what the name stands for", "statement": "With A-labels being checked, two names that are looked up have the same result if and only if they stand for the same labels: the labels of the mapped and normalised name (UTS #46), of the name itself (NO_TR46), or of the name with normalised labels (NO_TR46 and NFC_INPUT), every A-label being replaced with the label it encodes. After UTS #46 processing, what to-unicode shows for the result is that very name.  With NO_ALABEL_ROUNDTRIP two names have the same result if and only if the labels of the names as processed (in NFC, with NO_TR46 and NFC_INPUT) are equal one by one, or one is the A-label form of the other.", "quantifier": "all pairs of names over Unicode scalar values, all flag words (those without NO_ALABEL_ROUNDTRIP for the part about what names stand for), all normalisers and Unicode data satisfying the stated laws", "why_tests_cant": "It relates all pairs of names; a collision (two different names that resolve to the same host) would need an unlucky pair.", "anchors": ["lib/lookup.c:126-255 label", "lib/lookup.c:262-489 _tr46", "lib/lookup.c:533-620 idn2_lookup_u8", "lib/puny_encode.c", "lib/decode.c:46-180"]}
{"id": "C80", "title": "Lifting the check of A-labels, or asking for normalisation, keeps the results", "statement": "What is looked up with A-labels being checked is looked up with NO_ALABEL_ROUNDTRIP too, all other flags being equal, and the results differ at most in the case of ASCII letters; after UTS #46 processing not at all if the result is in lower case. With NO_TR46, what is looked up without NFC_INPUT has the same result with it.  The other way, NFC_INPUT makes no difference to the result if the labels the name stands for are in NFC.", "quantifier": "all flag words, all byte strings without NUL, all normalisers and Unicode data satisfying the stated laws", "why_tests_cant": "Compares two runs for every name; the checks that are skipped interact with length limits and conversions.", "anchors": ["lib/lookup.c:126-255 label", "lib/lookup.c:262-489 _tr46", "lib/idna.c:87-121 _idn2_u8_to_u32_nfc"]}
{"id": "C81", "title": "The mapping of UTS #46 is stable: a name may be mapped before it is looked up", "statement": "In the mapping table of the repository no character is mapped to characters that are mapped further. Hence mapping a mapped name changes nothing, transitional mapping may be preceded by nontransitional mapping, and lookup with UTS #46 processing gives the same answer, result or error, for a name and for its mapped form.", "quantifier": "every line of IdnaMappingTable.txt; all names over Unicode scalar values, all flag words without NO_TR46, all normalisers satisfying the stated laws", "why_tests_cant": "The first part concerns every row of the table at once; the second every name, including those that are refused.", "anchors": ["lib/IdnaMappingTable.txt", "lib/lookup.c:262-489 _tr46", "lib/tr46map.c:104-141"]}
{"id": "C82", "title": "Names registered for different labels are different, and each tells its label", "statement": "Two U-labels that are registered under the same name are the same label (up to normalisation with NFC_INPUT). The registered name is accepted as A-label, alone or with its U-label, and the to-unicode functions show it as that U-label.", "quantifier": "all byte strings given as U-label, all flag words, all normalisers and Unicode data satisfying the stated laws", "why_tests_cant": "It relates all pairs of labels, and registration to the separate to-unicode code.", "anchors": ["lib/register.c:73-207 idn2_register_u8", "lib/decode.c:46-180", "lib/puny_encode.c", "lib/puny_decode.c"]}
{"id": "C83", "title": "The labels of a name do not influence each other in lookup", "statement": "Looking up two names put together with a full stop succeeds exactly if both names are looked up by themselves with the same flags and the name put together is within the length limits (mapped text below 255 code points with UTS #46 processing, result at most 253 bytes, 254 with a final full stop); the result is then the two results put together.", "quantifier": "all pairs of texts of Unicode scalar values without NUL, all flag words, all normalisers and Unicode data satisfying the stated laws", "why_tests_cant": "It relates the result for every name to the results for all ways of cutting it; state left over from one label (buffer positions, lengths, flags) shows only with particular neighbours.", "anchors": ["lib/lookup.c:126-255 label", "lib/lookup.c:262-489 _tr46", "lib/lookup.c:533-620 idn2_lookup_u8"]}
{"id": "C84", "title": "The labels a looked-up name stands for are valid, and Bidi domain names obey the Bidi rule", "statement": "If lookup succeeds with the check of A-labels, every non-ASCII label the name stands for (after mapping and normalisation, with A-labels decoded) passes all tests of lookup; and if one label holds a right-to-left character, all labels satisfy the Bidi rule of RFC 5893, section 2.", "quantifier": "all texts of Unicode scalar values without NUL, all flag words without NO_ALABEL_ROUNDTRIP (for the Bidi part also without TRANSITIONAL), all normalisers and Unicode data satisfying the stated laws", "why_tests_cant": "It covers all ways a label may be written and all combinations of labels.", "anchors": ["lib/bidi.c:55-123 _idn2_bidi", "lib/lookup.c:126-255 label", "lib/idna.c:135-296 _idn2_label_test"]}
{"id": "C85", "title": "To-unicode works label by label", "statement": "To-unicode of two byte strings put together with a full stop succeeds exactly if to-unicode of both succeeds and the results put together with a full stop have at most 255 code points; the result is then the two results put together.", "quantifier": "all pairs of byte strings", "why_tests_cant": "It relates the result for every name to the results for all ways of cutting it; positions carried from label to label show only with particular neighbours.", "anchors": ["lib/decode.c:63-159 idn2_to_unicode_8z4z"]}
{"id": "C86", "title": "To-unicode leaves its own results alone", "statement": "If to-unicode yields a text v of Unicode scalar values, to-unicode of the UTF-8 form of v yields v.", "quantifier": "all byte strings on which to-unicode succeeds with a text of scalar values", "why_tests_cant": "It relates all pairs of calls; it fails only for labels whose decoded form begins with xn-- again.", "anchors": ["lib/decode.c:63-159 idn2_to_unicode_8z4z", "lib/puny_decode.c:140-244"]}
{"id": "C87", "title": "Lookup results have no empty label but the last", "statement": "When lookup succeeds, no label of the result is empty, except the last one (the root).", "quantifier": "all texts of Unicode scalar values without NUL, all flag words, all normalisers and Unicode data satisfying the stated laws", "why_tests_cant": "It covers every position of a label and every character that is mapped to nothing.", "anchors": ["lib/lookup.c:126-255 label", "lib/lookup.c:533-620 idn2_lookup_u8"]}
{"id": "C88", "title": "A-labels in results are genuine in any letter case, and every result can be shown", "statement": "With the check of A-labels, every label of a lookup result that begins with xn-- in any letter case is the encoding of a label that passes the tests of lookup, and to-unicode of the result succeeds.", "quantifier": "all byte strings without NUL, all flag words without NO_ALABEL_ROUNDTRIP, all normalisers and Unicode data satisfying the stated laws", "why_tests_cant": "It covers every way to write a label and relates lookup to the separate to-unicode code; it fails only for one mode and capital letters in the prefix.", "anchors": ["lib/lookup.c:126-255 label", "lib/decode.c:63-159 idn2_to_unicode_8z4z"]}
{"id": "C89", "title": "Transitional lookup succeeds wherever nontransitional lookup of the name with its deviation characters replaced does, with the same result", "statement": "If nontransitional lookup of the mapped name, deviation characters mapped too, succeeds, transitional lookup of the name with the same STD3 and A-label flags succeeds with the same result.", "quantifier": "all texts of Unicode scalar values without NUL and all such pairs of flag words; all normalisers and Unicode data satisfying the stated laws whose mapping is stable (C81: that of the repository is), where normalisation of the mapped text brings forth no deviation character", "why_tests_cant": "It relates two calls in two modes for every name.", "anchors": ["lib/lookup.c:262-489 _tr46", "lib/lookup.c:126-255 label"]}
{"id": "C90", "title": "To-unicode respects the case-insensitivity of the DNS", "statement": "If two names are equal up to the case of ASCII letters, to-unicode accepts both or refuses both; the results are equal up to the case of ASCII letters, and the errors are the same.", "quantifier": "all pairs of byte strings equal up to ASCII case", "why_tests_cant": "It relates two calls for all names and all choices of case; the test vectors have A-labels in lower case almost throughout.", "anchors": ["lib/decode.c:63-159 idn2_to_unicode_8z4z", "lib/puny_decode.c:96-107 decode_digit", "lib/puny_decode.c:140-244"]}
{"id": "C91", "title": "Only these error codes occur", "statement": "When memory suffices, lookup fails with one of 19 error codes and registration with one of 17, which the specification lists. So the codes for a missing contextual rule and for a dot in a label never occur, and lookup never returns IDN2_CONTEXTO, IDN2_INVALID_ALABEL or IDN2_UALABEL_MISMATCH.", "quantifier": "all byte strings without NUL, all flag words, all pairs of labels (either may be absent); all Unicode data in which every CONTEXTJ and CONTEXTO code point has its rule (proved of the tables of the repository) and all normalisers satisfying the stated laws", "why_tests_cant": "That a code never occurs is a statement about all inputs; the unreachable codes have branches in the source.", "anchors": ["lib/idna.c:132-296 _idn2_label_test", "lib/context.c:35-197", "lib/lookup.c:126-489", "lib/register.c:73-207"]}
{"id": "C92", "title": "To-unicode returns the error codes it is documented to return", "statement": "When memory suffices, to-unicode of a UTF-8 name fails with IDN2_TOO_BIG_DOMAIN, IDN2_TOO_BIG_LABEL or IDN2_ENCODING_ERROR only.", "quantifier": "all byte strings", "why_tests_cant": "That no other code occurs is a statement about all inputs.", "anchors": ["lib/decode.c:42-62 documentation", "lib/decode.c:63-159 idn2_to_unicode_8z4z", "lib/puny_decode.c:140-244"]}
{"id": "C93", "title": "The conformance test reads IdnaTest.txt as its format says", "statement": "For every file in the format described at the beginning of tests/IdnaTest.txt, tests/test-lookup.c runs through all lines without undefined behaviour: columns are separated and trimmed, comments and blank lines skipped, escapes (UTF-16 surrogate pairs included) replaced, blank columns filled in, and tests whose source contains a surrogate skipped. The number of checks is the number of lookups the first column asks for; the number of failures is the number of nontransitional lookups that should have an ASCII form and do not have it.", "quantifier": "all files in the format, all functions in place of idn2_lookup_u8, all counts before", "why_tests_cant": "It is about the test program itself; a test vector read wrongly or not at all makes the test weaker without anybody noticing.", "anchors": ["tests/test-lookup.c:896-959 _nextField, _scan_file", "tests/test-lookup.c:1139-1218 _decodeIdnaTest", "tests/test-lookup.c:1220-1330 _check_toASCII, test_IdnaTest"]}
{"id": "C94", "title": "The lookup test fails when lookup deviates from its tables", "statement": "If tests/test-lookup.c ends with status 0, every lookup it makes has the outcome given in its own table and in the file in the format of IdnaTest.txt, and its single calls succeed. On the library itself its calls outside of the tables all succeed, and whichever allocations fail, they neither leak nor are undefined.", "quantifier": "all functions in place of idn2_lookup_u8, all tables, all files in the format", "why_tests_cant": "That a test program notices every deviation is a statement about all wrong libraries.", "anchors": ["tests/test-lookup.c:961-1058 test_homebrewed", "tests/test-lookup.c:1220-1330 _check_toASCII, test_IdnaTest", "tests/test-lookup.c:1379-1410 main", "tests/test-lookup.c:1060-1136 single calls", "tests/test-lookup.c:1339-1377 test_unicode_range"]}
{"id": "C95", "title": "The other test programs fail when the library deviates from their tables", "statement": "tests/test-register.c, test-tounicode.c, test-punycode.c, test-strerror.c and test-locale.c end with status 0 exactly when the functions they call give what their tables ask for, and otherwise with the status of a failure.", "quantifier": "all functions in place of those of the library, all tables", "why_tests_cant": "That a test program notices every deviation is a statement about all wrong libraries.", "anchors": ["tests/test-register.c:123-211 main", "tests/test-tounicode.c:355-531 _check_4z, main", "tests/test-punycode.c:202-321 main", "tests/test-strerror.c:22-37 main", "tests/test-locale.c:42-73 main"]}
{"id": "C96", "title": "The glibc test fails when the library or a locale deviates", "statement": "tests/test-glibc.c ends with status 0 exactly when a locale with UTF-8 is installed, every installed locale converts as the name of its charset says, and under the locales with UTF-8 and with Latin-1 each call gives what is listed for it; otherwise it ends with status 1. The library does what the listed calls of idn2_to_unicode_lzlz ask for.", "quantifier": "all functions in place of those of the library that set their output parameter when they succeed, all lists of calls, all lists of locales; for the library: all tables", "why_tests_cant": "That a test program notices every deviation is a statement about all wrong libraries and all sets of installed locales.", "anchors": ["tests/test-glibc.c:79-118 determine_current_charset_kind", "tests/test-glibc.c:122-181 check_success, check_lookup_ul_success, check_to_unicode_lzlz_success, check_to_unicode_lzlz_failure", "tests/test-glibc.c:183-254 run_utf8_tests, run_latin1_tests", "tests/test-glibc.c:273-325 main"]}
{"id": "C97", "title": "Lookup is ToASCII of UTS #46", "statement": "With UTS #46 processing, lookup gives for a name what the ToASCII operation of the standard gives (with CheckHyphens, CheckBidi, CheckJoiners and VerifyDnsLength), as long as IDNA2008 allows the code points of the labels; and it gives nothing else.", "quantifier": "all names, all combinations of flags of UTS #46 processing with A-label checks, all Unicode data and normalisers with the laws", "why_tests_cant": "IdnaTest.txt has a few thousand names, and tests/test-lookup.c skips the ones the library handles otherwise; agreement with a standard is about all names.", "anchors": ["lib/lookup.c:126-255 label", "lib/lookup.c:262-489 _tr46", "lib/lookup.c:533-620 idn2_lookup_u8", "lib/idna.c:135-296 _idn2_label_test"]}
{"id": "C98", "title": "To-unicode is ToUnicode of UTS #46 on mapped names", "statement": "On a name that UTS #46 would leave as it is when mapping and normalising, and processes without error, idn2_to_unicode_8z4z gives what the ToUnicode operation of the standard gives; in particular it turns every result of ToASCII into the labels the name stands for.", "quantifier": "all names, all Unicode data and normalisers with the laws, transitional or not, with and without STD3 rules", "why_tests_cant": "tests/test-tounicode.c has a few dozen names; agreement with a standard, and the round trip through ToASCII, is about all names.", "anchors": ["lib/decode.c:64-153 idn2_to_unicode_8z4z", "lib/puny_decode.c:140-244 punycode_decode"]}
{"id": "C99", "title": "Which data files the table generator accepts", "statement": "gentr46map makes tables exactly for mapping files whose ranges do not run backwards and are in order without overlap, with at most 20 code points in a line, at most 16384 bytes of mapping data and less than 10000 entries behind merging, and for less than 140 NFC_QC lines with proper ranges. Undefined behaviour occurs exactly if, behind acceptable lines, a line writes a 21st code point to tmp or a code point across the end of genmapdata. Everything else ends with a message. If tables are made and the files satisfy a list of conditions the generators do not check (gap-free, no line across a table boundary, properties in order, NFC_QC disjoint), the tables answer as the files say; without them they need not.", "quantifier": "all sequences of lines, and all texts in the format of the files", "why_tests_cant": "The generators are run on one version of the Unicode files; what happens on the next one, or on a damaged one, is about all files.", "anchors": ["lib/gentr46map.c:233-346 read_IdnaMappings", "lib/gentr46map.c:358-405 read_NFCQC", "lib/gentr46map.c:564-623 _print_tr46_map", "lib/gendata.c:56-94 main"]}
{"id": "C100", "title": "Lookup without UTS #46 processing is the lookup protocol of RFC 5891", "statement": "With IDN2_NO_TR46, every label that lookup accepts has passed all the tests that section 5.4 of RFC 5891 says it MUST pass (also the label an A-label converts to, which must convert back to the same A-label), and the result is that of section 5.5; every name that passes what MUST and SHOULD be tested, within the limits of the DNS, is looked up.", "quantifier": "all names, all combinations of the other flags, all Unicode data and normalisers with the laws", "why_tests_cant": "The tests hold some dozens of names for IDN2_NO_TR46; conformance with a protocol is about all names and each of its conditions.", "anchors": ["lib/lookup.c:126-255 label", "lib/lookup.c:533-620 idn2_lookup_u8", "lib/idna.c:135-296 _idn2_label_test", "lib/context.c:36-113 _idn2_contextj_rule", "lib/context.c:126-226 _idn2_contexto_rule", "lib/context.c:228-270 _idn2_contexto_with_rule"]}
{"id": "C101", "title": "Registration is the registration protocol of RFC 5891", "statement": "Registration grants exactly the requests that section 4 of RFC 5891 permits: a U-label that keeps all rules of section 4.2, an A-label that is the one of such a U-label character by character, or both if they belong together; what is registered is the A-label.", "quantifier": "all U-labels and A-labels (any bytes), all flags, all Unicode data and normalisers with the laws", "why_tests_cant": "A registry that grants a single label against the protocol cannot take it back; tests/test-register.c has a few labels.", "anchors": ["lib/register.c:73-207 idn2_register_u8", "lib/idna.c:135-296 _idn2_label_test", "lib/bidi.c:55-123 _idn2_bidi", "lib/context.c:36-113 _idn2_contextj_rule", "lib/context.c:126-226 _idn2_contexto_rule", "lib/context.c:228-270 _idn2_contexto_with_rule"]}
{"id": "C102", "title": "The fuzz targets test what they are for", "statement": "For every input of at most 1024 bytes, and whatever the library answers, the three fuzz targets make exactly the listed calls in the listed order: the register target registers the data up to its first zero as a U-label, and the first bytes (as many as there is data) of \"xn--\" followed by the data as an A-label; the to-ASCII target converts the data up to its first zero with 8z and lz under each of the flags 0, NFC, transitional, nontransitional, and the last two with STD3, and if the length is a multiple of four also the little-endian 32-bit numbers in it with 4i (into 64 bytes, without flags), 4i2 and, up to the first zero, 4z under each of these flags; the to-Unicode target compares the data with the version, converts it with lzlz, and if the length is a multiple of four with 44i into an array of as many elements. Calls with null pointers are made for empty data only. For longer input no call is made.", "quantifier": "all byte strings, all answers of the library", "why_tests_cant": "A fuzz target that drops a call, a flag or part of the data still runs and finds nothing; a corpus cannot show which calls are missing.", "anchors": ["fuzz/libidn2_register_fuzzer.c:27-73 LLVMFuzzerTestOneInput", "fuzz/libidn2_to_ascii_8z_fuzzer.c:27-119 LLVMFuzzerTestOneInput", "fuzz/libidn2_to_unicode_8z8z_fuzzer.c:30-118 LLVMFuzzerTestOneInput"]}
{"id": "C103", "title": "The command line is read as --help describes it", "statement": "Whatever the arguments, the tool reads them as options and strings in one way: an argument of two hyphens and a name, or an unambiguous abbreviation of one, or of a hyphen and letters, gives options, each of which may be given once; everything behind \"--\", \"-\" and arguments without a leading hyphen are strings, which are kept in order; behind --help or --version nothing matters. The order of the options and their place among the strings do not matter, any strings can be given behind \"--\", what cannot be read so is refused with status 1 before anything is printed, and otherwise the run is the one of C57 for these options and strings.", "quantifier": "all lists of arguments, with and without POSIXLY_CORRECT; all locales, tables and inputs", "why_tests_cant": "Which abbreviations are ambiguous depends on all names at once and changes with each option that is added; strings that look like options are unbounded, and tests of the tool give the usual spellings only.", "anchors": ["src/idn2.ggo:16-25", "src/Makefile.am:42-45", "src/idn2.c:188-200 main", "src/idn2.c:74-99 usage"]}
{"id": "C104", "title": "The two Unicode data files are about the same Unicode version", "statement": "A code point that UTS #46 does not disallow in lib/IdnaMappingTable.txt is not UNASSIGNED in lib/idna-tables-properties.csv, so that lookup never refuses as unassigned what its own mapping table takes for assigned.  (Violated: the properties are those of Unicode 11, the mapping table is that of Unicode 13.  Exactly the 6476 code points added in 12.0, 12.1 and 13.0 that are not disallowed are unassigned in the other file.  No name with such a character has a result without transitional processing, while transitional processing gives the result of UTS #46.)", "quantifier": "for all code points; for all names, all flags without TRANSITIONAL and NO_ALABEL_ROUNDTRIP, and any normaliser with the laws of NFC; for all new left-to-right letters", "why_tests_cant": "The two files have thousands of lines and are updated by hand from different sources; the tests look up a few names, none of them with a character from after Unicode 11, and no test compares the files.", "anchors": ["lib/Makefile.am:57-58", "lib/idna-tables-properties.csv", "lib/IdnaMappingTable.txt", "lib/idna.c:246-252", "lib/lookup.c:185-202"]}
{"id": "C105", "title": "Lookup cuts a name at the label separators, and nowhere else", "statement": "With UTS #46 processing the labels of the result of a lookup correspond to the parts of the name between '.', U+3002, U+FF0E and U+FF61, without it to the parts between full stops.  A name has a result exactly if each part has one and the whole is within the length limits; each part gives exactly one label.  No other character of the mapping table, no normalisation and no A-label brings a full stop into the result.", "quantifier": "for all names, all flags, the tables in the repository and any normaliser with the laws of NFC", "why_tests_cant": "A single line among the 8000 of the mapping table that maps to a text with a full stop, or a full stop made by normalisation or by decoding an A-label, would move a label boundary; tests try a few separators.", "anchors": ["lib/IdnaMappingTable.txt", "lib/lookup.c:262-489", "lib/lookup.c:534-620"]}
{"id": "C106", "title": "Lookup brings no delimiters of URLs into a name", "statement": "The result of a lookup has a ':', '/', '?', '#', '[', ']' or '@' only if the name has it.  (Violated without USE_STD3_ASCII_RULES: 23 characters, such as U+2100 with the mapping 'a/c', are replaced by ASCII text with such a delimiter, anywhere in a name and by default, so that 'evil.c℀.b' becomes 'evil.ca/c.b'.  With the flag and UTS #46 processing no result has a delimiter.  Without the flag the delimiters of the result come from the name or from these 23 characters; without UTS #46 processing, from the name only.)", "quantifier": "for all names, all flags, the tables in the repository and any normaliser with the laws of NFC that makes no delimiters", "why_tests_cant": "The 23 characters are scattered over the mapping table, and delimiters could also come from normalisation, from decoded A-labels or from the encoder; the tests look at a few expected results.", "anchors": ["lib/IdnaMappingTable.txt", "lib/lookup.c:262-489", "lib/tr46map.c:163-179"]}
{"id": "C107", "title": "With STD3 rules the labels of a lookup result are host-name labels, and host names pass", "statement": "With UTS #46 processing, USE_STD3_ASCII_RULES and A-labels being checked, every non-empty label of a result is one of a host name (RFC 952, RFC 1123): at most 63 lower-case letters, digits and hyphens, no hyphen first or last; if its third and fourth characters are hyphens it is \"xn--\" followed by the Punycode of a text that is not ASCII and passes the tests of a label.  The other way, with any flags that keep UTS #46 processing, an ASCII host name in any case without such reserved labels is looked up as itself in lower case.", "quantifier": "for all names, all flags as stated, any tables and normaliser with their laws", "why_tests_cant": "Says something about the form of every result; the hyphen rules are tested in one place for labels as typed and in another for decoded A-labels, and the last character of the Punycode of every text must be a digit of the code.", "anchors": ["lib/lookup.c:57-250", "lib/lookup.c:262-489", "lib/idna.c:156-166", "lib/puny_encode.c"]}
{"id": "C108", "title": "The property table has the classes that RFC 5892 settles by itself", "statement": "In lib/idna-tables-properties.csv every code point that RFC 5892 itself classifies has that class: the exceptions of section 2.6, JoinControl, the ASCII characters, old Hangul Jamo, noncharacters, surrogates and private use; those of the ignorable blocks are DISALLOWED or UNASSIGNED; CONTEXTJ and CONTEXTO are exactly the code points with rules.  So, without transitional processing, no name with a result stands for a label with such a barred character outside ASCII, and none is registered.", "quantifier": "for all code points, all names and labels, all flags as stated, and any normaliser with the laws of NFC", "why_tests_cant": "The file has 2800 lines for 1.1 million code points and comes from elsewhere; tests look at a few of them.", "anchors": ["lib/idna-tables-properties.csv", "lib/gendata.c:57-94", "lib/tables.c:38-97", "lib/idna.c:176-252"]}
{"id": "C109", "title": "What IDNA2008 allows by the one data file is what UTS #46 says it allows by the other", "statement": "A code point is PVALID, CONTEXTJ or CONTEXTO in lib/idna-tables-properties.csv exactly if lib/IdnaMappingTable.txt has it as a deviation character or as valid without the mark NV8 or XV8, the full stop and the code points newer than Unicode 11 (C104) apart.  So the characters outside ASCII in the labels a name with a result stands for are those that UTS #46 marks as allowed by IDNA2008.", "quantifier": "for all code points; for all names, all flags with USE_STD3_ASCII_RULES or NO_TR46 and without TRANSITIONAL and NO_ALABEL_ROUNDTRIP, any normaliser with the laws of NFC", "why_tests_cant": "Compares two files of thousands of lines code point by code point; the program itself never reads the marks.", "anchors": ["lib/idna-tables-properties.csv", "lib/IdnaMappingTable.txt", "lib/idna.c:176-252"]}
{"id": "C110", "title": "What UTS #46 processing makes of a character is its NFKC_Casefold", "statement": "The mapping table replaces every code point that is not disallowed with its NFKC_Casefold as given in lib/DerivedNormalizationProps.txt, apart from U+3002 and U+FF61, from deviation characters in nontransitional processing, and from the characters that STD3 rules remove.  So names that are equal after toNFKC_Casefold have the same result or the same error; a name may be replaced by its NFKC_Casefold; what IDNA2008 allows is stable under NFKC_Casefold but for the deviation characters; and the labels outside ASCII that a name with a result stands for are their own NFKC_Casefold in the same sense.", "quantifier": "for all code points; for all names and flags with UTS #46 processing (for the last part: without TRANSITIONAL and NO_ALABEL_ROUNDTRIP, with or without NO_TR46), any normaliser with the laws of NFC", "why_tests_cant": "Two files of thousands of lines must agree on every code point, and the program reads NFKC_Casefold nowhere; that no two spellings of a name that differ in case or in compatibility characters only are looked up differently is a statement about all pairs of names.", "anchors": ["lib/IdnaMappingTable.txt", "lib/DerivedNormalizationProps.txt", "lib/lookup.c:263-489", "lib/idna-tables-properties.csv"]}
{"id": "C111", "title": "Nothing that cannot occur in NFC is left after the mapping of UTS #46", "statement": "The code points with NFC_QC = No are those of the property Full_Composition_Exclusion of the same file.  Each of them is mapped (some only without STD3 rules) or disallowed by the mapping table, none is in a mapping, and none is allowed by the property table of IDNA2008.  So none is left after the mapping of a name without disallowed characters, and none is in a label outside ASCII of a name with a result, however libunistring normalises; the exception are, without STD3 rules, the six with status disallowed_STD3_mapped in A-labels, where only the comparison with NFC is left.", "quantifier": "for all code points; for all names and both options of the mapping; for the labels: all names and flags without TRANSITIONAL and NO_ALABEL_ROUNDTRIP, any normaliser with the laws of NFC", "why_tests_cant": "1120 code points in two files have to be compared with the mapping table, all mappings and the property table; the conclusion is about all names that any combination of these can give.", "anchors": ["lib/DerivedNormalizationProps.txt", "lib/IdnaMappingTable.txt", "lib/idna-tables-properties.csv", "lib/tr46map.c:153-160", "lib/lookup.c:263-489"]}
{"id": "C112", "title": "With UTS #46 processing the normaliser sees a bounded part of a name, however long the name is", "statement": "If the normaliser makes at most K code points of each, the outcome of lookup with UTS #46 processing is the same for any other normaliser that agrees with it on texts of at most 255*K*K code points: nothing longer is ever normalised, which is what the early exit for long names is for.  For the algorithm of UAX #15, K is the length of the longest decomposition.  Without UTS #46 processing there is no such bound.", "quantifier": "for all names of any length, all flags without NO_TR46, any tables and any library functions; for the last part: for every bound there is a name", "why_tests_cant": "Names of arbitrary length, and that a call is never made: a test sees the calls of the names that it tries.", "anchors": ["lib/lookup.c:340-346", "lib/lookup.c:397-402", "lib/lookup.c:126-255", "lib/idna.c:87-121", "lib/idna.c:138-154"]}
{"id": "C113", "title": "The Punycode coders make a bounded number of rounds, however long the input is", "statement": "The encoder makes at most one more pass over its input than there is room for characters in its output, and no more than the input has characters; the decoder inserts at most one more code point than it has room for.  So the encoding of a label in lookup takes at most sixty passes, whatever its length.  Both bounds are attained.", "quantifier": "for all inputs of any length, all sizes of the output up to that of the array", "why_tests_cant": "Inputs of any length; the number of rounds is not visible in the results.", "anchors": ["lib/puny_encode.c:187-241", "lib/puny_decode.c:190-239", "lib/lookup.c:210-218", "lib/lookup.c:340-341"]}
{"id": "C114", "title": "The labels of looked-up names hold no invisible characters but the joiners", "statement": "A character that NFKC_Casefold removes (Default_Ignorable_Code_Point: zero-width spaces, the bidirectional controls, variation selectors, fillers, tags) is never in a label outside ASCII that a name with a lookup result stands for, unless it is one of the two joiners U+200C and U+200D; this holds for TR46 processing and for NO_TR46, and for A-labels in the input.  After TR46 processing, transitional or not, the result converted back to Unicode shows none of them.  In TR46 processing such characters, when they are not disallowed, make no difference to the result wherever they are put; the mapping of a name without disallowed characters leaves none but the joiners, and transitional processing not even these.  IDNA2008 allows none but the joiners.", "quantifier": "for all names, all flags without NO_ALABEL_ROUNDTRIP and without TRANSITIONAL (C114_lookup) or without NO_TR46 (C114_shown), all normalisers with the laws of U.Laws, all code points of the shipped tables", "why_tests_cant": "About 4000 characters in any position of any name; the absence of a character from all accepted labels.", "anchors": ["lib/lookup.c:142-256", "lib/lookup.c:285-470", "lib/idna.c:121-260", "lib/IdnaMappingTable.txt", "lib/DerivedNormalizationProps.txt"]}
{"id": "C115", "title": "The library exports the functions its header declares, and nothing else", "statement": "Every function that idn2.h.in declares is defined in the sources of the library and is a global name of the linker version script; the global names are those functions and the two compatibility symbols for the Punycode coders, and all of them are defined; all other functions of the sources stay local.", "quantifier": "for all names in the version script, the header and the definitions of the sources of the library", "why_tests_cant": "Tests link against the functions they use; a missing definition for an exported name and a visible inner function go unnoticed.", "anchors": ["lib/idn2.map:17-55", "lib/idn2.h.in:216-341", "lib/Makefile.am:31-43", "lib/puny_encode.c:247-254", "lib/puny_decode.c:246-253"]}
{"id": "C116", "title": "What to-unicode shows are the labels of a name that can be looked up", "statement": "When to-unicode shows a name, its labels are valid, and looking up what is shown leads back to the same name.  In particular a single label is not shown as several, and no bidirectional controls are shown.", "quantifier": "for all names; for results of lookup, all flags without NO_TR46 and NO_ALABEL_ROUNDTRIP; for the violation, all labels of letters and digits around any of the three other full stops, with the shipped tables and any normaliser with the laws of U.Laws", "why_tests_cant": "The tests convert names that lookup has made.  What happens to other A-labels is a statement about all strings.", "anchors": ["lib/decode.c:63-163", "lib/decode.c:226-260", "lib/puny_decode.c:140-246"]}
