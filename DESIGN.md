# Formal model of libidn2: design

## Scope

The code is C (`/repo/lib`).  It is modelled function by function in Lean 4
under `lean/Verif/Model`, every definition citing file and lines.  Proofs live
in `lean/Verif/Proof` (lemmas) and `lean/Verif/Props` (the property theorems,
one file per property group, each with concrete non-vacuity examples).
Specifications that do not mention model helpers live in `lean/Verif/Spec`.

### Representation

* bytes, code points and C integers are `Nat`; 32-bit wrap-around is explicit
  (`u32`, `sub32`), 64-bit `size_t` subtraction is explicit (`sub64`).
* C strings are the byte list before the terminating NUL.  Pointers into a
  string are list suffixes.
* output arrays are the list of elements written so far, together with the
  physical size of the array: a write outside it is the outcome `ub`.
* undefined behaviour (out-of-bounds access, division by zero, double free,
  use after free, non-termination of a fuelled loop) is a distinct outcome
  `ub`; the safety theorems state that it is unreachable.
* functions that allocate are written once, polymorphically over a monad with
  `malloc`/`free`/`touch`; the instance `Out` (allocation always succeeds, no
  heap) gives the functional behaviour, the instance `HeapM` (heap of live
  blocks plus an arbitrary allocation-failure schedule) gives leak/OOM
  behaviour.
* Unicode tables that are part of the repository (IdnaMappingTable.txt,
  idna-tables-properties.csv, DerivedNormalizationProps.txt NFC_QC) are
  transcribed byte for byte to Lean data by `tools/gen_data.py`; the generators
  `gendata.c` and `gentr46map.c` are modelled in Lean from the bytes they read
  (`fgets`, `strtok`, `strpbrk`, `sscanf`) to the bytes they print
  (`Model/GenPrint.lean`).  That the bytes read state the rows used elsewhere is
  checked by the kernel over the whole files.
* functions of libunistring that are not part of this repository are
  parameters (`Uni`): NFC normalisation, canonical combining class, bidi
  class, joining type, script, general category M, locale conversion.  The
  laws used about them are a separate structure (`Uni.Laws`) and appear as
  hypotheses of the theorems which need them.  UTF-8/UTF-32 conversion is
  modelled concretely.

## Trusted base

* Lean 4.33 kernel; axioms `propext`, `Classical.choice`, `Quot.sound` only.
* the transcription of the C text into the model and of the bytes of the data
  files into Lean numbers (`tools/gen_data.py`: one number per line, the first
  byte being the least significant).
* how the C compiler reads the printed texts: `Spec/CText.lean` has a lexer, a
  parser for definitions with initialisers, and the values of constants for the
  part of C these texts use.  Preprocessor lines are skipped; an array without
  elements (`idna_map_16[0] = {}`) is accepted, which is an extension of GNU C;
  `printf` is modelled for %X, %02X, %u/%d (values below 2^31) and %s.
* the model of libunistring's UTF-8/UTF-32 conversions, of C library string
  functions, and the laws in `Uni.Laws` where a theorem assumes them.
* of the command line tool `src/idn2.c`, `hexdump`, `process_input` and `main`
  are modelled (`Model/Cli.lean`); the texts of --version, --help and the blurbs,
  `isatty` and `ferror` are parameters of a run; `getline` allocates its buffer
  once; messages on stderr are structured values, not text.
* the option parser (`Model/CmdLine.lean`) is generated by gengetopt from
  `src/idn2.ggo` and calls `getopt_long`; neither is in the repository.  What they
  do with the table of `src/idn2.ggo` is written from memory and is trusted:
  abbreviations (options of the same `val` are not told apart), permutation,
  POSIXLY_CORRECT, an option given twice is an error, --help and --version return
  at once.  Its messages and allocations are left out.
* `strverscmp`, which `idn2_check_version` calls, belongs to the C library; it is
  written in `Model/Version.lean` after the implementation of the GNU C library
  (tables `next_state` and `result_type`), from memory, and is trusted.
* the fuzz targets `fuzz/*_fuzzer.c` are modelled (`Model/Fuzz.lean`): the input
  is aligned for the casts to `uint32_t *`, an array without initialiser holds
  zeros; the calls of `idn2_strerror` and `idn2_strerror_name` are left out.  The driver `fuzz/main.c` (`Model/FuzzMain.lean`) has the file system as a parameter; a run is a list
  of events; directory handles and the numbers in messages are left out; `__AFL_LOOP` is the one of the file
  (one round).
* the example programs `examples/*.c` are modelled (`Model/Examples.lean`): the
  text of `perror` and the size of the buffer are parameters, a read error is an
  end of input, `setlocale` is the locale of the environment.
* of the test programs `tests/test-lookup.c` is modelled (`Model/TestLookup.lean`): printing, failed
  allocations and overflow of the counters are left out, the number of failures among the seven single calls of
  `test_homebrewed` is a parameter.  These calls and `test_unicode_range` are in `Model/TestLookupCalls.lean`, run on
  the library with allocations that may fail.
* `tests/test-register.c`, `test-tounicode.c`, `test-punycode.c`, `test-strerror.c` and `test-locale.c` are modelled
  (`Model/TestPrograms.lean`) with arbitrary functions in place of the library: printing, failed allocations of the
  programs, overflow of the counters, and calls whose results are dropped are left out.  Their tables are parameters;
  those of `test-punycode.c` and `test-tounicode.c` are in `Data/Vectors.lean`.
* `tests/test-glibc.c` is modelled (`Model/TestGlibc.lean`) with arbitrary locales: printing, failed allocations of the
  program, overflow of the counter, and MinGW are left out; the calls are parameters.
* not modelled: the scripts in `tests`, the rest of gnulib, `iconv`.

## Plan per property

* **C01 Punycode encode/decode round trip** - model both coders; theorem via an RFC 3492 insertion-sequence specification; full, any length (the only decoder failure left is a reported 32-bit overflow for labels of more than 3800 code points).
* **C02 Punycode decode/encode round trip (decoding is injective up to documented aliases)** - same specification, uniqueness of the insertion sequence.
* **C03 Punycode coders are memory safe, free of arithmetic undefined behaviour, and terminate** - `ub` unreachable in both coders.
* **C04 Punycode encoder computes the RFC 3492 encoding despite 32-bit arithmetic** - refinement of the unbounded-integer specification.
* **C05 Punycode decoder output is well formed** - loop invariant of the decoder.
* **C06 Conversion to UTF-32 yields Unicode scalar values** - violated by the code (low surrogates DC00..DFFF pass): negation proved with a witness, partial theorem for the rest.
* **C07 Lookup output respects DNS size limits** - closed form of the label loop, then arithmetic.
* **C08 Lookup output is ASCII** - follows from closed form and encoder alphabet.
* **C09 Lookup is memory safe** - `ub` unreachable in lookup, including `_tr46` buffer (first pass length = second pass writes).
* **C10 Label-wise behaviour of lookup without TR46** - closed form of the label loop (split/map/join).
* **C11 ASCII pass-through** - corollary of C10.
* **C12 ToASCII is idempotent** - C01/C02 + closed form + table laws; table laws proved for the shipped tables.
* **C13 Conflicting flags are always rejected, others never** - decision logic.
* **C14 Default flags and ignored flags** - decision logic + all uses of flags.
* **C15 NULL-argument conventions** - decision logic; violated for idn2_to_unicode_8z8z/8zlz (output left uninitialised): negation with witness, partial for the others.
* **C16 ToASCII entry points agree** - function equality.
* **C17 idn2_to_ascii_4i stores a zero-terminated string** - violated (no terminator written): negation with witness, partial theorem about the bytes written.
* **C18 ToUnicode entry points agree** - function equality.
* **C19 ToUnicode leaves non-ACE names alone** - closed form of the to-unicode loop.
* **C20 ToUnicode respects size limits and is memory safe** - closed form + `ub` unreachable.
* **C21 ToUnicode inverts ToASCII** - C01/C02 + closed forms + laws.
* **C22 Registration returns the A-label it was given, and only if it is genuine** - C01/C02 + model of register.
* **C23 Registration with A-label, U-label, or both is consistent** - as C22.
* **C24 Registration output and memory safety** - as C22.
* **C25 What can be registered can be looked up** - C01 + table implication proved over the whole shipped tables.
* **C26 Bidi rule** - code is compared with a declarative RFC 5893 predicate; known deviations (rule 4 unchecked, NSM resets the end condition) are proved as negations, the exact accepted set is characterised.
* **C27 CONTEXTJ rules** - declarative predicate vs loops.
* **C28 CONTEXTO rules** - declarative predicate vs loops.
* **C29 Label validation is exact** - decision logic over all test masks.
* **C30 IDNA2008 property table lookup** - bsearch correctness on sorted tables + model of gendata + whole-table check.
* **C31 TR46 mapping table lookup** - generator + lookup correctness for all well-formed files + whole-table check of the shipped file.
* **C32 TR46 processing maps each character as specified** - two-pass loop refinement.
* **C33 Lookup depends only on the mapped name; ASCII case and dot variants do not matter** - congruence theorem + whole-table facts.
* **C34 STD3 output alphabet** - table laws + C02/C05.
* **C35 Accepted A-labels are genuine** - consequence of closed form.
* **C36 IDN2_NFC_INPUT normalises** - violated (quick check skips the character after a supplementary one): negation + partial + exact description (`Spec.looked`, `Spec.Norm`).
* **C37 Malformed UTF-8 is always rejected** - UTF-8 model.
* **C38 Passing a NULL output pointer does not change the verdict** - monadic model.
* **C39 Outputs untouched on failure** - monadic model: outputs are only returned with IDN2_OK.
* **C40 Allocation failure is reported and never changes a result** - simulation between the heap instance and the pure instance.
* **C41 No memory leak, double free or use after free** - heap invariant for the heap instance.
* **C42 Transitional processing agrees with non-transitional on names without deviation characters** - comparison of test masks.
  `C42_shipped`: for the tables of the repository, by a check of the mapping table.
* **C43 Error strings** - finite function; violated for IDN2_INVALID_FLAGS in idn2_strerror; negation + partial.
* **C44 A-labels accepted by lookup are stable under TR46** - violated for disallowed_STD3_mapped characters: negation + partial (C21).
* **C45 Locale entry points reduce to the UTF-8 ones** - decision logic over arbitrary converters.
* **C46 The Punycode decoder accepts exactly the encodings** - soundness and completeness of the decoder against `Spec/Punycode`.
* **C47 An ASCII U-label is registered untested** - closed form of register.
* **C48 Lookup computes the declarative ToASCII** - equivalence with `Spec/ToAscii`; for NO_TR46 with NFC_INPUT with `Spec/ToAsciiNfc`.
* **C49 To-unicode computes the declarative ToUnicode** - equivalence with `Spec/ToUnicode`, success and every error code.
* **C50 First fault** - `_idn2_label_test` reports the fault of the first step at the first position
  (`FirstFault` in `Spec/Label.lean`; the blocks of the function are followed in `Proof/FirstFault.lean`).
* **C53 Generators read any text in the format** - grammar in `Spec/Text`, scanner models in `Model/GenText`; theorem for all texts in the grammar; witnesses for texts outside of it.
* **C51 Registration, completely** - exact acceptance of U-labels (C22 is the same for A-labels) and, for
  each refusal, the reason the code states (`Props/RegisterIff.lean`; with NFC_INPUT `Props/LookupNfc.lean`).
* **C52 Errors of lookup** - `Spec/ToAsciiErr.lean` states which error each name gets; the closed forms
  are inverted label by label (`Proof/LookupErr.lean`; with NO_TR46 and NFC_INPUT `Proof/LookupNfc.lean`).
* **C64 Lookup, C65, C66 registration: every outcome** - `Spec/Lookup.lean` and `Spec/Register.lean` are
  relations between the arguments and a result or error code, built from `FirstFault`, the Punycode outcome
  relations (C62, C63) and the accounts of C48 and C52.  The relations are shown to have at most one outcome
  (`Proof/LookupExact.lean`), the library to have at least one that satisfies them; the equivalences follow.
* **C55 Punycode error codes** - from the specifications of the loops with named errors
  (`punycode_encode_errors`); decoder: lack of space only.
* **C67 Printed tables** - the text printed is read back by a small C front end written independently of the
  printing (`Spec/CText.lean`); lexing and parsing are followed piece by piece (`Proof/GenPrint.lean`), the
  bounds on what is printed come from the scanning (`Proof/GenPrintOk.lean`).
* **C68 idn2_check_version** - for version numbers (decimal numerals without leading zeros separated by full
  stops) the check is the comparison of the components as numbers; with NULL, and for the library's own version
  string whatever it is, the version is returned.  Leading zeros mean fractional parts to `strverscmp` and are
  outside of the first theorem (an example shows "2.1" accepted for "2.09").
* **C69 Fuzz targets** (partial) - `Model/Fuzz.lean` has the three targets of /repo/fuzz, over the same memory
  interface as the library.  The register and to-ASCII targets are sound for all data and all allocation
  failures.  The to-Unicode target writes through the result of an unchecked `malloc (4)` if the data is empty:
  undefined if that allocation fails (`C69_empty_undefined`), sound otherwise.  Finding: the register target
  stores its terminating zero at `alabel[size]` instead of `alabel[size + 4]`, so that the last four bytes of
  the data never get into the A-label it tests (`C69_alabel_cut`); with up to four bytes it tests a prefix of
  "xn--" only.  `data` is taken to be aligned for 32-bit access.
* **C70 Answers** - `Spec/Answer.lean` puts the accounts of lookup, registration and to-unicode together with the
  conversions around them into one relation between requests and answers.  `Props/Answer.lean` derives from
  C49, C64-C66 and the heap triples of C38-C41 that a call gives the answer or IDN2_MALLOC, and that
  IDN2_MALLOC is the answer to no request (so C40 leaves no doubt about what IDN2_MALLOC means).  The
  functions that fill an array of the caller (`4i`, `44i`) are not among the requests; see C17, C18, C41.
* **C71 Examples** (partial) - `Model/Examples.lean` has the five example programs, `Spec/Examples.lean` the screen they
  should show in terms of `Answer`.  It holds for lines with newline, without NUL, that fit the array.  A line without
  newline loses its last byte, as does one that fills the array (`C71_no_newline`, `C71_long_line`); if the input begins
  with a NUL all programs write to `buf[-1]`, and without input two of them read an uninitialised array
  (`C71_nul_undefined`, `C71_no_input`).
* **C72 ASCII-only strings** - induction over the two scans; kernel check over all rows of the two test tables.
* **C73 Compatibility macros** (partial) - `Spec/CExpr.lean` gives the value of an expression as a list of tokens
  (C11 6.5.10-6.5.15; operands that bind more tightly are one token, side effects are left out), `Model/Compat.lean`
  appends the tokens of the macro.  Appending changes what belongs to the last operator; by induction over the
  nesting no more than the two added bits can be lost, which C74 shows to be without effect.
* **C74 Flag bits** - the relations of C64 carry over from one word of flags to the other; conversely there are 13
  classes of flags, and five names whose lookups tell each two of them apart.
* **C75 UTS #46 extends IDNA2008** - through the relations of C48: the code points are valid or deviations, so that
  mapping changes nothing; the tests of the two modes differ in bits that such code points do not touch.  Examples
  beside the theorem show that the hypotheses are needed: "-ä", "ab--c", "A", the A-label of "a¨" without STD3
  rules, and a name that is not in NFC.
* **C76 Fuzz driver** - heap triples by induction over the entries of a directory.  The second `snprintf` of the name of
  a directory is not checked; that has no effect (`corpus_cut`): no path of a file in a directory with such a name fits.
* **C77 UAX #15** - canonical ordering is insertion sort; composition does not change the decomposition because what a
  starter is composed with is not blocked, so it commutes with what it passes (`reorder_move`).  Quick check: the
  decomposition of a starter is merged with the marks behind it, and composition takes out exactly what belongs to it
  (`composeFrom_merge`).
* **C78 STD3 rules** (partial) - through the relations of C64 and C48: the mapping of a character with an STD3 status is
  empty; the masks of the label tests differ in one bit, which matters for such characters only.
* **C79 No collisions** - through C48: every label of the result is the ASCII label of one label of `StandsFor`
  (`AceOf`), and Punycode decodes to one label only, so `AceOf` is one-to-one in both directions.
  `C79_unchecked` is the same without the check of A-labels; for NO_TR46 with NFC_INPUT it is `C79_unchecked_nfc`, with
  the hypothesis that NFC makes lower-case letters, digits and hyphens only of themselves.  There labels may have ASCII
  characters that the Punycode decoder refuses, so that Punycode is shown to be one-to-one by itself (`encode_inj`: the
  last hyphen separates, and the rest does not depend on which ASCII characters there are).
* **C80 Lifting checks** - through C48, clause by clause.  `C80_nfc_names` is the converse for names whose labels, the
  decoded A-labels included, are in NFC.
* **C81 Stable mapping** - `Spec.Closed` is checked for all lines of the file in the kernel, with a search tree
  over the lines (`Proof/Closed.lean`); lookup through C33.
* **C82 Registered names** (partial) - through C65, C22 and C49: Punycode decodes to one label only.
* **C83 Labels by themselves** - with NO_TR46 through C10, otherwise through C48: the mapping and (by the law
  `nfc_sep`) the normal form of a text are those of the parts at a full stop.
* **C84 Valid labels, Bidi names** (partial) - through C48 and C26; `Spec/BidiName.lean` states RFC 5893 for names.
* **C85, C86 To-unicode of parts and of results** (C86 partial) - through C49.
* **C87 Empty labels** (partial) - through C48 and C10.
* **C88 A-labels in any case** (partial) - through C35, C34 and C49.
* **C89 Deviation characters replaced** - through C42 and C81.
* **C90 Letter case** - the decoder followed on two inputs at once (`decode_lower`); to-unicode through `uniP`.
* **C91, C92 Error codes** (C92 partial) - through the exact descriptions C64, C65, C66, C49 and C62: the lists are in
  `Spec/Codes.lean`.  `Spec.Ruled` (every CONTEXTJ and CONTEXTO code point has its rule) is checked for all lines of the
  property file in the kernel.
* **C93, C94 Conformance test** (C94 partial) - `Model/TestLookup.lean` with an arbitrary function in place of
  `idn2_lookup_u8`; the format of the file is in `Spec/IdnaTest.lean`.  That the file of the repository is in this
  format (7762 tests, 78 comments, 8 blank lines) is not proved: it was checked once with a Python script, not kept
  here.  The calls outside of the tables: heap triples for each call, induction over the loop
  (`Props/TestLookupCalls.lean`).  `C94_summary` gives the numbers of the last line the program prints; `C94_singles`
  and `C94_range_calls` list the calls made outside of the tables, with a library that records them.
* **C95 Other test programs** (partial) - `Model/TestPrograms.lean`; what a row asks for is in
  `Spec/TestPrograms.lean`.  The counters are followed by induction over the tables; that the library meets the
  conditions of the statement about test-register.c is `C95_register_library`.
* **C96 glibc test** - `Model/TestGlibc.lean`, `Spec/TestGlibc.lean`; induction over the locales.  The library meets
  the condition of the statement (`C96_sets_library`).  Of the calls listed in the program those of
  `idn2_to_unicode_lzlz` are proved of the library, those of `idn2_lookup_ul` are not.
* **C97 ToASCII of UTS #46** (partial) - `Spec/Uts46.lean` transcribes sections 4, 4.1 and 4.2 of the standard without
  regard to the library.  `C97_complete` and `C97_sound_partial` compare it with the account of lookup of C48 label by
  label; what the library demands in addition (`Extra`) and what it does not demand (`Side`) is explicit.
* **C98 ToUnicode of UTS #46** (partial) - `Spec/Uts46.lean` has section 4.3 as well.  `C98_agree`: on a name that is
  mapped already, with A-labels of the form of host names, that is processed without error, to-unicode succeeds exactly
  if the labels have at most 63 and the result at most 255 characters, with the result of the standard.  `C98_back`: so
  it does on the results of ToASCII of the standard, `C98_lookup_partial`: and on those of lookup under the side
  conditions of C97.  `processing_ace`: ToASCII and ToUnicode of the standard are inverse.  Partial because to-unicode
  neither maps nor validates.
* **C99 Files accepted** - `Spec/GenAccept.lean` says which lines are within the limits, which make the generator
  write out of bounds, and what it does not check.  Invariant over the lines with the exact number of entries and
  bytes, and its converse; the table proofs of C31 now start from `Accepted` and `Unchecked`.
* **C100 Lookup of RFC 5891** (partial) - `Spec/Rfc5891.lean` transcribes sections 4 and 5 of RFC 5891.  `must_iff`: the
  tests of lookup under NO_TR46 are those of section 5.4 together with the library's Bidi check.  `C100_sound` and
  `C100_complete_partial` compare label by label with the account of lookup of C48.
* **C101 Registration of RFC 5891** (partial) - `uLabel_iff`: the tests of registration are those of section 4.2, up to
  the Bidi check; then C65 and C66.
* **C54 Shipped bytes** - kernel check over all bytes (in pieces of 250 lines) + C31.
* **C102 Calls of the fuzz targets** - the targets are written over a table of the library functions
  (`FuzzLib`); with a table that writes down each call and gives arbitrary answers, the list of calls is the one of
  `Spec/FuzzCalls.lean` (`C102_register`, `C102_to_ascii`, `C102_to_unicode`).  Allocations succeed there; for
  failing ones see C69.  The calls for the error texts are left out, and that the A-label is cut is stated as it is.
* **C103 Command line** (partial) - `Spec/CmdLine.lean` gives the grammar of a command line after the text of --help.
  The finitely many beginnings of option names are checked by the kernel (`beginnings_checked`); everything else is by
  induction over the arguments (`cmdLoop_iff`).  `C103_outcome` is exact, `C103_session` continues with C57.
* **C104 Unicode versions** (partial) - `Spec/Versions.lean` lists the code points added after Unicode 11 that UTS #46 does not
  disallow.  `C104_disagree` is exact for all code points (one pass over both files, checked by the kernel);
  `C104_refused` follows with C84, `C104_violated` with C97.
* **C105 Label separators** - `partsOf` cuts a name at the separators.  `C105_labels` is an equivalence, from C33 (the other
  full stops may be replaced by ".") and C83 (names are looked up label by label); that no other line of the mapping table
  has a full stop is checked by the kernel on all lines (`Shipped.dotData`).
* **C106 Delimiters of URLs** (partial) - `delimSources` lists 23 characters.  `C106_sources`: where delimiters of a result
  come from; `C106_std3_partial`: none with STD3 rules; `C106_split`, `C106_violated`: what the 23 characters do without.
  That normalisation makes no delimiters is a hypothesis; `C106_uax15` reduces it to the data of normalisation.  Without
  UTS #46 processing (`C106_no_tr46`, all other flags) it is not needed, because the delimiters are DISALLOWED.
* **C107 Host names** - `HostLabel` (RFC 952/1123) and `Reserved` (hyphens in the third and fourth place).  `C107_host`: every
  non-empty label of a result with STD3 rules is a `HostLabel`, and a reserved one is a checked A-label; `encode_last`: a
  Punycode text does not end with a hyphen.  `C107_pass`: host names without reserved labels are looked up as themselves
  in lower case.
* **C108 RFC 5892** - `Settled` lists the classes the document settles itself; one walk along the property file per list.
  `C108_lookup`, `C108_register`: consequences for names.
* **C109 NV8 and XV8** - the two data files are walked along together, with the marks read from the text.
  `C109_lookup`: consequence for names.
* **C110 NFKC_Casefold** - `Spec/Casefold.lean` reads the property NFKC_CF off the text of
  `DerivedNormalizationProps.txt` (the generators skip these lines); `Data/Fold.lean` walks along it and the mapping
  table.  `C110_mapping` is exact apart from U+3002 and U+FF61, `C110_caseless` and `C110_folded` are about names,
  `C110_stable` about the property table, `C110_lookup` about the labels of names with results.  With the default
  flags A-labels may contain characters of status disallowed_STD3_mapped (C44): the last case of `C110_lookup`.
* **C111 Composition exclusions** - `Spec/Exclusion.lean` reads Full_Composition_Exclusion off the same text (skipped by
  the generators, too).  Same exception for disallowed_STD3_mapped in `C111_lookup`.
* **C114 Invisible characters** - `Shipped.Invisible` is the empty NFKC_CF of the same text, so it needs no list of its
  own; `C114_bidi_controls` checks that the bidirectional controls are among them.  `C114_tr46` is about the labels UTS #46
  processing ends with, `C114_shown` joins it to the two conversions; `C114_lookup` covers NO_TR46, too.
  `C114_mapped` is about the text before NFC.
* **C116 What to-unicode shows** (partial) - `C116_any`: everything that Punycode can express; `C116_lookup_partial`: valid
  labels for results of lookup.  `C116_violated` and `C116_bidi_controls` are consequences of the first.
* **C112, C113 Work** - the model has no clock.  C112 says that long texts are not normalised by letting the
  normaliser do anything on them; C113 stops the coders after k rounds (`encodeWithin`, `decodeWithin`: the model with
  another bound of the loop, running out of which is undefined) and shows that nothing changes.  The comment
  lookup.c:340-341 calls the encoder quadratic; with a bounded output it is not.  The cost of `_idn2_label_test` is not
  treated: with the rules for digits and the middle dot (registration only) each such character makes a pass over the label.
* **C115 Exports** (partial) - `Data/Exports.lean` holds the text of `idn2.map`, the declarations of `idn2.h.in` and the
  lines of the sources on which definitions begin (found by a script: word, space, parenthesis in the first column);
  `Spec/Exports.lean` reads them.  The preprocessor is not modelled: HAVE_SYMVER_ALIAS_SUPPORT is taken to be defined.

* **C56-C61 Command line tool** - `Spec/Cli.lean` states a session in terms of the declarative accounts of
  the three conversions (`Prints`, `Refuses`); the two loops are followed by induction over the list of
  strings (`Work`), once without and once with a heap (`Proof/Cli.lean`).

* **C62, C63 Punycode outcomes** - `Spec/PunyDecode.lean` and `Spec/PunyEncode.lean` describe every outcome,
  error codes included, over unbounded integers; both directions proved for the coders
  (`Proof/PunyDecExact.lean`, `Proof/PunyEnc.lean`, `Props/PunyDecode.lean`, `Props/PunyEncode.lean`).

## Disagreements between code and property

Each is proved as a negation with a concrete witness; what remains true is
proved in the theorem(s) named `…_partial` (or in an exact characterisation).

* **C06** The Punycode decoder rejects only code points 0xD800..0xDBFF and
  > 0x10FFFF (`puny_decode.c`), so low surrogates come out of to-unicode.
* **C15** `idn2_to_unicode_8z8z` / `8zlz` with NULL input return IDN2_OK although
  the inner call set only the local variable; the result is whatever the
  conversion of an unset pointer gives.
* **C17** `idn2_to_ascii_4i` stores the characters but no terminating NUL.
* **C21** in transitional mode `xn--zca` is accepted, so to-ASCII of to-unicode
  is not the identity there; with STD3 mapped characters likewise.
* **C26** `_idn2_bidi` does not check that European and Arabic digits are not
  mixed (rule 4), and a trailing NSM is not skipped as rules 3 and 6 demand.
  The accepted set is characterised exactly by `BidiAccepted`.
* **C36** `_isNFC` skips the character after a supplementary one.
* **C43** `idn2_strerror` has no text for some codes the library returns.
* **C44** an A-label containing a disallowed_STD3_mapped character is accepted
  although mapping would change its U-label.

* **C60** `hexdump` (--debug) never frees the two conversions it makes.
* **C61** with --debug the dump labelled "output" shows `readbuf`, the input.

* **C69** the to-Unicode fuzz target does not check `malloc (4)`; the register fuzz target cuts four bytes
  off the A-label it builds.
* **C76** the driver of the fuzz targets does not check `malloc (st.st_size)`: for an empty file and a failed
  allocation a null pointer is passed to `memcpy` (`C76_empty_undefined`).
* **C71** `buf[strlen (buf) - 1] = '\0'` in the example programs assumes a newline; `perror` without `return`.
* **C72** the last row of tests/test-punycode.c ("-> $1.00 <-") is not decoded; the program counts the failure
  and returns 0 whatever it counted.
* **C73** the libidn macros of idn2.h.in do not put `f` in parentheses: of `1 ? IDN2_TRANSITIONAL : 0` the
  transitional lookup remains, where `IDN2_TRANSITIONAL` alone is refused.
* (C74, no violation) USE_STD3_ASCII_RULES has no effect with NO_TR46, as the manual says.  The comment in
  idn2.h.in:197-199 says that it is also ignored without TRANSITIONAL and NONTRANSITIONAL; it is not, since
  NONTRANSITIONAL is the default.  NFC_INPUT has no effect except with NO_TR46, which is not documented.

* **C78** with USE_STD3_ASCII_RULES `_tr46` has no branch for the two STD3 statuses, so that the characters are
  removed without an error: "a_b" is looked up as "ab".  (NEWS for 2.0.3 speaks of "eliminating" them; UTS #46 makes
  them an error.)
* **C82** ASCII U-labels are registered untested (C47), so that "xn--zca" given as U-label is registered under
  the name of "ß" (`C82_violated`).
* **C84** RFC 5893 asks the Bidi rule of every label of a name with a right-to-left label; `_idn2_bidi` sees one
  label at a time and skips those without right-to-left characters: "1a.א" is looked up
  (`C84_bidi_name_violated`).
* **C86** to-unicode does not test what it decodes: "xn--xn---ooa" is shown as "xn--ä", and that is refused by a
  second call (`C86_violated`).
* **C88** with NO_TR46 `label` compares the prefix "xn--" with regard to case: "XN--A-" passes as an ordinary
  label, and to-unicode, which disregards case, refuses the result (`C88_violated`).
* **C87** empty labels are let through by lookup, in the name or left by the mapping: "a..b" (`C87_violated`).  UTS #46
  and the DNS allow an empty label at the end only.
* **C103** "--no", an abbreviation of --no-tr46 and of --no-alabelroundtrip, is not refused but taken for the former
  (`C103_violated`): `getopt_long` does not tell options without a letter apart, all of which have the value 0.  The
  example in the text of --help, `idn2 --quiet -- -foo`, ends with an error (`C103_foo`).
* **C92** to-unicode passes the error codes of the Punycode decoder on, which its documentation does not list:
  "xn--" is refused with IDN2_PUNYCODE_BAD_INPUT (`C92_violated`).
* **C94** tests/test-lookup.c never counts a transitional lookup as failed, nor a name of IdnaTest.txt that should be
  refused and is not; in its own table IDN2_ENCODING_ERROR passes for any outcome (`C94_violated`).  `isspace` is
  called with negative values there (3087 lines have a column that begins with a non-ASCII character), which ISO C
  leaves undefined; the model takes such a byte not to be a space, as glibc does.  A cut-off `\u` escape would be
  read past the end of the array; the file has none.
* **C95** tests/test-punycode.c ends with 0 whatever it counted, and compares but a quarter of each decoding
  (`C95_punycode_violated`, `C95_decoding_violated`); that is how the row of C72 goes unnoticed
  (`C95_punycode_library`).  tests/test-register.c compares the output before it looks whether there is one
  (`C95_register_violated`).  tests/test-tounicode.c follows a null pointer when a result is not UTF-8, and reads past
  its array when a result has more than 127 code points (`C95_unicode_violated`, `C95_array_violated`).
* **C97** lookup accepts, and ToASCII of UTS #46 refuses: names with empty labels and the root (`C97_violated_empty`,
  `C97_violated_root`), Bidi names with a label against the Bidi rule (`C97_violated_bidi`), characters that STD3 rules
  exclude (`C97_violated_std3`, removed from the name), A-labels with characters that ought to be mapped
  (`C97_violated_mapped`) and, in transitional processing, with misplaced joiners (`C97_violated_joiner`).  ToASCII
  accepts, and lookup refuses: names that have 255 code points or more after mapping and fewer after normalisation
  (`C97_violated_length`: a name may be refused in decomposed form and accepted in composed form).
* **C98** to-unicode does not map (`C98_violated_mapped`: "A" stays "A") and does not validate (`C98_violated_valid`:
  "-a" is shown); it refuses A-labels with ASCII characters outside of host names even without STD3 rules
  (`C98_violated_star`) and labels of more than 63 characters (`C98_violated_length`), which UTS #46 does not.
* **C99** the generator of the UTS #46 tables does not check the end of its arrays: a line with 21 code points in the
  mapping writes behind `tmp` (`C99_violated_21`), and a code point of several bytes may be written across the end of
  `genmapdata` (`C99_ub`).  It accepts files with a gap, and the library then takes the code points of the gap for
  ones with the status of the first entry (`C99_gap`: "valid"); files with a line across U+00FF or U+FFFF (`C99_span`),
  with two NFC_QC lines for a code point (`C99_twice`), and properties out of order (`C99_disorder`).  The files in the
  repository are none of these (`C99_shipped`).
* **C100** lookup decodes A-labels without converting them to lower case first: "xn--F-0fa" is refused, although it is
  the A-label of "fä" in other letters (`C100_violated`).  ("XN--F-0fa" is passed on untested, which RFC 5891 permits.)
* **C115** the version script exports `idn2_decode_ul`, which is neither declared nor defined (`C115_violated`).  Linkers
  that check for this (lld by default) do not link the library.
* **C116** to-unicode does not test what it decodes.  The one label "xn--ab-r13a" is shown as "a。b", which lookup takes for
  the name "a.b" (`C116_violated`); "xn--ab-g4t" is shown with a right-to-left override (`C116_bidi_controls`).
* **C106** without USE_STD3_ASCII_RULES lookup turns 23 characters into ASCII text with ":", "/", "?", "#", "[", "]" or "@"
  (`C106_violated`).  "evil.c℀.b" is looked up as "evil.ca/c.b", and a program that puts the result into a URL contacts
  another host.  The flag is not set by default.
* **C104** the property file is of Unicode 11 (lib/Makefile.am:57-58), the mapping table of Unicode 13.  6476 code points
  are valid or mapped in the one and UNASSIGNED in the other (`C104_disagree`).  Lookup refuses them with IDN2_UNASSIGNED
  (`C104_refused`), except in transitional processing, where it accepts them (`C104_violated`).
* **C101** registration grants labels against rule 4 of the Bidi rule (`C101_violated`, see C26) and a string with the
  prefix "xn--" that is not the encoding of anything, if it is given as U-label (`C101_violated`, see C47).
* (C91, no violation) IDN2_DOT_IN_LABEL, IDN2_CONTEXTJ_NO_RULE and IDN2_CONTEXTO_NO_RULE are never returned, although
  there is code for them.

Found in the command line tool without violating a property: -T wins over -N
and both over --no-tr46 without a message; -r wins over -d; a newline at the end
of an argument is removed and "show w" works as an argument too; a NUL on
standard input hides the rest of its line; if `getline` cannot allocate its
buffer the run ends silently with status 0.

Found in the generators (C53; outside of the format of the files, so no property
is violated): a line with one field only makes `read_IdnaMappings` call `strcmp`
with a null pointer; an NFC_QC line without value makes `read_NFCQC` dereference
one; a line of more than 1023 bytes is split, so the end of a long comment is
read as data; the loop that strips CR and LF looks at the terminating zero and
never does anything (the fields are trimmed later); "Missing mapping" is printed
into the generated file.

## Hypotheses that appear in theorems

* `0 ∉ s` for C strings: the bytes before the NUL.
* `Implements T D` (Spec/Tables): the tables `T` give the data `D`; proved for
  the shipped tables from the shipped text files (`World.shipped`).
* `Spec/Laws`, `Data/Laws`: facts about the data (closure of mapping, NFC of
  mapped characters, ...), proved for the shipped data where they concern the
  tables only, assumed of the normaliser where they concern libunistring.
* `QuickSound` (C36): the quick check never says YES for a non-NFC string.

The last two are theorems for a normaliser that follows UAX #15 (C77): `Spec/Uax15`
has the algorithm (full decomposition, canonical ordering, canonical composition)
over data that is a parameter, and `C77_laws` and `C77_quick` reduce `Uni.Laws`
and `QuickSound` to facts about single code points and pairs of code points of
that data.  Those facts are not proved for all of Unicode - the decompositions
are not part of this repository - but for Hangul and some Latin letters
(`Mini`, with the shipped NFC_Quick_Check data), and were tested with a script
over all code points and composition pairs of Unicode 14.

## Heap model

`libConv` (a libunistring conversion that returns a fresh block) is one
allocation that may fail.  A heap is the set of live blocks; `free` of a block
not live and `touch` of a block not live are `ub`.  The allocation schedule is
an arbitrary function, so "every allocation failure pattern" is covered.  A
callee that reads a block of its caller is preceded by one `touch` of the block;
that the callee does not free it follows because the caller's `free` after the
call would be `ub`.

## Testing the model

`tools/vectors` runs the model on all the test vectors of `/repo/tests`
(test-lookup.c, IdnaTest.txt, test-tounicode.c, test-register.c, test-punycode.c,
test-glibc.c: 13287 calls), with Unicode functions built from the character data
of the Perl and Python installations, and compares the answers as the test
programs do.  Only the row mentioned under C72 differs.  This is a test of the
transcription, not a proof.

## Testing the theorems

`seeded/LOG.jsonl` lists the edits made to scratch copies of the model.  Each
was examined in two ways: (a) a full rebuild, listing the theorems whose proofs
break; (b) with all property theorems assumed (`sorry`) about the edited
program, `False` was derived from an instance of a property theorem, which shows
that the statement itself - not only its proof - is false of the edited program.
