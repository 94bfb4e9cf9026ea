/-
The texts that say which functions the library has: the linker version script, the declarations of the
header, and the lines on which definitions begin.  Copied by a script.  Each number holds the bytes of a
line, the first byte being the least significant.
-/

namespace Idn2.Exports

/-- /repo/lib/idn2.map lines 17-56, without the license. -/
def mapTextLines : List Nat := [
  0x7B20302E302E305F324E4449,  -- IDN2_0.0.0 {
  0x3A6C61626F6C672020,  --   global:
  0x3B6E6F69737265765F6B636568635F326E646920202020,  --     idn2_check_version;
  0,
  0x3B656572665F326E646920202020,  --     idn2_free;
  0,
  0x3B38755F70756B6F6F6C5F326E646920202020,  --     idn2_lookup_u8;
  0x3B38755F72657473696765725F326E646920202020,  --     idn2_register_u8;
  0,
  0x3B6C755F70756B6F6F6C5F326E646920202020,  --     idn2_lookup_ul;
  0x3B6C755F65646F6365645F326E646920202020,  --     idn2_decode_ul;
  0x3B6C755F72657473696765725F326E646920202020,  --     idn2_register_ul;
  0,
  0x3B69345F69696373615F6F745F326E646920202020,  --     idn2_to_ascii_4i;
  0x3B7A345F69696373615F6F745F326E646920202020,  --     idn2_to_ascii_4z;
  0x3B7A385F69696373615F6F745F326E646920202020,  --     idn2_to_ascii_8z;
  0x3B7A6C5F69696373615F6F745F326E646920202020,  --     idn2_to_ascii_lz;
  0,
  0x3B7A347A385F65646F63696E755F6F745F326E646920202020,  --     idn2_to_unicode_8z4z;
  0x3B7A347A345F65646F63696E755F6F745F326E646920202020,  --     idn2_to_unicode_4z4z;
  0x3B6934345F65646F63696E755F6F745F326E646920202020,  --     idn2_to_unicode_44i;
  0x3B7A387A385F65646F63696E755F6F745F326E646920202020,  --     idn2_to_unicode_8z8z;
  0x3B7A6C7A385F65646F63696E755F6F745F326E646920202020,  --     idn2_to_unicode_8zlz;
  0x3B7A6C7A6C5F65646F63696E755F6F745F326E646920202020,  --     idn2_to_unicode_lzlz;
  0,
  0x3B726F7272657274735F326E646920202020,  --     idn2_strerror;
  0x3B656D616E5F726F7272657274735F326E646920202020,  --     idn2_strerror_name;
  0,
  0x2E736C6F626D7973207974696C6962697461706D6F43202320202020,  --     # Compatibility symbols.
  0x3B65646F636E655F65646F63796E75705F326E64695F20202020,  --     _idn2_punycode_encode;
  0x3B65646F6365645F65646F63796E75705F326E64695F20202020,  --     _idn2_punycode_decode;
  0,
  0x3A6C61636F6C2020,  --   local:
  0x3B2A20202020,  --     *;
  0x3B7D,  -- };
  0,
  0x7B20302E312E325F324E4449,  -- IDN2_2.1.0 {
  0x3A6C61626F6C672020,  --   global:
  0x3B3269345F69696373615F6F745F326E646920202020,  --     idn2_to_ascii_4i2;
  0x3B302E302E305F324E4449207D]  -- } IDN2_0.0.0;

/-- /repo/lib/idn2.h.in lines 216-233 and 306-342: all lines with `extern` are among them. -/
def headerTextLines : List Nat := [
  0x2F2A202E737475706E69206465646F636E6520382D46545520687469772038303032414E4449202A2F,  -- /* IDNA2008 with UTF-8 encoded inputs. */
  0,
  0x746E69204950415F324E44495F206E72657478652020,  --   extern _IDN2_API int
  0x3B297367616C6620746E69202C656D616E70756B6F6F6C202A2A20745F38746E6975202C637273202A20745F38746E69752074736E6F63282038755F70756B6F6F6C5F326E646920202020,  --     idn2_lookup_u8 (const uint8_t * src, uint8_t ** lookupname, int flags);
  0,
  0x746E69204950415F324E44495F206E72657478652020,  --   extern _IDN2_API int
  0x2C6C6562616C61202A20745F38746E69752074736E6F63202C6C6562616C75202A20745F38746E69752074736E6F63282038755F72657473696765725F326E646920202020,  --     idn2_register_u8 (const uint8_t * ulabel, const uint8_t * alabel,
  0x3B297367616C6620746E69202C656D616E747265736E69202A2A20745F38746E69752020202020200909,  --                       uint8_t ** insertname, int flags);
  0,
  0x2F2A202E737475706E69206465646F636E6520656C61636F6C20687469772038303032414E4449202A2F,  -- /* IDNA2008 with locale encoded inputs. */
  0,
  0x746E69204950415F324E44495F206E72657478652020,  --   extern _IDN2_API int
  0x3B297367616C6620746E69202C656D616E70756B6F6F6C2A2A2072616863202C6372732A20726168632074736E6F6328206C755F70756B6F6F6C5F326E646920202020,  --     idn2_lookup_ul (const char *src, char **lookupname, int flags);
  0,
  0x746E69204950415F324E44495F206E72657478652020,  --   extern _IDN2_API int
  0x2C6C6562616C612A20726168632074736E6F63202C6C6562616C752A20726168632074736E6F6328206C755F72657473696765725F326E646920202020,  --     idn2_register_ul (const char *ulabel, const char *alabel,
  0x3B297367616C6620746E69202C656D616E747265736E692A2A20726168632020202020200909,  --                       char **insertname, int flags);
  0,
  0x2F2A202E736E6F6974636E756620797261696C69787541202A2F,  -- /* Auxiliary functions. */
  0,
  0x746E69204950415F324E44495F206E72657478652020,  --   extern _IDN2_API int
  0x3B444554414345525045445F43554E475F4720297367616C6620746E69202C74757074756F202A2072616863202C6E656C6E6920745F657A6973202C7475706E69202A20745F3233746E69752074736E6F63282069345F69696373615F6F745F326E646920202020,  --     idn2_to_ascii_4i (const uint32_t * input, size_t inlen, char * output, int flags) G_GNUC_DEPRECATED;
  0x746E69204950415F324E44495F206E72657478652020,  --   extern _IDN2_API int
  0x3B297367616C6620746E69202C74757074756F202A2A2072616863202C6E656C6E6920745F657A6973202C7475706E69202A20745F3233746E69752074736E6F6328203269345F69696373615F6F745F326E646920202020,  --     idn2_to_ascii_4i2 (const uint32_t * input, size_t inlen, char ** output, int flags);
  0x746E69204950415F324E44495F206E72657478652020,  --   extern _IDN2_API int
  0x3B297367616C6620746E69202C74757074756F202A2A2072616863202C7475706E69202A20745F3233746E69752074736E6F6328207A345F69696373615F6F745F326E646920202020,  --     idn2_to_ascii_4z (const uint32_t * input, char ** output, int flags);
  0x746E69204950415F324E44495F206E72657478652020,  --   extern _IDN2_API int
  0x3B297367616C6620746E69202C74757074756F202A2A2072616863202C7475706E69202A20726168632074736E6F6328207A385F69696373615F6F745F326E646920202020,  --     idn2_to_ascii_8z (const char * input, char ** output, int flags);
  0x746E69204950415F324E44495F206E72657478652020,  --   extern _IDN2_API int
  0x3B297367616C6620746E69202C74757074756F202A2A2072616863202C7475706E69202A20726168632074736E6F6328207A6C5F69696373615F6F745F326E646920202020,  --     idn2_to_ascii_lz (const char * input, char ** output, int flags);
  0,
  0x746E69204950415F324E44495F206E72657478652020,  --   extern _IDN2_API int
  0x3B29444553554E555F43554E475F47207367616C6620746E69202C74757074756F202A2A20745F3233746E6975202C7475706E69202A20726168632074736E6F6328207A347A385F65646F63696E755F6F745F326E646920202020,  --     idn2_to_unicode_8z4z (const char * input, uint32_t ** output, int flags G_GNUC_UNUSED);
  0x746E69204950415F324E44495F206E72657478652020,  --   extern _IDN2_API int
  0x3B297367616C6620746E69202C74757074756F202A2A20745F3233746E6975202C7475706E69202A20745F3233746E69752074736E6F6328207A347A345F65646F63696E755F6F745F326E646920202020,  --     idn2_to_unicode_4z4z (const uint32_t * input, uint32_t ** output, int flags);
  0x746E69204950415F324E44495F206E72657478652020,  --   extern _IDN2_API int
  0x3B297367616C6620746E69202C6E656C74756F202A20745F657A6973202C74756F202A20745F3233746E6975202C6E656C6E6920745F657A6973202C6E69202A20745F3233746E69752074736E6F6328206934345F65646F63696E755F6F745F326E646920202020,  --     idn2_to_unicode_44i (const uint32_t * in, size_t inlen, uint32_t * out, size_t * outlen, int flags);
  0x746E69204950415F324E44495F206E72657478652020,  --   extern _IDN2_API int
  0x3B297367616C6620746E69202C74757074756F202A2A2072616863202C7475706E69202A20726168632074736E6F6328207A387A385F65646F63696E755F6F745F326E646920202020,  --     idn2_to_unicode_8z8z (const char * input, char ** output, int flags);
  0x746E69204950415F324E44495F206E72657478652020,  --   extern _IDN2_API int
  0x3B297367616C6620746E69202C74757074756F202A2A2072616863202C7475706E69202A20726168632074736E6F6328207A6C7A385F65646F63696E755F6F745F326E646920202020,  --     idn2_to_unicode_8zlz (const char * input, char ** output, int flags);
  0x746E69204950415F324E44495F206E72657478652020,  --   extern _IDN2_API int
  0x3B297367616C6620746E69202C74757074756F202A2A2072616863202C7475706E69202A20726168632074736E6F6328207A6C7A6C5F65646F63696E755F6F745F326E646920202020,  --     idn2_to_unicode_lzlz (const char * input, char ** output, int flags);
  0,
  0x2A20726168632074736E6F63204950415F324E44495F206E72657478652020,  --   extern _IDN2_API const char *
  0x3B54534E4F435F4554554249525454415F324E44495F43554E475F472029637220746E692820726F7272657274735F326E646920202020,  --     idn2_strerror (int rc) G_GNUC_IDN2_ATTRIBUTE_CONST;
  0x2A20726168632074736E6F63204950415F324E44495F206E72657478652020,  --   extern _IDN2_API const char *
  0x3B54534E4F435F4554554249525454415F324E44495F43554E475F472029637220746E692820656D616E5F726F7272657274735F326E646920202020,  --     idn2_strerror_name (int rc) G_GNUC_IDN2_ATTRIBUTE_CONST;
  0,
  0x2A20726168632074736E6F63204950415F324E44495F206E72657478652020,  --   extern _IDN2_API const char *
  0x3B455255505F4554554249525454415F324E44495F43554E475F4720296E6F69737265765F7165722A20726168632074736E6F6328206E6F69737265765F6B636568635F326E646920202020,  --     idn2_check_version (const char *req_version) G_GNUC_IDN2_ATTRIBUTE_PURE;
  0,
  0x64696F76204950415F324E44495F206E72657478652020,  --   extern _IDN2_API void
  0x3B297274702A2064696F762820656572665F326E646920202020,  --     idn2_free (void *ptr);
  0]

/-- The lines of the sources of the library (/repo/lib/Makefile.am lines 31-43, data.c is generated and
has no functions) that begin with a word, a space and a parenthesis: in the style of the project a
definition has its name there. -/
def definitionTextLines : List Nat := [
  0x296E656C20745F657A6973202C6C6562616C202A20745F3233746E6975282043464E73695F,  -- idna.c:55: _isNFC (uint32_t * label, size_t len)
  0x2C6E656C63727320745F657A6973202C637273202A20745F38746E69752074736E6F63282063666E5F3233755F6F745F38755F326E64695F,  -- idna.c:88: _idn2_u8_to_u32_nfc (const uint8_t * src, size_t srclen,
  0x296E656C63727320745F657A6973202C637273202A20745F38746E69752074736E6F632820705F69696373615F326E64695F,  -- idna.c:124: _idn2_ascii_p (const uint8_t * src, size_t srclen)
  0x296E656C6C20745F657A6973202C6C6562616C202A20745F3233746E69752074736E6F63202C7461687720746E692820747365745F6C6562616C5F326E64695F,  -- idna.c:136: _idn2_label_test (int what, const uint32_t * label, size_t llen)
  0x296320746E6928207265776F6C6F745F63,  -- lookup.c:60: c_tolower (int c)
  0x296E20745F657A6973202C32732A20726168632074736E6F63202C31732A20726168632074736E6F632820706D63657361636E7274735F63,  -- lookup.c:72: c_strncasecmp (const char *s1, const char *s2, size_t n)
  0x297367616C662A20746E6928207367616C665F746C75616665645F746573,  -- lookup.c:107: set_default_flags (int *flags)
  0x2C6E656C7473642A20745F657A6973202C747364202A20745F38746E6975202C6E656C63727320745F657A6973202C637273202A20745F38746E69752074736E6F6328206C6562616C,  -- lookup.c:127: label (const uint8_t * src, size_t srclen, uint8_t * dst, size_t *dstlen,
  0x297367616C6620746E69202C74756F202A2A20745F38746E6975202C38755F6E69616D6F64202A20745F38746E69752074736E6F632820363472745F,  -- lookup.c:263: _tr46 (const uint8_t * domain_u8, uint8_t ** out, int flags)
  0x297367616C6620746E69202C656D616E70756B6F6F6C202A2A20745F38746E6975202C637273202A20745F38746E69752074736E6F63282038755F70756B6F6F6C5F326E6469,  -- lookup.c:534: idn2_lookup_u8 (const uint8_t * src, uint8_t ** lookupname, int flags)
  0x297367616C6620746E69202C656D616E70756B6F6F6C2A2A2072616863202C6372732A20726168632074736E6F6328206C755F70756B6F6F6C5F326E6469,  -- lookup.c:659: idn2_lookup_ul (const char *src, char **lookupname, int flags)
  0x2C74757074756F2A2072616863202C6E656C6E6920745F657A6973202C7475706E69202A20745F3233746E69752074736E6F63282069345F69696373615F6F745F326E6469,  -- lookup.c:725: idn2_to_ascii_4i (const uint32_t * input, size_t inlen, char *output,
  0x2C74757074756F2A2A2072616863202C6E656C6E6920745F657A6973202C7475706E69202A20745F3233746E69752074736E6F6328203269345F69696373615F6F745F326E6469,  -- lookup.c:789: idn2_to_ascii_4i2 (const uint32_t * input, size_t inlen, char **output,
  0x297367616C6620746E69202C74757074756F2A2A2072616863202C7475706E69202A20745F3233746E69752074736E6F6328207A345F69696373615F6F745F326E6469,  -- lookup.c:855: idn2_to_ascii_4z (const uint32_t * input, char **output, int flags)
  0x297367616C6620746E69202C74757074756F2A2A2072616863202C7475706E692A20726168632074736E6F6328207A385F69696373615F6F745F326E6469,  -- lookup.c:903: idn2_to_ascii_8z (const char *input, char **output, int flags)
  0x297367616C6620746E69202C74757074756F2A2A2072616863202C7475706E692A20726168632074736E6F6328207A6C5F69696373615F6F745F326E6469,  -- lookup.c:930: idn2_to_ascii_lz (const char *input, char **output, int flags)
  0x2C74757074756F202A2A20745F3233746E6975202C7475706E692A20726168632074736E6F6328207A347A385F65646F63696E755F6F745F326E6469,  -- decode.c:64: idn2_to_unicode_8z4z (const char *input, uint32_t ** output,
  0x297367616C6620746E69202C74757074756F202A2A20745F3233746E6975202C7475706E69202A20745F3233746E69752074736E6F6328207A347A345F65646F63696E755F6F745F326E6469,  -- decode.c:183: idn2_to_unicode_4z4z (const uint32_t * input, uint32_t ** output, int flags)
  0x2C74756F202A20745F3233746E6975202C6E656C6E6920745F657A6973202C6E69202A20745F3233746E69752074736E6F6328206934345F65646F63696E755F6F745F326E6469,  -- decode.c:246: idn2_to_unicode_44i (const uint32_t * in, size_t inlen, uint32_t * out,
  0x297367616C6620746E69202C74757074756F2A2A2072616863202C7475706E692A20726168632074736E6F6328207A387A385F65646F63696E755F6F745F326E6469,  -- decode.c:306: idn2_to_unicode_8z8z (const char *input, char **output, int flags)
  0x297367616C6620746E69202C74757074756F2A2A2072616863202C7475706E692A20726168632074736E6F6328207A6C7A385F65646F63696E755F6F745F326E6469,  -- decode.c:359: idn2_to_unicode_8zlz (const char *input, char **output, int flags)
  0x297367616C6620746E69202C74757074756F2A2A2072616863202C7475706E692A20726168632074736E6F6328207A6C7A6C5F65646F63696E755F6F745F326E6469,  -- decode.c:421: idn2_to_unicode_lzlz (const char *input, char **output, int flags)
  0x2C6C6562616C61202A20745F38746E69752074736E6F63202C6C6562616C75202A20745F38746E69752074736E6F63282038755F72657473696765725F326E6469,  -- register.c:74: idn2_register_u8 (const uint8_t * ulabel, const uint8_t * alabel,
  0x2C6C6562616C612A20726168632074736E6F63202C6C6562616C752A20726168632074736E6F6328206C755F72657473696765725F326E6469,  -- register.c:239: idn2_register_ul (const char *ulabel, const char *alabel,
  0x296E656C6C20745F657A6973202C6C6562616C202A20745F3233746E69752074736E6F6328206964694273695F,  -- bidi.c:41: _isBidi (const uint32_t * label, size_t llen)
  0x296E656C6C20745F657A6973202C6C6562616C202A20745F3233746E69752074736E6F632820696469625F326E64695F,  -- bidi.c:56: _idn2_bidi (const uint32_t * label, size_t llen)
  0x296E6F69737265765F7165722A20726168632074736E6F6328206E6F69737265765F6B636568635F326E6469,  -- version.c:60: idn2_check_version (const char *req_version)
  0x29637220746E692820726F7272657274735F326E6469,  -- error.c:47: idn2_strerror (int rc)
  0x29637220746E692820656D616E5F726F7272657274735F326E6469,  -- error.c:133: idn2_strerror_name (int rc)
  0x2967616C6620746E69202C6420746E69755F65646F63796E7570282074696769645F65646F636E65,  -- puny_encode.c:98: encode_digit (punycode_uint d, int flag)
  0x29656D6974747372696620746E69202C73746E696F706D756E20746E69755F65646F63796E7570202C61746C656420746E69755F65646F63796E757028207470616461,  -- puny_encode.c:114: adapt (punycode_uint delta, punycode_uint numpoints, int firsttime)
  0x2C6769726F5F6874676E656C5F7475706E6920745F657A6973282065646F636E655F65646F63796E7570,  -- puny_encode.c:137: punycode_encode (size_t input_length_orig,
  0x65646F636E655F65646F63796E75705F326E64695F20296C616E7265746E695F65646F636E655F65646F63796E75705F326E64695F28205F5F666F657079745F5F,  -- puny_encode.c:250: __typeof__ (_idn2_punycode_encode_internal) _idn2_punycode_encode
  0x3B2922302E302E305F324E44494065646F636E655F65646F63796E75705F326E64695F202C65646F636E655F65646F63796E75705F326E64695F207265766D79732E2228205F5F6D73615F5F,  -- puny_encode.c:253: __asm__ (".symver _idn2_punycode_encode, _idn2_punycode_encode@IDN2_0.0.0");
  0x29706320746E69282074696769645F65646F636564,  -- puny_decode.c:97: decode_digit (int cp)
  0x29656D6974747372696620746E69202C73746E696F706D756E20746E69755F65646F63796E7570202C61746C656420746E69755F65646F63796E757028207470616461,  -- puny_decode.c:118: adapt (punycode_uint delta, punycode_uint numpoints, int firsttime)
  0x2C6874676E656C5F7475706E6920745F657A6973282065646F6365645F65646F63796E7570,  -- puny_decode.c:141: punycode_decode (size_t input_length,
  0x65646F6365645F65646F63796E75705F326E64695F20296C616E7265746E695F65646F6365645F65646F63796E75705F326E64695F28205F5F666F657079745F5F,  -- puny_decode.c:249: __typeof__ (_idn2_punycode_decode_internal) _idn2_punycode_decode
  0x3B2922302E302E305F324E44494065646F6365645F65646F63796E75705F326E64695F202C65646F6365645F65646F63796E75705F326E64695F207265766D79732E2228205F5F6D73615F5F,  -- puny_decode.c:252: __asm__ (".symver _idn2_punycode_decode, _idn2_punycode_decode@IDN2_0.0.0");
  0x297274702A2064696F762820656572665F326E6469,  -- free.c:46: idn2_free (void *ptr)
  0x2970616D202A2070614D414E4449202C70202A20745F38746E69752074736E6F63202C6320745F3233746E6975282070616D5F6C6C69665F,  -- tr46map.c:41: _fill_map (uint32_t c, const uint8_t * p, IDNAMap * map)
  0x2970202A20745F38746E69752074736E6F63202C63202A20745F3233746E69752074736E6F63282070616D5F616E64695F657261706D6F635F,  -- tr46map.c:73: _compare_idna_map (const uint32_t * c, const uint8_t * p)
  0x2970616D202A2070614D414E4449202C6320745F3233746E6975282070616D5F616E64695F746567,  -- tr46map.c:105: get_idna_map (uint32_t c, IDNAMap * map)
  0x297367616C662064656E6769736E75202C70616D202A2070614D414E44492074736E6F63282073695F70616D,  -- tr46map.c:138: map_is (const IDNAMap * map, unsigned flags)
  0x29326D202A2070614D435143464E202C63202A20745F3233746E6975282070616D5F637163666E5F657261706D6F635F,  -- tr46map.c:144: _compare_nfcqc_map (uint32_t * c, NFCQCMap * m2)
  0x296320745F3233746E6975282070616D5F637163666E5F746567,  -- tr46map.c:154: get_nfcqc_map (uint32_t c)
  0x2970616D202A2070614D414E44492074736E6F63202C747364202A20745F3233746E69752820617461645F70616D5F746567,  -- tr46map.c:164: get_map_data (uint32_t * dst, const IDNAMap * map)
  0x29326D2A20656C6261745F616E6469207463757274732074736E6F63202C316D2A20656C6261745F616E6469207463757274732074736E6F632820657261706D6F635F,  -- tables.c:38: _compare (const struct idna_table *m1, const struct idna_table *m2)
  0x29706320745F3233746E6975282079747265706F7270,  -- tables.c:48: property (uint32_t cp)
  0x29706320745F3233746E69752820705F6465776F6C6C617369645F326E64695F,  -- tables.c:67: _idn2_disallowed_p (uint32_t cp)
  0x29706320745F3233746E69752820705F6A747865746E6F635F326E64695F,  -- tables.c:73: _idn2_contextj_p (uint32_t cp)
  0x29706320745F3233746E69752820705F6F747865746E6F635F326E64695F,  -- tables.c:79: _idn2_contexto_p (uint32_t cp)
  0x29706320745F3233746E69752820705F64656E67697373616E755F326E64695F,  -- tables.c:85: _idn2_unassigned_p (uint32_t cp)
  0x29736F7020745F657A6973202C6E656C6C20745F657A6973202C6C6562616C202A20745F3233746E69752074736E6F632820656C75725F6A747865746E6F635F326E64695F,  -- context.c:37: _idn2_contextj_rule (const uint32_t * label, size_t llen, size_t pos)
  0x29637520745F347363752820656D616E5F7470697263735F63755F,  -- context.c:116: _uc_script_name (ucs4_t uc)
  0x29736F7020745F657A6973202C6E656C6C20745F657A6973202C6C6562616C202A20745F3233746E69752074736E6F632820656C75725F6F747865746E6F635F326E64695F,  -- context.c:127: _idn2_contexto_rule (const uint32_t * label, size_t llen, size_t pos)
  0x29706320745F3233746E69752820656C75725F687469775F6F747865746E6F635F326E64695F]  -- context.c:229: _idn2_contexto_with_rule (uint32_t cp)

/-- The bytes of a number, at most `fuel`. -/
def bytes : Nat → Nat → List Nat
  | 0, _ => []
  | fuel + 1, n => if Nat.beq n 0 then [] else n % 256 :: bytes fuel (n / 256)

def mapText : List (List Nat) := mapTextLines.map (bytes 200)
def headerText : List (List Nat) := headerTextLines.map (bytes 200)
def definitionText : List (List Nat) := definitionTextLines.map (bytes 200)

end Idn2.Exports
