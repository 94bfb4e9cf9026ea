import Verif.Basic

/-
The tables of the test programs tests/test-punycode.c:39-164 and tests/test-tounicode.c:41-302,
transcribed.
-/

namespace Idn2.Vectors

/-- `punycode[]`; tests/test-punycode.c:39-164: the code points and their encoding. -/
def puny : List (List Nat × List Nat) := [
  ([0x644, 0x64A, 0x647, 0x645, 0x627, 0x628, 0x62A, 0x643, 0x644, 0x645, 0x648, 0x634, 0x639,
    0x631, 0x628, 0x64A, 0x61F], [0x65, 0x67, 0x62, 0x70, 0x64, 0x61, 0x6A, 0x36, 0x62, 0x75,
    0x34, 0x62, 0x78, 0x66, 0x67, 0x65, 0x68, 0x66, 0x76, 0x77, 0x78, 0x6E]),
  ([0x4ED6, 0x4EEC, 0x4E3A, 0x4EC0, 0x4E48, 0x4E0D, 0x8BF4, 0x4E2D, 0x6587], [0x69, 0x68, 0x71,
    0x77, 0x63, 0x72, 0x62, 0x34, 0x63, 0x76, 0x38, 0x61, 0x38, 0x64, 0x71, 0x67, 0x30, 0x35,
    0x36, 0x70, 0x71, 0x6A, 0x79, 0x65]),
  ([0x4ED6, 0x5011, 0x7232, 0x4EC0, 0x9EBD, 0x4E0D, 0x8AAA, 0x4E2D, 0x6587], [0x69, 0x68, 0x71,
    0x77, 0x63, 0x74, 0x76, 0x7A, 0x63, 0x39, 0x31, 0x66, 0x36, 0x35, 0x39, 0x64, 0x72, 0x73,
    0x73, 0x33, 0x78, 0x38, 0x62, 0x6F, 0x30, 0x79, 0x62]),
  ([0x50, 0x72, 0x6F, 0x10D, 0x70, 0x72, 0x6F, 0x73, 0x74, 0x11B, 0x6E, 0x65, 0x6D, 0x6C, 0x75,
    0x76, 0xED, 0x10D, 0x65, 0x73, 0x6B, 0x79], [0x50, 0x72, 0x6F, 0x70, 0x72, 0x6F, 0x73, 0x74,
    0x6E, 0x65, 0x6D, 0x6C, 0x75, 0x76, 0x65, 0x73, 0x6B, 0x79, 0x2D, 0x75, 0x79, 0x62, 0x32,
    0x34, 0x64, 0x6D, 0x61, 0x34, 0x31, 0x61]),
  ([0x5DC, 0x5DE, 0x5D4, 0x5D4, 0x5DD, 0x5E4, 0x5E9, 0x5D5, 0x5D8, 0x5DC, 0x5D0, 0x5DE, 0x5D3,
    0x5D1, 0x5E8, 0x5D9, 0x5DD, 0x5E2, 0x5D1, 0x5E8, 0x5D9, 0x5EA], [0x34, 0x64, 0x62, 0x63, 0x61,
    0x67, 0x64, 0x61, 0x68, 0x79, 0x6D, 0x62, 0x78, 0x65, 0x6B, 0x68, 0x65, 0x68, 0x36, 0x65,
    0x30, 0x61, 0x37, 0x66, 0x65, 0x69, 0x30, 0x62]),
  ([0x92F, 0x939, 0x932, 0x94B, 0x917, 0x939, 0x93F, 0x928, 0x94D, 0x926, 0x940, 0x915, 0x94D,
    0x92F, 0x94B, 0x902, 0x928, 0x939, 0x940, 0x902, 0x92C, 0x94B, 0x932, 0x938, 0x915, 0x924,
    0x947, 0x939, 0x948, 0x902], [0x69, 0x31, 0x62, 0x61, 0x61, 0x37, 0x65, 0x63, 0x69, 0x39,
    0x67, 0x6C, 0x72, 0x64, 0x39, 0x62, 0x32, 0x61, 0x65, 0x31, 0x62, 0x6A, 0x30, 0x68, 0x66,
    0x63, 0x67, 0x67, 0x36, 0x69, 0x79, 0x61, 0x66, 0x38, 0x6F, 0x30, 0x61, 0x31, 0x64, 0x69,
    0x67, 0x30, 0x63, 0x64]),
  ([0x306A, 0x305C, 0x307F, 0x3093, 0x306A, 0x65E5, 0x672C, 0x8A9E, 0x3092, 0x8A71, 0x3057,
    0x3066, 0x304F, 0x308C, 0x306A, 0x3044, 0x306E, 0x304B], [0x6E, 0x38, 0x6A, 0x6F, 0x6B, 0x35,
    0x61, 0x79, 0x35, 0x64, 0x7A, 0x61, 0x62, 0x64, 0x35, 0x62, 0x79, 0x6D, 0x39, 0x66, 0x30,
    0x63, 0x6D, 0x35, 0x36, 0x38, 0x35, 0x72, 0x72, 0x6A, 0x65, 0x74, 0x72, 0x36, 0x70, 0x64,
    0x78, 0x61]),
  ([0xC138, 0xACC4, 0xC758, 0xBAA8, 0xB4E0, 0xC0AC, 0xB78C, 0xB4E4, 0xC774, 0xD55C, 0xAD6D,
    0xC5B4, 0xB97C, 0xC774, 0xD574, 0xD55C, 0xB2E4, 0xBA74, 0xC5BC, 0xB9C8, 0xB098, 0xC88B,
    0xC744, 0xAE4C], [0x39, 0x38, 0x39, 0x61, 0x6F, 0x6D, 0x73, 0x76, 0x69, 0x35, 0x65, 0x38,
    0x33, 0x64, 0x62, 0x31, 0x64, 0x32, 0x61, 0x33, 0x35, 0x35, 0x63, 0x76, 0x31, 0x65, 0x30,
    0x76, 0x61, 0x6B, 0x31, 0x64, 0x77, 0x72, 0x76, 0x39, 0x33, 0x64, 0x35, 0x78, 0x62, 0x68,
    0x31, 0x35, 0x61, 0x30, 0x64, 0x74, 0x33, 0x30, 0x61, 0x35, 0x6A, 0x70, 0x73, 0x64, 0x38,
    0x37, 0x39, 0x63, 0x63, 0x6D, 0x36, 0x66, 0x65, 0x61, 0x39, 0x38, 0x63]),
  ([0x43F, 0x43E, 0x447, 0x435, 0x43C, 0x443, 0x436, 0x435, 0x43E, 0x43D, 0x438, 0x43D, 0x435,
    0x433, 0x43E, 0x432, 0x43E, 0x440, 0x44F, 0x442, 0x43F, 0x43E, 0x440, 0x443, 0x441, 0x441,
    0x43A, 0x438], [0x62, 0x31, 0x61, 0x62, 0x66, 0x61, 0x61, 0x65, 0x70, 0x64, 0x72, 0x6E, 0x6E,
    0x62, 0x67, 0x65, 0x66, 0x62, 0x61, 0x64, 0x6F, 0x74, 0x63, 0x77, 0x61, 0x74, 0x6D, 0x71,
    0x32, 0x67, 0x34, 0x6C]),
  ([0x50, 0x6F, 0x72, 0x71, 0x75, 0xE9, 0x6E, 0x6F, 0x70, 0x75, 0x65, 0x64, 0x65, 0x6E, 0x73,
    0x69, 0x6D, 0x70, 0x6C, 0x65, 0x6D, 0x65, 0x6E, 0x74, 0x65, 0x68, 0x61, 0x62, 0x6C, 0x61,
    0x72, 0x65, 0x6E, 0x45, 0x73, 0x70, 0x61, 0xF1, 0x6F, 0x6C], [0x50, 0x6F, 0x72, 0x71, 0x75,
    0x6E, 0x6F, 0x70, 0x75, 0x65, 0x64, 0x65, 0x6E, 0x73, 0x69, 0x6D, 0x70, 0x6C, 0x65, 0x6D,
    0x65, 0x6E, 0x74, 0x65, 0x68, 0x61, 0x62, 0x6C, 0x61, 0x72, 0x65, 0x6E, 0x45, 0x73, 0x70,
    0x61, 0x6F, 0x6C, 0x2D, 0x66, 0x6D, 0x64, 0x35, 0x36, 0x61]),
  ([0x54, 0x1EA1, 0x69, 0x73, 0x61, 0x6F, 0x68, 0x1ECD, 0x6B, 0x68, 0xF4, 0x6E, 0x67, 0x74, 0x68,
    0x1EC3, 0x63, 0x68, 0x1EC9, 0x6E, 0xF3, 0x69, 0x74, 0x69, 0x1EBF, 0x6E, 0x67, 0x56, 0x69,
    0x1EC7, 0x74], [0x54, 0x69, 0x73, 0x61, 0x6F, 0x68, 0x6B, 0x68, 0x6E, 0x67, 0x74, 0x68, 0x63,
    0x68, 0x6E, 0x69, 0x74, 0x69, 0x6E, 0x67, 0x56, 0x69, 0x74, 0x2D, 0x6B, 0x6A, 0x63, 0x72,
    0x38, 0x32, 0x36, 0x38, 0x71, 0x79, 0x78, 0x61, 0x66, 0x64, 0x32, 0x66, 0x31, 0x62, 0x39,
    0x67]),
  ([0x33, 0x5E74, 0x42, 0x7D44, 0x91D1, 0x516B, 0x5148, 0x751F], [0x33, 0x42, 0x2D, 0x77, 0x77,
    0x34, 0x63, 0x35, 0x65, 0x31, 0x38, 0x30, 0x65, 0x35, 0x37, 0x35, 0x61, 0x36, 0x35, 0x6C,
    0x73, 0x79, 0x32, 0x62]),
  ([0x5B89, 0x5BA4, 0x5948, 0x7F8E, 0x6075, 0x2D, 0x77, 0x69, 0x74, 0x68, 0x2D, 0x53, 0x55, 0x50,
    0x45, 0x52, 0x2D, 0x4D, 0x4F, 0x4E, 0x4B, 0x45, 0x59, 0x53], [0x2D, 0x77, 0x69, 0x74, 0x68,
    0x2D, 0x53, 0x55, 0x50, 0x45, 0x52, 0x2D, 0x4D, 0x4F, 0x4E, 0x4B, 0x45, 0x59, 0x53, 0x2D,
    0x70, 0x63, 0x35, 0x38, 0x61, 0x67, 0x38, 0x30, 0x61, 0x38, 0x71, 0x61, 0x69, 0x30, 0x30,
    0x67, 0x37, 0x6E, 0x39, 0x6E]),
  ([0x48, 0x65, 0x6C, 0x6C, 0x6F, 0x2D, 0x41, 0x6E, 0x6F, 0x74, 0x68, 0x65, 0x72, 0x2D, 0x57,
    0x61, 0x79, 0x2D, 0x305D, 0x308C, 0x305E, 0x308C, 0x306E, 0x5834, 0x6240], [0x48, 0x65, 0x6C,
    0x6C, 0x6F, 0x2D, 0x41, 0x6E, 0x6F, 0x74, 0x68, 0x65, 0x72, 0x2D, 0x57, 0x61, 0x79, 0x2D,
    0x2D, 0x66, 0x63, 0x34, 0x71, 0x75, 0x61, 0x30, 0x35, 0x61, 0x75, 0x77, 0x62, 0x33, 0x36,
    0x37, 0x34, 0x76, 0x66, 0x72, 0x30, 0x62]),
  ([0x3072, 0x3068, 0x3064, 0x5C4B, 0x6839, 0x306E, 0x4E0B, 0x32], [0x32, 0x2D, 0x75, 0x39, 0x74,
    0x6C, 0x7A, 0x72, 0x39, 0x37, 0x35, 0x36, 0x62, 0x74, 0x33, 0x75, 0x63, 0x30, 0x76]),
  ([0x4D, 0x61, 0x6A, 0x69, 0x3067, 0x4B, 0x6F, 0x69, 0x3059, 0x308B, 0x35, 0x79D2, 0x524D],
    [0x4D, 0x61, 0x6A, 0x69, 0x4B, 0x6F, 0x69, 0x35, 0x2D, 0x37, 0x38, 0x33, 0x67, 0x75, 0x65,
    0x36, 0x71, 0x7A, 0x30, 0x37, 0x35, 0x61, 0x7A, 0x6D, 0x35, 0x65]),
  ([0x30D1, 0x30D5, 0x30A3, 0x30FC, 0x64, 0x65, 0x30EB, 0x30F3, 0x30D0], [0x64, 0x65, 0x2D, 0x6A,
    0x67, 0x34, 0x61, 0x76, 0x68, 0x62, 0x79, 0x31, 0x6E, 0x6F, 0x63, 0x30, 0x64]),
  ([0x305D, 0x306E, 0x30B9, 0x30D4, 0x30FC, 0x30C9, 0x3067], [0x64, 0x39, 0x6A, 0x75, 0x61, 0x75,
    0x34, 0x31, 0x61, 0x77, 0x63, 0x7A, 0x63, 0x7A, 0x70]),
  ([0x2D, 0x3E, 0x20, 0x24, 0x31, 0x2E, 0x30, 0x30, 0x20, 0x3C, 0x2D], [0x2D, 0x3E, 0x20, 0x24,
    0x31, 0x2E, 0x30, 0x30, 0x20, 0x3C, 0x2D, 0x2D])]

/-- `test[]`; tests/test-tounicode.c:41-302: the name, the return code and the code points. -/
def unicode : List (List Nat × Option Rc × List Nat) := [
  ([0x78, 0x6E, 0x2D, 0x2D, 0x65, 0x67, 0x62, 0x70, 0x64, 0x61, 0x6A, 0x36, 0x62, 0x75, 0x34,
    0x62, 0x78, 0x66, 0x67, 0x65, 0x68, 0x66, 0x76, 0x77, 0x78, 0x6E], none, [0x644, 0x64A, 0x647,
    0x645, 0x627, 0x628, 0x62A, 0x643, 0x644, 0x645, 0x648, 0x634, 0x639, 0x631, 0x628, 0x64A,
    0x61F]),
  ([0x78, 0x6E, 0x2D, 0x2D, 0x69, 0x68, 0x71, 0x77, 0x63, 0x72, 0x62, 0x34, 0x63, 0x76, 0x38,
    0x61, 0x38, 0x64, 0x71, 0x67, 0x30, 0x35, 0x36, 0x70, 0x71, 0x6A, 0x79, 0x65], none, [0x4ED6,
    0x4EEC, 0x4E3A, 0x4EC0, 0x4E48, 0x4E0D, 0x8BF4, 0x4E2D, 0x6587]),
  ([0x78, 0x6E, 0x2D, 0x2D, 0x69, 0x68, 0x71, 0x77, 0x63, 0x74, 0x76, 0x7A, 0x63, 0x39, 0x31,
    0x66, 0x36, 0x35, 0x39, 0x64, 0x72, 0x73, 0x73, 0x33, 0x78, 0x38, 0x62, 0x6F, 0x30, 0x79,
    0x62], none, [0x4ED6, 0x5011, 0x7232, 0x4EC0, 0x9EBD, 0x4E0D, 0x8AAA, 0x4E2D, 0x6587]),
  ([0x78, 0x6E, 0x2D, 0x2D, 0x50, 0x72, 0x6F, 0x70, 0x72, 0x6F, 0x73, 0x74, 0x6E, 0x65, 0x6D,
    0x6C, 0x75, 0x76, 0x65, 0x73, 0x6B, 0x79, 0x2D, 0x75, 0x79, 0x62, 0x32, 0x34, 0x64, 0x6D,
    0x61, 0x34, 0x31, 0x61], none, [0x50, 0x72, 0x6F, 0x10D, 0x70, 0x72, 0x6F, 0x73, 0x74, 0x11B,
    0x6E, 0x65, 0x6D, 0x6C, 0x75, 0x76, 0xED, 0x10D, 0x65, 0x73, 0x6B, 0x79]),
  ([0x78, 0x6E, 0x2D, 0x2D, 0x34, 0x64, 0x62, 0x63, 0x61, 0x67, 0x64, 0x61, 0x68, 0x79, 0x6D,
    0x62, 0x78, 0x65, 0x6B, 0x68, 0x65, 0x68, 0x36, 0x65, 0x30, 0x61, 0x37, 0x66, 0x65, 0x69,
    0x30, 0x62], none, [0x5DC, 0x5DE, 0x5D4, 0x5D4, 0x5DD, 0x5E4, 0x5E9, 0x5D5, 0x5D8, 0x5DC,
    0x5D0, 0x5DE, 0x5D3, 0x5D1, 0x5E8, 0x5D9, 0x5DD, 0x5E2, 0x5D1, 0x5E8, 0x5D9, 0x5EA]),
  ([0x78, 0x6E, 0x2D, 0x2D, 0x69, 0x31, 0x62, 0x61, 0x61, 0x37, 0x65, 0x63, 0x69, 0x39, 0x67,
    0x6C, 0x72, 0x64, 0x39, 0x62, 0x32, 0x61, 0x65, 0x31, 0x62, 0x6A, 0x30, 0x68, 0x66, 0x63,
    0x67, 0x67, 0x36, 0x69, 0x79, 0x61, 0x66, 0x38, 0x6F, 0x30, 0x61, 0x31, 0x64, 0x69, 0x67,
    0x30, 0x63, 0x64], none, [0x92F, 0x939, 0x932, 0x94B, 0x917, 0x939, 0x93F, 0x928, 0x94D,
    0x926, 0x940, 0x915, 0x94D, 0x92F, 0x94B, 0x902, 0x928, 0x939, 0x940, 0x902, 0x92C, 0x94B,
    0x932, 0x938, 0x915, 0x924, 0x947, 0x939, 0x948, 0x902]),
  ([0x78, 0x6E, 0x2D, 0x2D, 0x6E, 0x38, 0x6A, 0x6F, 0x6B, 0x35, 0x61, 0x79, 0x35, 0x64, 0x7A,
    0x61, 0x62, 0x64, 0x35, 0x62, 0x79, 0x6D, 0x39, 0x66, 0x30, 0x63, 0x6D, 0x35, 0x36, 0x38,
    0x35, 0x72, 0x72, 0x6A, 0x65, 0x74, 0x72, 0x36, 0x70, 0x64, 0x78, 0x61], none, [0x306A,
    0x305C, 0x307F, 0x3093, 0x306A, 0x65E5, 0x672C, 0x8A9E, 0x3092, 0x8A71, 0x3057, 0x3066,
    0x304F, 0x308C, 0x306A, 0x3044, 0x306E, 0x304B]),
  ([0x78, 0x6E, 0x2D, 0x2D, 0x39, 0x38, 0x39, 0x61, 0x6F, 0x6D, 0x73, 0x76, 0x69, 0x35, 0x65,
    0x38, 0x33, 0x64, 0x62, 0x31, 0x64, 0x32, 0x61, 0x33, 0x35, 0x35, 0x63, 0x76, 0x31, 0x65,
    0x30, 0x76, 0x61, 0x6B, 0x31, 0x64, 0x77, 0x72, 0x76, 0x39, 0x33, 0x64, 0x35, 0x78, 0x62,
    0x68, 0x31, 0x35, 0x61, 0x30, 0x64, 0x74, 0x33, 0x30, 0x61, 0x35, 0x6A, 0x70, 0x73, 0x64,
    0x38, 0x37, 0x39, 0x63, 0x63, 0x6D, 0x36, 0x66, 0x65, 0x61, 0x39, 0x38, 0x63], none, [0xC138,
    0xACC4, 0xC758, 0xBAA8, 0xB4E0, 0xC0AC, 0xB78C, 0xB4E4, 0xC774, 0xD55C, 0xAD6D, 0xC5B4,
    0xB97C, 0xC774, 0xD574, 0xD55C, 0xB2E4, 0xBA74, 0xC5BC, 0xB9C8, 0xB098, 0xC88B, 0xC744,
    0xAE4C]),
  ([0x78, 0x6E, 0x2D, 0x2D, 0x62, 0x31, 0x61, 0x62, 0x66, 0x61, 0x61, 0x65, 0x70, 0x64, 0x72,
    0x6E, 0x6E, 0x62, 0x67, 0x65, 0x66, 0x62, 0x61, 0x64, 0x6F, 0x74, 0x63, 0x77, 0x61, 0x74,
    0x6D, 0x71, 0x32, 0x67, 0x34, 0x6C], none, [0x43F, 0x43E, 0x447, 0x435, 0x43C, 0x443, 0x436,
    0x435, 0x43E, 0x43D, 0x438, 0x43D, 0x435, 0x433, 0x43E, 0x432, 0x43E, 0x440, 0x44F, 0x442,
    0x43F, 0x43E, 0x440, 0x443, 0x441, 0x441, 0x43A, 0x438]),
  ([0x78, 0x6E, 0x2D, 0x2D, 0x50, 0x6F, 0x72, 0x71, 0x75, 0x6E, 0x6F, 0x70, 0x75, 0x65, 0x64,
    0x65, 0x6E, 0x73, 0x69, 0x6D, 0x70, 0x6C, 0x65, 0x6D, 0x65, 0x6E, 0x74, 0x65, 0x68, 0x61,
    0x62, 0x6C, 0x61, 0x72, 0x65, 0x6E, 0x45, 0x73, 0x70, 0x61, 0x6F, 0x6C, 0x2D, 0x66, 0x6D,
    0x64, 0x35, 0x36, 0x61], none, [0x50, 0x6F, 0x72, 0x71, 0x75, 0xE9, 0x6E, 0x6F, 0x70, 0x75,
    0x65, 0x64, 0x65, 0x6E, 0x73, 0x69, 0x6D, 0x70, 0x6C, 0x65, 0x6D, 0x65, 0x6E, 0x74, 0x65,
    0x68, 0x61, 0x62, 0x6C, 0x61, 0x72, 0x65, 0x6E, 0x45, 0x73, 0x70, 0x61, 0xF1, 0x6F, 0x6C]),
  ([0x78, 0x6E, 0x2D, 0x2D, 0x54, 0x69, 0x73, 0x61, 0x6F, 0x68, 0x6B, 0x68, 0x6E, 0x67, 0x74,
    0x68, 0x63, 0x68, 0x6E, 0x69, 0x74, 0x69, 0x6E, 0x67, 0x56, 0x69, 0x74, 0x2D, 0x6B, 0x6A,
    0x63, 0x72, 0x38, 0x32, 0x36, 0x38, 0x71, 0x79, 0x78, 0x61, 0x66, 0x64, 0x32, 0x66, 0x31,
    0x62, 0x39, 0x67], none, [0x54, 0x1EA1, 0x69, 0x73, 0x61, 0x6F, 0x68, 0x1ECD, 0x6B, 0x68,
    0xF4, 0x6E, 0x67, 0x74, 0x68, 0x1EC3, 0x63, 0x68, 0x1EC9, 0x6E, 0xF3, 0x69, 0x74, 0x69,
    0x1EBF, 0x6E, 0x67, 0x56, 0x69, 0x1EC7, 0x74]),
  ([0x78, 0x6E, 0x2D, 0x2D, 0x33, 0x42, 0x2D, 0x77, 0x77, 0x34, 0x63, 0x35, 0x65, 0x31, 0x38,
    0x30, 0x65, 0x35, 0x37, 0x35, 0x61, 0x36, 0x35, 0x6C, 0x73, 0x79, 0x32, 0x62], none, [0x33,
    0x5E74, 0x42, 0x7D44, 0x91D1, 0x516B, 0x5148, 0x751F]),
  ([0x78, 0x6E, 0x2D, 0x2D, 0x2D, 0x77, 0x69, 0x74, 0x68, 0x2D, 0x53, 0x55, 0x50, 0x45, 0x52,
    0x2D, 0x4D, 0x4F, 0x4E, 0x4B, 0x45, 0x59, 0x53, 0x2D, 0x70, 0x63, 0x35, 0x38, 0x61, 0x67,
    0x38, 0x30, 0x61, 0x38, 0x71, 0x61, 0x69, 0x30, 0x30, 0x67, 0x37, 0x6E, 0x39, 0x6E], none,
    [0x5B89, 0x5BA4, 0x5948, 0x7F8E, 0x6075, 0x2D, 0x77, 0x69, 0x74, 0x68, 0x2D, 0x53, 0x55, 0x50,
    0x45, 0x52, 0x2D, 0x4D, 0x4F, 0x4E, 0x4B, 0x45, 0x59, 0x53]),
  ([0x78, 0x6E, 0x2D, 0x2D, 0x48, 0x65, 0x6C, 0x6C, 0x6F, 0x2D, 0x41, 0x6E, 0x6F, 0x74, 0x68,
    0x65, 0x72, 0x2D, 0x57, 0x61, 0x79, 0x2D, 0x2D, 0x66, 0x63, 0x34, 0x71, 0x75, 0x61, 0x30,
    0x35, 0x61, 0x75, 0x77, 0x62, 0x33, 0x36, 0x37, 0x34, 0x76, 0x66, 0x72, 0x30, 0x62], none,
    [0x48, 0x65, 0x6C, 0x6C, 0x6F, 0x2D, 0x41, 0x6E, 0x6F, 0x74, 0x68, 0x65, 0x72, 0x2D, 0x57,
    0x61, 0x79, 0x2D, 0x305D, 0x308C, 0x305E, 0x308C, 0x306E, 0x5834, 0x6240]),
  ([0x78, 0x6E, 0x2D, 0x2D, 0x32, 0x2D, 0x75, 0x39, 0x74, 0x6C, 0x7A, 0x72, 0x39, 0x37, 0x35,
    0x36, 0x62, 0x74, 0x33, 0x75, 0x63, 0x30, 0x76], none, [0x3072, 0x3068, 0x3064, 0x5C4B,
    0x6839, 0x306E, 0x4E0B, 0x32]),
  ([0x78, 0x6E, 0x2D, 0x2D, 0x4D, 0x61, 0x6A, 0x69, 0x4B, 0x6F, 0x69, 0x35, 0x2D, 0x37, 0x38,
    0x33, 0x67, 0x75, 0x65, 0x36, 0x71, 0x7A, 0x30, 0x37, 0x35, 0x61, 0x7A, 0x6D, 0x35, 0x65],
    none, [0x4D, 0x61, 0x6A, 0x69, 0x3067, 0x4B, 0x6F, 0x69, 0x3059, 0x308B, 0x35, 0x79D2,
    0x524D]),
  ([0x78, 0x6E, 0x2D, 0x2D, 0x64, 0x65, 0x2D, 0x6A, 0x67, 0x34, 0x61, 0x76, 0x68, 0x62, 0x79,
    0x31, 0x6E, 0x6F, 0x63, 0x30, 0x64], none, [0x30D1, 0x30D5, 0x30A3, 0x30FC, 0x64, 0x65,
    0x30EB, 0x30F3, 0x30D0]),
  ([0x78, 0x6E, 0x2D, 0x2D, 0x64, 0x39, 0x6A, 0x75, 0x61, 0x75, 0x34, 0x31, 0x61, 0x77, 0x63,
    0x7A, 0x63, 0x7A, 0x70], none, [0x305D, 0x306E, 0x30B9, 0x30D4, 0x30FC, 0x30C9, 0x3067]),
  ([0x78, 0x6E, 0x2D, 0x2D, 0x2D, 0x3E, 0x20, 0x24, 0x31, 0x2D], some .punycodeBadInput, []),
  ([0x78, 0x6E, 0x2D, 0x2D, 0x2D, 0x3E, 0x20, 0x24, 0x31], some .punycodeBadInput, []),
  ([0x78, 0x6E, 0x2D, 0x2D, 0x2D, 0x3E, 0x20, 0x24, 0x31, 0x2E, 0x30, 0x30, 0x20, 0x3C, 0x2D,
    0x2D], some .punycodeBadInput, []),
  ([0x78, 0x6E, 0x2D, 0x2D, 0x64, 0x39, 0x6A, 0x75, 0x61, 0x75, 0x34, 0x31, 0x61, 0x77, 0x63,
    0x7A, 0x63, 0x7A, 0x70, 0x2E, 0x78, 0x6E, 0x2D, 0x2D, 0x62, 0x65, 0x6C, 0x2D, 0x67, 0x6F,
    0x61, 0x2E, 0x44, 0x45], none, [0x305D, 0x306E, 0x30B9, 0x30D4, 0x30FC, 0x30C9, 0x3067, 0x2E,
    0xFC, 0x62, 0x65, 0x6C, 0x2E, 0x44, 0x45]),
  ([0x58, 0x4E, 0x2D, 0x2D, 0x64, 0x39, 0x6A, 0x75, 0x61, 0x75, 0x34, 0x31, 0x61, 0x77, 0x63,
    0x7A, 0x63, 0x7A, 0x70], none, [0x305D, 0x306E, 0x30B9, 0x30D4, 0x30FC, 0x30C9, 0x3067]),
  ([0x80, 0x62, 0x61, 0x64, 0x2E, 0x63, 0x6F, 0x6D], some .encodingError, []),
  ([0x58, 0x4E, 0x2D, 0x2D, 0x2D, 0x2D, 0x37, 0x53, 0x42, 0x41, 0x41, 0x42, 0x46, 0x34, 0x44,
    0x4C, 0x44, 0x59, 0x53, 0x49, 0x45, 0x48, 0x50, 0x34, 0x4E, 0x54, 0x42, 0x2E, 0x58, 0x4E,
    0x2D, 0x2D, 0x50, 0x31, 0x41, 0x49], none, [0x441, 0x430, 0x43C, 0x430, 0x440, 0x441, 0x43A,
    0x430, 0x44F, 0x2D, 0x43E, 0x431, 0x43B, 0x430, 0x441, 0x442, 0x44C, 0x2E, 0x440, 0x444]),
  ([0x78, 0x6E, 0x2D, 0x2D, 0x2D, 0x2D, 0x37, 0x53, 0x42, 0x41, 0x41, 0x42, 0x46, 0x34, 0x44,
    0x4C, 0x44, 0x59, 0x53, 0x49, 0x45, 0x48, 0x50, 0x34, 0x4E, 0x54, 0x42, 0x2E, 0x58, 0x4E,
    0x2D, 0x2D, 0x50, 0x31, 0x41, 0x49], none, [0x441, 0x430, 0x43C, 0x430, 0x440, 0x441, 0x43A,
    0x430, 0x44F, 0x2D, 0x43E, 0x431, 0x43B, 0x430, 0x441, 0x442, 0x44C, 0x2E, 0x440, 0x444]),
  ([0x78, 0x6E, 0x2D, 0x2D, 0x2D, 0x2D, 0x37, 0x53, 0x42, 0x41, 0x41, 0x42, 0x46, 0x34, 0x44,
    0x4C, 0x44, 0x59, 0x53, 0x49, 0x45, 0x48, 0x50, 0x34, 0x4E, 0x54, 0x42, 0x2E, 0x78, 0x6E,
    0x2D, 0x2D, 0x50, 0x31, 0x41, 0x49], none, [0x441, 0x430, 0x43C, 0x430, 0x440, 0x441, 0x43A,
    0x430, 0x44F, 0x2D, 0x43E, 0x431, 0x43B, 0x430, 0x441, 0x442, 0x44C, 0x2E, 0x440, 0x444]),
  ([0x78, 0x6E, 0x2D, 0x2D, 0x6E, 0x78, 0x61, 0x73, 0x6D, 0x6D, 0x31, 0x63, 0x2E, 0x63, 0x6F,
    0x6D], none, [0x3B2, 0x3CC, 0x3BB, 0x3BF, 0x3C2, 0x2E, 0x63, 0x6F, 0x6D]),
  ([0x78, 0x6E, 0x2D, 0x2D, 0x6E, 0x78, 0x61, 0x73, 0x6D, 0x71, 0x36, 0x62, 0x2E, 0x63, 0x6F,
    0x6D], none, [0x3B2, 0x3CC, 0x3BB, 0x3BF, 0x3C3, 0x2E, 0x63, 0x6F, 0x6D]),
  ([0x78, 0x6E, 0x2D, 0x2D, 0x66, 0x61, 0x2D, 0x68, 0x69, 0x61, 0x2E, 0x64, 0x65], none, [0x66,
    0x61, 0xDF, 0x2E, 0x64, 0x65]),
  ([0x78, 0x6E, 0x2D, 0x2D, 0x62, 0x63, 0x68, 0x65, 0x72, 0x2D, 0x6B, 0x76, 0x61, 0x2E, 0x64,
    0x65], none, [0x62, 0xFC, 0x63, 0x68, 0x65, 0x72, 0x2E, 0x64, 0x65]),
  ([0x78, 0x6E, 0x2D, 0x2D, 0x77, 0x67, 0x76, 0x37, 0x31, 0x61, 0x31, 0x31, 0x39, 0x65, 0x2E,
    0x6A, 0x70], none, [0x65E5, 0x672C, 0x8A9E, 0x2E, 0x6A, 0x70]),
  ([0x78, 0x6E, 0x2D, 0x2D, 0x66, 0x69, 0x71, 0x75, 0x31, 0x61, 0x7A, 0x30, 0x33, 0x63, 0x31,
    0x38, 0x74, 0x2E, 0x78, 0x6E, 0x2D, 0x2D, 0x6D, 0x78, 0x61, 0x68, 0x31, 0x61, 0x6D, 0x6F,
    0x2E, 0x63, 0x6F, 0x6D], none, [0x7B80, 0x4F53, 0x4E2D, 0x6587, 0x2E, 0x3B5, 0x3BE, 0x3C4,
    0x3C1, 0x3B1, 0x2E, 0x63, 0x6F, 0x6D]),
  ([0x78, 0x6E, 0x2D, 0x2D, 0x2D, 0x2E, 0x64, 0x65], some .punycodeBadInput, []),
  ([0x78, 0x6E, 0x2D, 0x2D, 0x2D, 0x74, 0x64, 0x61, 0x2E, 0x64, 0x65], some .punycodeBadInput, [])]

end Idn2.Vectors
