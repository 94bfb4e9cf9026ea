import Verif.Model.Gen

/-
The lines of lib/IdnaMappingTable.txt.
Written by tools/gen_data.py; do not edit.
-/

namespace Idn2.Shipped

def map0 : List MapRow := [
  ⟨0x0, 0x2C, .std3Valid, []⟩,
  ⟨0x2D, 0x2E, .valid, []⟩,
  ⟨0x2F, 0x2F, .std3Valid, []⟩,
  ⟨0x30, 0x39, .valid, []⟩,
  ⟨0x3A, 0x40, .std3Valid, []⟩,
  ⟨0x41, 0x41, .mapped, [0x61]⟩,
  ⟨0x42, 0x42, .mapped, [0x62]⟩,
  ⟨0x43, 0x43, .mapped, [0x63]⟩,
  ⟨0x44, 0x44, .mapped, [0x64]⟩,
  ⟨0x45, 0x45, .mapped, [0x65]⟩,
  ⟨0x46, 0x46, .mapped, [0x66]⟩,
  ⟨0x47, 0x47, .mapped, [0x67]⟩,
  ⟨0x48, 0x48, .mapped, [0x68]⟩,
  ⟨0x49, 0x49, .mapped, [0x69]⟩,
  ⟨0x4A, 0x4A, .mapped, [0x6A]⟩,
  ⟨0x4B, 0x4B, .mapped, [0x6B]⟩,
  ⟨0x4C, 0x4C, .mapped, [0x6C]⟩,
  ⟨0x4D, 0x4D, .mapped, [0x6D]⟩,
  ⟨0x4E, 0x4E, .mapped, [0x6E]⟩,
  ⟨0x4F, 0x4F, .mapped, [0x6F]⟩,
  ⟨0x50, 0x50, .mapped, [0x70]⟩,
  ⟨0x51, 0x51, .mapped, [0x71]⟩,
  ⟨0x52, 0x52, .mapped, [0x72]⟩,
  ⟨0x53, 0x53, .mapped, [0x73]⟩,
  ⟨0x54, 0x54, .mapped, [0x74]⟩,
  ⟨0x55, 0x55, .mapped, [0x75]⟩,
  ⟨0x56, 0x56, .mapped, [0x76]⟩,
  ⟨0x57, 0x57, .mapped, [0x77]⟩,
  ⟨0x58, 0x58, .mapped, [0x78]⟩,
  ⟨0x59, 0x59, .mapped, [0x79]⟩,
  ⟨0x5A, 0x5A, .mapped, [0x7A]⟩,
  ⟨0x5B, 0x60, .std3Valid, []⟩,
  ⟨0x61, 0x7A, .valid, []⟩,
  ⟨0x7B, 0x7F, .std3Valid, []⟩,
  ⟨0x80, 0x9F, .disallowed, []⟩,
  ⟨0xA0, 0xA0, .std3Mapped, [0x20]⟩,
  ⟨0xA1, 0xA7, .valid, []⟩,
  ⟨0xA8, 0xA8, .std3Mapped, [0x20, 0x308]⟩,
  ⟨0xA9, 0xA9, .valid, []⟩,
  ⟨0xAA, 0xAA, .mapped, [0x61]⟩,
  ⟨0xAB, 0xAC, .valid, []⟩,
  ⟨0xAD, 0xAD, .ignored, []⟩,
  ⟨0xAE, 0xAE, .valid, []⟩,
  ⟨0xAF, 0xAF, .std3Mapped, [0x20, 0x304]⟩,
  ⟨0xB0, 0xB1, .valid, []⟩,
  ⟨0xB2, 0xB2, .mapped, [0x32]⟩,
  ⟨0xB3, 0xB3, .mapped, [0x33]⟩,
  ⟨0xB4, 0xB4, .std3Mapped, [0x20, 0x301]⟩,
  ⟨0xB5, 0xB5, .mapped, [0x3BC]⟩,
  ⟨0xB6, 0xB6, .valid, []⟩,
  ⟨0xB7, 0xB7, .valid, []⟩,
  ⟨0xB8, 0xB8, .std3Mapped, [0x20, 0x327]⟩,
  ⟨0xB9, 0xB9, .mapped, [0x31]⟩,
  ⟨0xBA, 0xBA, .mapped, [0x6F]⟩,
  ⟨0xBB, 0xBB, .valid, []⟩,
  ⟨0xBC, 0xBC, .mapped, [0x31, 0x2044, 0x34]⟩,
  ⟨0xBD, 0xBD, .mapped, [0x31, 0x2044, 0x32]⟩,
  ⟨0xBE, 0xBE, .mapped, [0x33, 0x2044, 0x34]⟩,
  ⟨0xBF, 0xBF, .valid, []⟩,
  ⟨0xC0, 0xC0, .mapped, [0xE0]⟩,
  ⟨0xC1, 0xC1, .mapped, [0xE1]⟩,
  ⟨0xC2, 0xC2, .mapped, [0xE2]⟩,
  ⟨0xC3, 0xC3, .mapped, [0xE3]⟩,
  ⟨0xC4, 0xC4, .mapped, [0xE4]⟩,
  ⟨0xC5, 0xC5, .mapped, [0xE5]⟩,
  ⟨0xC6, 0xC6, .mapped, [0xE6]⟩,
  ⟨0xC7, 0xC7, .mapped, [0xE7]⟩,
  ⟨0xC8, 0xC8, .mapped, [0xE8]⟩,
  ⟨0xC9, 0xC9, .mapped, [0xE9]⟩,
  ⟨0xCA, 0xCA, .mapped, [0xEA]⟩,
  ⟨0xCB, 0xCB, .mapped, [0xEB]⟩,
  ⟨0xCC, 0xCC, .mapped, [0xEC]⟩,
  ⟨0xCD, 0xCD, .mapped, [0xED]⟩,
  ⟨0xCE, 0xCE, .mapped, [0xEE]⟩,
  ⟨0xCF, 0xCF, .mapped, [0xEF]⟩,
  ⟨0xD0, 0xD0, .mapped, [0xF0]⟩,
  ⟨0xD1, 0xD1, .mapped, [0xF1]⟩,
  ⟨0xD2, 0xD2, .mapped, [0xF2]⟩,
  ⟨0xD3, 0xD3, .mapped, [0xF3]⟩,
  ⟨0xD4, 0xD4, .mapped, [0xF4]⟩,
  ⟨0xD5, 0xD5, .mapped, [0xF5]⟩,
  ⟨0xD6, 0xD6, .mapped, [0xF6]⟩,
  ⟨0xD7, 0xD7, .valid, []⟩,
  ⟨0xD8, 0xD8, .mapped, [0xF8]⟩,
  ⟨0xD9, 0xD9, .mapped, [0xF9]⟩,
  ⟨0xDA, 0xDA, .mapped, [0xFA]⟩,
  ⟨0xDB, 0xDB, .mapped, [0xFB]⟩,
  ⟨0xDC, 0xDC, .mapped, [0xFC]⟩,
  ⟨0xDD, 0xDD, .mapped, [0xFD]⟩,
  ⟨0xDE, 0xDE, .mapped, [0xFE]⟩,
  ⟨0xDF, 0xDF, .deviation, [0x73, 0x73]⟩,
  ⟨0xE0, 0xF6, .valid, []⟩,
  ⟨0xF7, 0xF7, .valid, []⟩,
  ⟨0xF8, 0xFF, .valid, []⟩,
  ⟨0x100, 0x100, .mapped, [0x101]⟩,
  ⟨0x101, 0x101, .valid, []⟩,
  ⟨0x102, 0x102, .mapped, [0x103]⟩,
  ⟨0x103, 0x103, .valid, []⟩,
  ⟨0x104, 0x104, .mapped, [0x105]⟩,
  ⟨0x105, 0x105, .valid, []⟩,
  ⟨0x106, 0x106, .mapped, [0x107]⟩,
  ⟨0x107, 0x107, .valid, []⟩,
  ⟨0x108, 0x108, .mapped, [0x109]⟩,
  ⟨0x109, 0x109, .valid, []⟩,
  ⟨0x10A, 0x10A, .mapped, [0x10B]⟩,
  ⟨0x10B, 0x10B, .valid, []⟩,
  ⟨0x10C, 0x10C, .mapped, [0x10D]⟩,
  ⟨0x10D, 0x10D, .valid, []⟩,
  ⟨0x10E, 0x10E, .mapped, [0x10F]⟩,
  ⟨0x10F, 0x10F, .valid, []⟩,
  ⟨0x110, 0x110, .mapped, [0x111]⟩,
  ⟨0x111, 0x111, .valid, []⟩,
  ⟨0x112, 0x112, .mapped, [0x113]⟩,
  ⟨0x113, 0x113, .valid, []⟩,
  ⟨0x114, 0x114, .mapped, [0x115]⟩,
  ⟨0x115, 0x115, .valid, []⟩,
  ⟨0x116, 0x116, .mapped, [0x117]⟩,
  ⟨0x117, 0x117, .valid, []⟩,
  ⟨0x118, 0x118, .mapped, [0x119]⟩,
  ⟨0x119, 0x119, .valid, []⟩,
  ⟨0x11A, 0x11A, .mapped, [0x11B]⟩,
  ⟨0x11B, 0x11B, .valid, []⟩,
  ⟨0x11C, 0x11C, .mapped, [0x11D]⟩,
  ⟨0x11D, 0x11D, .valid, []⟩,
  ⟨0x11E, 0x11E, .mapped, [0x11F]⟩,
  ⟨0x11F, 0x11F, .valid, []⟩,
  ⟨0x120, 0x120, .mapped, [0x121]⟩,
  ⟨0x121, 0x121, .valid, []⟩,
  ⟨0x122, 0x122, .mapped, [0x123]⟩,
  ⟨0x123, 0x123, .valid, []⟩,
  ⟨0x124, 0x124, .mapped, [0x125]⟩,
  ⟨0x125, 0x125, .valid, []⟩,
  ⟨0x126, 0x126, .mapped, [0x127]⟩,
  ⟨0x127, 0x127, .valid, []⟩,
  ⟨0x128, 0x128, .mapped, [0x129]⟩,
  ⟨0x129, 0x129, .valid, []⟩,
  ⟨0x12A, 0x12A, .mapped, [0x12B]⟩,
  ⟨0x12B, 0x12B, .valid, []⟩,
  ⟨0x12C, 0x12C, .mapped, [0x12D]⟩,
  ⟨0x12D, 0x12D, .valid, []⟩,
  ⟨0x12E, 0x12E, .mapped, [0x12F]⟩,
  ⟨0x12F, 0x12F, .valid, []⟩,
  ⟨0x130, 0x130, .mapped, [0x69, 0x307]⟩,
  ⟨0x131, 0x131, .valid, []⟩,
  ⟨0x132, 0x133, .mapped, [0x69, 0x6A]⟩,
  ⟨0x134, 0x134, .mapped, [0x135]⟩,
  ⟨0x135, 0x135, .valid, []⟩,
  ⟨0x136, 0x136, .mapped, [0x137]⟩,
  ⟨0x137, 0x138, .valid, []⟩,
  ⟨0x139, 0x139, .mapped, [0x13A]⟩,
  ⟨0x13A, 0x13A, .valid, []⟩,
  ⟨0x13B, 0x13B, .mapped, [0x13C]⟩,
  ⟨0x13C, 0x13C, .valid, []⟩,
  ⟨0x13D, 0x13D, .mapped, [0x13E]⟩,
  ⟨0x13E, 0x13E, .valid, []⟩,
  ⟨0x13F, 0x140, .mapped, [0x6C, 0xB7]⟩,
  ⟨0x141, 0x141, .mapped, [0x142]⟩,
  ⟨0x142, 0x142, .valid, []⟩,
  ⟨0x143, 0x143, .mapped, [0x144]⟩,
  ⟨0x144, 0x144, .valid, []⟩,
  ⟨0x145, 0x145, .mapped, [0x146]⟩,
  ⟨0x146, 0x146, .valid, []⟩,
  ⟨0x147, 0x147, .mapped, [0x148]⟩,
  ⟨0x148, 0x148, .valid, []⟩,
  ⟨0x149, 0x149, .mapped, [0x2BC, 0x6E]⟩,
  ⟨0x14A, 0x14A, .mapped, [0x14B]⟩,
  ⟨0x14B, 0x14B, .valid, []⟩,
  ⟨0x14C, 0x14C, .mapped, [0x14D]⟩,
  ⟨0x14D, 0x14D, .valid, []⟩,
  ⟨0x14E, 0x14E, .mapped, [0x14F]⟩,
  ⟨0x14F, 0x14F, .valid, []⟩,
  ⟨0x150, 0x150, .mapped, [0x151]⟩,
  ⟨0x151, 0x151, .valid, []⟩,
  ⟨0x152, 0x152, .mapped, [0x153]⟩,
  ⟨0x153, 0x153, .valid, []⟩,
  ⟨0x154, 0x154, .mapped, [0x155]⟩,
  ⟨0x155, 0x155, .valid, []⟩,
  ⟨0x156, 0x156, .mapped, [0x157]⟩,
  ⟨0x157, 0x157, .valid, []⟩,
  ⟨0x158, 0x158, .mapped, [0x159]⟩,
  ⟨0x159, 0x159, .valid, []⟩,
  ⟨0x15A, 0x15A, .mapped, [0x15B]⟩,
  ⟨0x15B, 0x15B, .valid, []⟩,
  ⟨0x15C, 0x15C, .mapped, [0x15D]⟩,
  ⟨0x15D, 0x15D, .valid, []⟩,
  ⟨0x15E, 0x15E, .mapped, [0x15F]⟩,
  ⟨0x15F, 0x15F, .valid, []⟩,
  ⟨0x160, 0x160, .mapped, [0x161]⟩,
  ⟨0x161, 0x161, .valid, []⟩,
  ⟨0x162, 0x162, .mapped, [0x163]⟩,
  ⟨0x163, 0x163, .valid, []⟩,
  ⟨0x164, 0x164, .mapped, [0x165]⟩,
  ⟨0x165, 0x165, .valid, []⟩,
  ⟨0x166, 0x166, .mapped, [0x167]⟩,
  ⟨0x167, 0x167, .valid, []⟩,
  ⟨0x168, 0x168, .mapped, [0x169]⟩,
  ⟨0x169, 0x169, .valid, []⟩,
  ⟨0x16A, 0x16A, .mapped, [0x16B]⟩,
  ⟨0x16B, 0x16B, .valid, []⟩,
  ⟨0x16C, 0x16C, .mapped, [0x16D]⟩,
  ⟨0x16D, 0x16D, .valid, []⟩,
  ⟨0x16E, 0x16E, .mapped, [0x16F]⟩,
  ⟨0x16F, 0x16F, .valid, []⟩,
  ⟨0x170, 0x170, .mapped, [0x171]⟩,
  ⟨0x171, 0x171, .valid, []⟩,
  ⟨0x172, 0x172, .mapped, [0x173]⟩,
  ⟨0x173, 0x173, .valid, []⟩,
  ⟨0x174, 0x174, .mapped, [0x175]⟩,
  ⟨0x175, 0x175, .valid, []⟩,
  ⟨0x176, 0x176, .mapped, [0x177]⟩,
  ⟨0x177, 0x177, .valid, []⟩,
  ⟨0x178, 0x178, .mapped, [0xFF]⟩,
  ⟨0x179, 0x179, .mapped, [0x17A]⟩,
  ⟨0x17A, 0x17A, .valid, []⟩,
  ⟨0x17B, 0x17B, .mapped, [0x17C]⟩,
  ⟨0x17C, 0x17C, .valid, []⟩,
  ⟨0x17D, 0x17D, .mapped, [0x17E]⟩,
  ⟨0x17E, 0x17E, .valid, []⟩,
  ⟨0x17F, 0x17F, .mapped, [0x73]⟩,
  ⟨0x180, 0x180, .valid, []⟩,
  ⟨0x181, 0x181, .mapped, [0x253]⟩,
  ⟨0x182, 0x182, .mapped, [0x183]⟩,
  ⟨0x183, 0x183, .valid, []⟩,
  ⟨0x184, 0x184, .mapped, [0x185]⟩,
  ⟨0x185, 0x185, .valid, []⟩,
  ⟨0x186, 0x186, .mapped, [0x254]⟩,
  ⟨0x187, 0x187, .mapped, [0x188]⟩,
  ⟨0x188, 0x188, .valid, []⟩,
  ⟨0x189, 0x189, .mapped, [0x256]⟩,
  ⟨0x18A, 0x18A, .mapped, [0x257]⟩,
  ⟨0x18B, 0x18B, .mapped, [0x18C]⟩,
  ⟨0x18C, 0x18D, .valid, []⟩,
  ⟨0x18E, 0x18E, .mapped, [0x1DD]⟩,
  ⟨0x18F, 0x18F, .mapped, [0x259]⟩,
  ⟨0x190, 0x190, .mapped, [0x25B]⟩,
  ⟨0x191, 0x191, .mapped, [0x192]⟩,
  ⟨0x192, 0x192, .valid, []⟩,
  ⟨0x193, 0x193, .mapped, [0x260]⟩,
  ⟨0x194, 0x194, .mapped, [0x263]⟩]

def map1 : List MapRow := [
  ⟨0x195, 0x195, .valid, []⟩,
  ⟨0x196, 0x196, .mapped, [0x269]⟩,
  ⟨0x197, 0x197, .mapped, [0x268]⟩,
  ⟨0x198, 0x198, .mapped, [0x199]⟩,
  ⟨0x199, 0x19B, .valid, []⟩,
  ⟨0x19C, 0x19C, .mapped, [0x26F]⟩,
  ⟨0x19D, 0x19D, .mapped, [0x272]⟩,
  ⟨0x19E, 0x19E, .valid, []⟩,
  ⟨0x19F, 0x19F, .mapped, [0x275]⟩,
  ⟨0x1A0, 0x1A0, .mapped, [0x1A1]⟩,
  ⟨0x1A1, 0x1A1, .valid, []⟩,
  ⟨0x1A2, 0x1A2, .mapped, [0x1A3]⟩,
  ⟨0x1A3, 0x1A3, .valid, []⟩,
  ⟨0x1A4, 0x1A4, .mapped, [0x1A5]⟩,
  ⟨0x1A5, 0x1A5, .valid, []⟩,
  ⟨0x1A6, 0x1A6, .mapped, [0x280]⟩,
  ⟨0x1A7, 0x1A7, .mapped, [0x1A8]⟩,
  ⟨0x1A8, 0x1A8, .valid, []⟩,
  ⟨0x1A9, 0x1A9, .mapped, [0x283]⟩,
  ⟨0x1AA, 0x1AB, .valid, []⟩,
  ⟨0x1AC, 0x1AC, .mapped, [0x1AD]⟩,
  ⟨0x1AD, 0x1AD, .valid, []⟩,
  ⟨0x1AE, 0x1AE, .mapped, [0x288]⟩,
  ⟨0x1AF, 0x1AF, .mapped, [0x1B0]⟩,
  ⟨0x1B0, 0x1B0, .valid, []⟩,
  ⟨0x1B1, 0x1B1, .mapped, [0x28A]⟩,
  ⟨0x1B2, 0x1B2, .mapped, [0x28B]⟩,
  ⟨0x1B3, 0x1B3, .mapped, [0x1B4]⟩,
  ⟨0x1B4, 0x1B4, .valid, []⟩,
  ⟨0x1B5, 0x1B5, .mapped, [0x1B6]⟩,
  ⟨0x1B6, 0x1B6, .valid, []⟩,
  ⟨0x1B7, 0x1B7, .mapped, [0x292]⟩,
  ⟨0x1B8, 0x1B8, .mapped, [0x1B9]⟩,
  ⟨0x1B9, 0x1BB, .valid, []⟩,
  ⟨0x1BC, 0x1BC, .mapped, [0x1BD]⟩,
  ⟨0x1BD, 0x1C3, .valid, []⟩,
  ⟨0x1C4, 0x1C6, .mapped, [0x64, 0x17E]⟩,
  ⟨0x1C7, 0x1C9, .mapped, [0x6C, 0x6A]⟩,
  ⟨0x1CA, 0x1CC, .mapped, [0x6E, 0x6A]⟩,
  ⟨0x1CD, 0x1CD, .mapped, [0x1CE]⟩,
  ⟨0x1CE, 0x1CE, .valid, []⟩,
  ⟨0x1CF, 0x1CF, .mapped, [0x1D0]⟩,
  ⟨0x1D0, 0x1D0, .valid, []⟩,
  ⟨0x1D1, 0x1D1, .mapped, [0x1D2]⟩,
  ⟨0x1D2, 0x1D2, .valid, []⟩,
  ⟨0x1D3, 0x1D3, .mapped, [0x1D4]⟩,
  ⟨0x1D4, 0x1D4, .valid, []⟩,
  ⟨0x1D5, 0x1D5, .mapped, [0x1D6]⟩,
  ⟨0x1D6, 0x1D6, .valid, []⟩,
  ⟨0x1D7, 0x1D7, .mapped, [0x1D8]⟩,
  ⟨0x1D8, 0x1D8, .valid, []⟩,
  ⟨0x1D9, 0x1D9, .mapped, [0x1DA]⟩,
  ⟨0x1DA, 0x1DA, .valid, []⟩,
  ⟨0x1DB, 0x1DB, .mapped, [0x1DC]⟩,
  ⟨0x1DC, 0x1DD, .valid, []⟩,
  ⟨0x1DE, 0x1DE, .mapped, [0x1DF]⟩,
  ⟨0x1DF, 0x1DF, .valid, []⟩,
  ⟨0x1E0, 0x1E0, .mapped, [0x1E1]⟩,
  ⟨0x1E1, 0x1E1, .valid, []⟩,
  ⟨0x1E2, 0x1E2, .mapped, [0x1E3]⟩,
  ⟨0x1E3, 0x1E3, .valid, []⟩,
  ⟨0x1E4, 0x1E4, .mapped, [0x1E5]⟩,
  ⟨0x1E5, 0x1E5, .valid, []⟩,
  ⟨0x1E6, 0x1E6, .mapped, [0x1E7]⟩,
  ⟨0x1E7, 0x1E7, .valid, []⟩,
  ⟨0x1E8, 0x1E8, .mapped, [0x1E9]⟩,
  ⟨0x1E9, 0x1E9, .valid, []⟩,
  ⟨0x1EA, 0x1EA, .mapped, [0x1EB]⟩,
  ⟨0x1EB, 0x1EB, .valid, []⟩,
  ⟨0x1EC, 0x1EC, .mapped, [0x1ED]⟩,
  ⟨0x1ED, 0x1ED, .valid, []⟩,
  ⟨0x1EE, 0x1EE, .mapped, [0x1EF]⟩,
  ⟨0x1EF, 0x1F0, .valid, []⟩,
  ⟨0x1F1, 0x1F3, .mapped, [0x64, 0x7A]⟩,
  ⟨0x1F4, 0x1F4, .mapped, [0x1F5]⟩,
  ⟨0x1F5, 0x1F5, .valid, []⟩,
  ⟨0x1F6, 0x1F6, .mapped, [0x195]⟩,
  ⟨0x1F7, 0x1F7, .mapped, [0x1BF]⟩,
  ⟨0x1F8, 0x1F8, .mapped, [0x1F9]⟩,
  ⟨0x1F9, 0x1F9, .valid, []⟩,
  ⟨0x1FA, 0x1FA, .mapped, [0x1FB]⟩,
  ⟨0x1FB, 0x1FB, .valid, []⟩,
  ⟨0x1FC, 0x1FC, .mapped, [0x1FD]⟩,
  ⟨0x1FD, 0x1FD, .valid, []⟩,
  ⟨0x1FE, 0x1FE, .mapped, [0x1FF]⟩,
  ⟨0x1FF, 0x1FF, .valid, []⟩,
  ⟨0x200, 0x200, .mapped, [0x201]⟩,
  ⟨0x201, 0x201, .valid, []⟩,
  ⟨0x202, 0x202, .mapped, [0x203]⟩,
  ⟨0x203, 0x203, .valid, []⟩,
  ⟨0x204, 0x204, .mapped, [0x205]⟩,
  ⟨0x205, 0x205, .valid, []⟩,
  ⟨0x206, 0x206, .mapped, [0x207]⟩,
  ⟨0x207, 0x207, .valid, []⟩,
  ⟨0x208, 0x208, .mapped, [0x209]⟩,
  ⟨0x209, 0x209, .valid, []⟩,
  ⟨0x20A, 0x20A, .mapped, [0x20B]⟩,
  ⟨0x20B, 0x20B, .valid, []⟩,
  ⟨0x20C, 0x20C, .mapped, [0x20D]⟩,
  ⟨0x20D, 0x20D, .valid, []⟩,
  ⟨0x20E, 0x20E, .mapped, [0x20F]⟩,
  ⟨0x20F, 0x20F, .valid, []⟩,
  ⟨0x210, 0x210, .mapped, [0x211]⟩,
  ⟨0x211, 0x211, .valid, []⟩,
  ⟨0x212, 0x212, .mapped, [0x213]⟩,
  ⟨0x213, 0x213, .valid, []⟩,
  ⟨0x214, 0x214, .mapped, [0x215]⟩,
  ⟨0x215, 0x215, .valid, []⟩,
  ⟨0x216, 0x216, .mapped, [0x217]⟩,
  ⟨0x217, 0x217, .valid, []⟩,
  ⟨0x218, 0x218, .mapped, [0x219]⟩,
  ⟨0x219, 0x219, .valid, []⟩,
  ⟨0x21A, 0x21A, .mapped, [0x21B]⟩,
  ⟨0x21B, 0x21B, .valid, []⟩,
  ⟨0x21C, 0x21C, .mapped, [0x21D]⟩,
  ⟨0x21D, 0x21D, .valid, []⟩,
  ⟨0x21E, 0x21E, .mapped, [0x21F]⟩,
  ⟨0x21F, 0x21F, .valid, []⟩,
  ⟨0x220, 0x220, .mapped, [0x19E]⟩,
  ⟨0x221, 0x221, .valid, []⟩,
  ⟨0x222, 0x222, .mapped, [0x223]⟩,
  ⟨0x223, 0x223, .valid, []⟩,
  ⟨0x224, 0x224, .mapped, [0x225]⟩,
  ⟨0x225, 0x225, .valid, []⟩,
  ⟨0x226, 0x226, .mapped, [0x227]⟩,
  ⟨0x227, 0x227, .valid, []⟩,
  ⟨0x228, 0x228, .mapped, [0x229]⟩,
  ⟨0x229, 0x229, .valid, []⟩,
  ⟨0x22A, 0x22A, .mapped, [0x22B]⟩,
  ⟨0x22B, 0x22B, .valid, []⟩,
  ⟨0x22C, 0x22C, .mapped, [0x22D]⟩,
  ⟨0x22D, 0x22D, .valid, []⟩,
  ⟨0x22E, 0x22E, .mapped, [0x22F]⟩,
  ⟨0x22F, 0x22F, .valid, []⟩,
  ⟨0x230, 0x230, .mapped, [0x231]⟩,
  ⟨0x231, 0x231, .valid, []⟩,
  ⟨0x232, 0x232, .mapped, [0x233]⟩,
  ⟨0x233, 0x233, .valid, []⟩,
  ⟨0x234, 0x236, .valid, []⟩,
  ⟨0x237, 0x239, .valid, []⟩,
  ⟨0x23A, 0x23A, .mapped, [0x2C65]⟩,
  ⟨0x23B, 0x23B, .mapped, [0x23C]⟩,
  ⟨0x23C, 0x23C, .valid, []⟩,
  ⟨0x23D, 0x23D, .mapped, [0x19A]⟩,
  ⟨0x23E, 0x23E, .mapped, [0x2C66]⟩,
  ⟨0x23F, 0x240, .valid, []⟩,
  ⟨0x241, 0x241, .mapped, [0x242]⟩,
  ⟨0x242, 0x242, .valid, []⟩,
  ⟨0x243, 0x243, .mapped, [0x180]⟩,
  ⟨0x244, 0x244, .mapped, [0x289]⟩,
  ⟨0x245, 0x245, .mapped, [0x28C]⟩,
  ⟨0x246, 0x246, .mapped, [0x247]⟩,
  ⟨0x247, 0x247, .valid, []⟩,
  ⟨0x248, 0x248, .mapped, [0x249]⟩,
  ⟨0x249, 0x249, .valid, []⟩,
  ⟨0x24A, 0x24A, .mapped, [0x24B]⟩,
  ⟨0x24B, 0x24B, .valid, []⟩,
  ⟨0x24C, 0x24C, .mapped, [0x24D]⟩,
  ⟨0x24D, 0x24D, .valid, []⟩,
  ⟨0x24E, 0x24E, .mapped, [0x24F]⟩,
  ⟨0x24F, 0x24F, .valid, []⟩,
  ⟨0x250, 0x2A8, .valid, []⟩,
  ⟨0x2A9, 0x2AD, .valid, []⟩,
  ⟨0x2AE, 0x2AF, .valid, []⟩,
  ⟨0x2B0, 0x2B0, .mapped, [0x68]⟩,
  ⟨0x2B1, 0x2B1, .mapped, [0x266]⟩,
  ⟨0x2B2, 0x2B2, .mapped, [0x6A]⟩,
  ⟨0x2B3, 0x2B3, .mapped, [0x72]⟩,
  ⟨0x2B4, 0x2B4, .mapped, [0x279]⟩,
  ⟨0x2B5, 0x2B5, .mapped, [0x27B]⟩,
  ⟨0x2B6, 0x2B6, .mapped, [0x281]⟩,
  ⟨0x2B7, 0x2B7, .mapped, [0x77]⟩,
  ⟨0x2B8, 0x2B8, .mapped, [0x79]⟩,
  ⟨0x2B9, 0x2C1, .valid, []⟩,
  ⟨0x2C2, 0x2C5, .valid, []⟩,
  ⟨0x2C6, 0x2D1, .valid, []⟩,
  ⟨0x2D2, 0x2D7, .valid, []⟩,
  ⟨0x2D8, 0x2D8, .std3Mapped, [0x20, 0x306]⟩,
  ⟨0x2D9, 0x2D9, .std3Mapped, [0x20, 0x307]⟩,
  ⟨0x2DA, 0x2DA, .std3Mapped, [0x20, 0x30A]⟩,
  ⟨0x2DB, 0x2DB, .std3Mapped, [0x20, 0x328]⟩,
  ⟨0x2DC, 0x2DC, .std3Mapped, [0x20, 0x303]⟩,
  ⟨0x2DD, 0x2DD, .std3Mapped, [0x20, 0x30B]⟩,
  ⟨0x2DE, 0x2DE, .valid, []⟩,
  ⟨0x2DF, 0x2DF, .valid, []⟩,
  ⟨0x2E0, 0x2E0, .mapped, [0x263]⟩,
  ⟨0x2E1, 0x2E1, .mapped, [0x6C]⟩,
  ⟨0x2E2, 0x2E2, .mapped, [0x73]⟩,
  ⟨0x2E3, 0x2E3, .mapped, [0x78]⟩,
  ⟨0x2E4, 0x2E4, .mapped, [0x295]⟩,
  ⟨0x2E5, 0x2E9, .valid, []⟩,
  ⟨0x2EA, 0x2EB, .valid, []⟩,
  ⟨0x2EC, 0x2EC, .valid, []⟩,
  ⟨0x2ED, 0x2ED, .valid, []⟩,
  ⟨0x2EE, 0x2EE, .valid, []⟩,
  ⟨0x2EF, 0x2FF, .valid, []⟩,
  ⟨0x300, 0x33F, .valid, []⟩,
  ⟨0x340, 0x340, .mapped, [0x300]⟩,
  ⟨0x341, 0x341, .mapped, [0x301]⟩,
  ⟨0x342, 0x342, .valid, []⟩,
  ⟨0x343, 0x343, .mapped, [0x313]⟩,
  ⟨0x344, 0x344, .mapped, [0x308, 0x301]⟩,
  ⟨0x345, 0x345, .mapped, [0x3B9]⟩,
  ⟨0x346, 0x34E, .valid, []⟩,
  ⟨0x34F, 0x34F, .ignored, []⟩,
  ⟨0x350, 0x357, .valid, []⟩,
  ⟨0x358, 0x35C, .valid, []⟩,
  ⟨0x35D, 0x35F, .valid, []⟩,
  ⟨0x360, 0x361, .valid, []⟩,
  ⟨0x362, 0x362, .valid, []⟩,
  ⟨0x363, 0x36F, .valid, []⟩,
  ⟨0x370, 0x370, .mapped, [0x371]⟩,
  ⟨0x371, 0x371, .valid, []⟩,
  ⟨0x372, 0x372, .mapped, [0x373]⟩,
  ⟨0x373, 0x373, .valid, []⟩,
  ⟨0x374, 0x374, .mapped, [0x2B9]⟩,
  ⟨0x375, 0x375, .valid, []⟩,
  ⟨0x376, 0x376, .mapped, [0x377]⟩,
  ⟨0x377, 0x377, .valid, []⟩,
  ⟨0x378, 0x379, .disallowed, []⟩,
  ⟨0x37A, 0x37A, .std3Mapped, [0x20, 0x3B9]⟩,
  ⟨0x37B, 0x37D, .valid, []⟩,
  ⟨0x37E, 0x37E, .std3Mapped, [0x3B]⟩,
  ⟨0x37F, 0x37F, .mapped, [0x3F3]⟩,
  ⟨0x380, 0x383, .disallowed, []⟩,
  ⟨0x384, 0x384, .std3Mapped, [0x20, 0x301]⟩,
  ⟨0x385, 0x385, .std3Mapped, [0x20, 0x308, 0x301]⟩,
  ⟨0x386, 0x386, .mapped, [0x3AC]⟩,
  ⟨0x387, 0x387, .mapped, [0xB7]⟩,
  ⟨0x388, 0x388, .mapped, [0x3AD]⟩,
  ⟨0x389, 0x389, .mapped, [0x3AE]⟩,
  ⟨0x38A, 0x38A, .mapped, [0x3AF]⟩,
  ⟨0x38B, 0x38B, .disallowed, []⟩,
  ⟨0x38C, 0x38C, .mapped, [0x3CC]⟩,
  ⟨0x38D, 0x38D, .disallowed, []⟩,
  ⟨0x38E, 0x38E, .mapped, [0x3CD]⟩,
  ⟨0x38F, 0x38F, .mapped, [0x3CE]⟩,
  ⟨0x390, 0x390, .valid, []⟩,
  ⟨0x391, 0x391, .mapped, [0x3B1]⟩,
  ⟨0x392, 0x392, .mapped, [0x3B2]⟩,
  ⟨0x393, 0x393, .mapped, [0x3B3]⟩,
  ⟨0x394, 0x394, .mapped, [0x3B4]⟩,
  ⟨0x395, 0x395, .mapped, [0x3B5]⟩,
  ⟨0x396, 0x396, .mapped, [0x3B6]⟩,
  ⟨0x397, 0x397, .mapped, [0x3B7]⟩,
  ⟨0x398, 0x398, .mapped, [0x3B8]⟩,
  ⟨0x399, 0x399, .mapped, [0x3B9]⟩,
  ⟨0x39A, 0x39A, .mapped, [0x3BA]⟩,
  ⟨0x39B, 0x39B, .mapped, [0x3BB]⟩,
  ⟨0x39C, 0x39C, .mapped, [0x3BC]⟩]

def map2 : List MapRow := [
  ⟨0x39D, 0x39D, .mapped, [0x3BD]⟩,
  ⟨0x39E, 0x39E, .mapped, [0x3BE]⟩,
  ⟨0x39F, 0x39F, .mapped, [0x3BF]⟩,
  ⟨0x3A0, 0x3A0, .mapped, [0x3C0]⟩,
  ⟨0x3A1, 0x3A1, .mapped, [0x3C1]⟩,
  ⟨0x3A2, 0x3A2, .disallowed, []⟩,
  ⟨0x3A3, 0x3A3, .mapped, [0x3C3]⟩,
  ⟨0x3A4, 0x3A4, .mapped, [0x3C4]⟩,
  ⟨0x3A5, 0x3A5, .mapped, [0x3C5]⟩,
  ⟨0x3A6, 0x3A6, .mapped, [0x3C6]⟩,
  ⟨0x3A7, 0x3A7, .mapped, [0x3C7]⟩,
  ⟨0x3A8, 0x3A8, .mapped, [0x3C8]⟩,
  ⟨0x3A9, 0x3A9, .mapped, [0x3C9]⟩,
  ⟨0x3AA, 0x3AA, .mapped, [0x3CA]⟩,
  ⟨0x3AB, 0x3AB, .mapped, [0x3CB]⟩,
  ⟨0x3AC, 0x3C1, .valid, []⟩,
  ⟨0x3C2, 0x3C2, .deviation, [0x3C3]⟩,
  ⟨0x3C3, 0x3CE, .valid, []⟩,
  ⟨0x3CF, 0x3CF, .mapped, [0x3D7]⟩,
  ⟨0x3D0, 0x3D0, .mapped, [0x3B2]⟩,
  ⟨0x3D1, 0x3D1, .mapped, [0x3B8]⟩,
  ⟨0x3D2, 0x3D2, .mapped, [0x3C5]⟩,
  ⟨0x3D3, 0x3D3, .mapped, [0x3CD]⟩,
  ⟨0x3D4, 0x3D4, .mapped, [0x3CB]⟩,
  ⟨0x3D5, 0x3D5, .mapped, [0x3C6]⟩,
  ⟨0x3D6, 0x3D6, .mapped, [0x3C0]⟩,
  ⟨0x3D7, 0x3D7, .valid, []⟩,
  ⟨0x3D8, 0x3D8, .mapped, [0x3D9]⟩,
  ⟨0x3D9, 0x3D9, .valid, []⟩,
  ⟨0x3DA, 0x3DA, .mapped, [0x3DB]⟩,
  ⟨0x3DB, 0x3DB, .valid, []⟩,
  ⟨0x3DC, 0x3DC, .mapped, [0x3DD]⟩,
  ⟨0x3DD, 0x3DD, .valid, []⟩,
  ⟨0x3DE, 0x3DE, .mapped, [0x3DF]⟩,
  ⟨0x3DF, 0x3DF, .valid, []⟩,
  ⟨0x3E0, 0x3E0, .mapped, [0x3E1]⟩,
  ⟨0x3E1, 0x3E1, .valid, []⟩,
  ⟨0x3E2, 0x3E2, .mapped, [0x3E3]⟩,
  ⟨0x3E3, 0x3E3, .valid, []⟩,
  ⟨0x3E4, 0x3E4, .mapped, [0x3E5]⟩,
  ⟨0x3E5, 0x3E5, .valid, []⟩,
  ⟨0x3E6, 0x3E6, .mapped, [0x3E7]⟩,
  ⟨0x3E7, 0x3E7, .valid, []⟩,
  ⟨0x3E8, 0x3E8, .mapped, [0x3E9]⟩,
  ⟨0x3E9, 0x3E9, .valid, []⟩,
  ⟨0x3EA, 0x3EA, .mapped, [0x3EB]⟩,
  ⟨0x3EB, 0x3EB, .valid, []⟩,
  ⟨0x3EC, 0x3EC, .mapped, [0x3ED]⟩,
  ⟨0x3ED, 0x3ED, .valid, []⟩,
  ⟨0x3EE, 0x3EE, .mapped, [0x3EF]⟩,
  ⟨0x3EF, 0x3EF, .valid, []⟩,
  ⟨0x3F0, 0x3F0, .mapped, [0x3BA]⟩,
  ⟨0x3F1, 0x3F1, .mapped, [0x3C1]⟩,
  ⟨0x3F2, 0x3F2, .mapped, [0x3C3]⟩,
  ⟨0x3F3, 0x3F3, .valid, []⟩,
  ⟨0x3F4, 0x3F4, .mapped, [0x3B8]⟩,
  ⟨0x3F5, 0x3F5, .mapped, [0x3B5]⟩,
  ⟨0x3F6, 0x3F6, .valid, []⟩,
  ⟨0x3F7, 0x3F7, .mapped, [0x3F8]⟩,
  ⟨0x3F8, 0x3F8, .valid, []⟩,
  ⟨0x3F9, 0x3F9, .mapped, [0x3C3]⟩,
  ⟨0x3FA, 0x3FA, .mapped, [0x3FB]⟩,
  ⟨0x3FB, 0x3FB, .valid, []⟩,
  ⟨0x3FC, 0x3FC, .valid, []⟩,
  ⟨0x3FD, 0x3FD, .mapped, [0x37B]⟩,
  ⟨0x3FE, 0x3FE, .mapped, [0x37C]⟩,
  ⟨0x3FF, 0x3FF, .mapped, [0x37D]⟩,
  ⟨0x400, 0x400, .mapped, [0x450]⟩,
  ⟨0x401, 0x401, .mapped, [0x451]⟩,
  ⟨0x402, 0x402, .mapped, [0x452]⟩,
  ⟨0x403, 0x403, .mapped, [0x453]⟩,
  ⟨0x404, 0x404, .mapped, [0x454]⟩,
  ⟨0x405, 0x405, .mapped, [0x455]⟩,
  ⟨0x406, 0x406, .mapped, [0x456]⟩,
  ⟨0x407, 0x407, .mapped, [0x457]⟩,
  ⟨0x408, 0x408, .mapped, [0x458]⟩,
  ⟨0x409, 0x409, .mapped, [0x459]⟩,
  ⟨0x40A, 0x40A, .mapped, [0x45A]⟩,
  ⟨0x40B, 0x40B, .mapped, [0x45B]⟩,
  ⟨0x40C, 0x40C, .mapped, [0x45C]⟩,
  ⟨0x40D, 0x40D, .mapped, [0x45D]⟩,
  ⟨0x40E, 0x40E, .mapped, [0x45E]⟩,
  ⟨0x40F, 0x40F, .mapped, [0x45F]⟩,
  ⟨0x410, 0x410, .mapped, [0x430]⟩,
  ⟨0x411, 0x411, .mapped, [0x431]⟩,
  ⟨0x412, 0x412, .mapped, [0x432]⟩,
  ⟨0x413, 0x413, .mapped, [0x433]⟩,
  ⟨0x414, 0x414, .mapped, [0x434]⟩,
  ⟨0x415, 0x415, .mapped, [0x435]⟩,
  ⟨0x416, 0x416, .mapped, [0x436]⟩,
  ⟨0x417, 0x417, .mapped, [0x437]⟩,
  ⟨0x418, 0x418, .mapped, [0x438]⟩,
  ⟨0x419, 0x419, .mapped, [0x439]⟩,
  ⟨0x41A, 0x41A, .mapped, [0x43A]⟩,
  ⟨0x41B, 0x41B, .mapped, [0x43B]⟩,
  ⟨0x41C, 0x41C, .mapped, [0x43C]⟩,
  ⟨0x41D, 0x41D, .mapped, [0x43D]⟩,
  ⟨0x41E, 0x41E, .mapped, [0x43E]⟩,
  ⟨0x41F, 0x41F, .mapped, [0x43F]⟩,
  ⟨0x420, 0x420, .mapped, [0x440]⟩,
  ⟨0x421, 0x421, .mapped, [0x441]⟩,
  ⟨0x422, 0x422, .mapped, [0x442]⟩,
  ⟨0x423, 0x423, .mapped, [0x443]⟩,
  ⟨0x424, 0x424, .mapped, [0x444]⟩,
  ⟨0x425, 0x425, .mapped, [0x445]⟩,
  ⟨0x426, 0x426, .mapped, [0x446]⟩,
  ⟨0x427, 0x427, .mapped, [0x447]⟩,
  ⟨0x428, 0x428, .mapped, [0x448]⟩,
  ⟨0x429, 0x429, .mapped, [0x449]⟩,
  ⟨0x42A, 0x42A, .mapped, [0x44A]⟩,
  ⟨0x42B, 0x42B, .mapped, [0x44B]⟩,
  ⟨0x42C, 0x42C, .mapped, [0x44C]⟩,
  ⟨0x42D, 0x42D, .mapped, [0x44D]⟩,
  ⟨0x42E, 0x42E, .mapped, [0x44E]⟩,
  ⟨0x42F, 0x42F, .mapped, [0x44F]⟩,
  ⟨0x430, 0x44F, .valid, []⟩,
  ⟨0x450, 0x450, .valid, []⟩,
  ⟨0x451, 0x45C, .valid, []⟩,
  ⟨0x45D, 0x45D, .valid, []⟩,
  ⟨0x45E, 0x45F, .valid, []⟩,
  ⟨0x460, 0x460, .mapped, [0x461]⟩,
  ⟨0x461, 0x461, .valid, []⟩,
  ⟨0x462, 0x462, .mapped, [0x463]⟩,
  ⟨0x463, 0x463, .valid, []⟩,
  ⟨0x464, 0x464, .mapped, [0x465]⟩,
  ⟨0x465, 0x465, .valid, []⟩,
  ⟨0x466, 0x466, .mapped, [0x467]⟩,
  ⟨0x467, 0x467, .valid, []⟩,
  ⟨0x468, 0x468, .mapped, [0x469]⟩,
  ⟨0x469, 0x469, .valid, []⟩,
  ⟨0x46A, 0x46A, .mapped, [0x46B]⟩,
  ⟨0x46B, 0x46B, .valid, []⟩,
  ⟨0x46C, 0x46C, .mapped, [0x46D]⟩,
  ⟨0x46D, 0x46D, .valid, []⟩,
  ⟨0x46E, 0x46E, .mapped, [0x46F]⟩,
  ⟨0x46F, 0x46F, .valid, []⟩,
  ⟨0x470, 0x470, .mapped, [0x471]⟩,
  ⟨0x471, 0x471, .valid, []⟩,
  ⟨0x472, 0x472, .mapped, [0x473]⟩,
  ⟨0x473, 0x473, .valid, []⟩,
  ⟨0x474, 0x474, .mapped, [0x475]⟩,
  ⟨0x475, 0x475, .valid, []⟩,
  ⟨0x476, 0x476, .mapped, [0x477]⟩,
  ⟨0x477, 0x477, .valid, []⟩,
  ⟨0x478, 0x478, .mapped, [0x479]⟩,
  ⟨0x479, 0x479, .valid, []⟩,
  ⟨0x47A, 0x47A, .mapped, [0x47B]⟩,
  ⟨0x47B, 0x47B, .valid, []⟩,
  ⟨0x47C, 0x47C, .mapped, [0x47D]⟩,
  ⟨0x47D, 0x47D, .valid, []⟩,
  ⟨0x47E, 0x47E, .mapped, [0x47F]⟩,
  ⟨0x47F, 0x47F, .valid, []⟩,
  ⟨0x480, 0x480, .mapped, [0x481]⟩,
  ⟨0x481, 0x481, .valid, []⟩,
  ⟨0x482, 0x482, .valid, []⟩,
  ⟨0x483, 0x486, .valid, []⟩,
  ⟨0x487, 0x487, .valid, []⟩,
  ⟨0x488, 0x489, .valid, []⟩,
  ⟨0x48A, 0x48A, .mapped, [0x48B]⟩,
  ⟨0x48B, 0x48B, .valid, []⟩,
  ⟨0x48C, 0x48C, .mapped, [0x48D]⟩,
  ⟨0x48D, 0x48D, .valid, []⟩,
  ⟨0x48E, 0x48E, .mapped, [0x48F]⟩,
  ⟨0x48F, 0x48F, .valid, []⟩,
  ⟨0x490, 0x490, .mapped, [0x491]⟩,
  ⟨0x491, 0x491, .valid, []⟩,
  ⟨0x492, 0x492, .mapped, [0x493]⟩,
  ⟨0x493, 0x493, .valid, []⟩,
  ⟨0x494, 0x494, .mapped, [0x495]⟩,
  ⟨0x495, 0x495, .valid, []⟩,
  ⟨0x496, 0x496, .mapped, [0x497]⟩,
  ⟨0x497, 0x497, .valid, []⟩,
  ⟨0x498, 0x498, .mapped, [0x499]⟩,
  ⟨0x499, 0x499, .valid, []⟩,
  ⟨0x49A, 0x49A, .mapped, [0x49B]⟩,
  ⟨0x49B, 0x49B, .valid, []⟩,
  ⟨0x49C, 0x49C, .mapped, [0x49D]⟩,
  ⟨0x49D, 0x49D, .valid, []⟩,
  ⟨0x49E, 0x49E, .mapped, [0x49F]⟩,
  ⟨0x49F, 0x49F, .valid, []⟩,
  ⟨0x4A0, 0x4A0, .mapped, [0x4A1]⟩,
  ⟨0x4A1, 0x4A1, .valid, []⟩,
  ⟨0x4A2, 0x4A2, .mapped, [0x4A3]⟩,
  ⟨0x4A3, 0x4A3, .valid, []⟩,
  ⟨0x4A4, 0x4A4, .mapped, [0x4A5]⟩,
  ⟨0x4A5, 0x4A5, .valid, []⟩,
  ⟨0x4A6, 0x4A6, .mapped, [0x4A7]⟩,
  ⟨0x4A7, 0x4A7, .valid, []⟩,
  ⟨0x4A8, 0x4A8, .mapped, [0x4A9]⟩,
  ⟨0x4A9, 0x4A9, .valid, []⟩,
  ⟨0x4AA, 0x4AA, .mapped, [0x4AB]⟩,
  ⟨0x4AB, 0x4AB, .valid, []⟩,
  ⟨0x4AC, 0x4AC, .mapped, [0x4AD]⟩,
  ⟨0x4AD, 0x4AD, .valid, []⟩,
  ⟨0x4AE, 0x4AE, .mapped, [0x4AF]⟩,
  ⟨0x4AF, 0x4AF, .valid, []⟩,
  ⟨0x4B0, 0x4B0, .mapped, [0x4B1]⟩,
  ⟨0x4B1, 0x4B1, .valid, []⟩,
  ⟨0x4B2, 0x4B2, .mapped, [0x4B3]⟩,
  ⟨0x4B3, 0x4B3, .valid, []⟩,
  ⟨0x4B4, 0x4B4, .mapped, [0x4B5]⟩,
  ⟨0x4B5, 0x4B5, .valid, []⟩,
  ⟨0x4B6, 0x4B6, .mapped, [0x4B7]⟩,
  ⟨0x4B7, 0x4B7, .valid, []⟩,
  ⟨0x4B8, 0x4B8, .mapped, [0x4B9]⟩,
  ⟨0x4B9, 0x4B9, .valid, []⟩,
  ⟨0x4BA, 0x4BA, .mapped, [0x4BB]⟩,
  ⟨0x4BB, 0x4BB, .valid, []⟩,
  ⟨0x4BC, 0x4BC, .mapped, [0x4BD]⟩,
  ⟨0x4BD, 0x4BD, .valid, []⟩,
  ⟨0x4BE, 0x4BE, .mapped, [0x4BF]⟩,
  ⟨0x4BF, 0x4BF, .valid, []⟩,
  ⟨0x4C0, 0x4C0, .disallowed, []⟩,
  ⟨0x4C1, 0x4C1, .mapped, [0x4C2]⟩,
  ⟨0x4C2, 0x4C2, .valid, []⟩,
  ⟨0x4C3, 0x4C3, .mapped, [0x4C4]⟩,
  ⟨0x4C4, 0x4C4, .valid, []⟩,
  ⟨0x4C5, 0x4C5, .mapped, [0x4C6]⟩,
  ⟨0x4C6, 0x4C6, .valid, []⟩,
  ⟨0x4C7, 0x4C7, .mapped, [0x4C8]⟩,
  ⟨0x4C8, 0x4C8, .valid, []⟩,
  ⟨0x4C9, 0x4C9, .mapped, [0x4CA]⟩,
  ⟨0x4CA, 0x4CA, .valid, []⟩,
  ⟨0x4CB, 0x4CB, .mapped, [0x4CC]⟩,
  ⟨0x4CC, 0x4CC, .valid, []⟩,
  ⟨0x4CD, 0x4CD, .mapped, [0x4CE]⟩,
  ⟨0x4CE, 0x4CE, .valid, []⟩,
  ⟨0x4CF, 0x4CF, .valid, []⟩,
  ⟨0x4D0, 0x4D0, .mapped, [0x4D1]⟩,
  ⟨0x4D1, 0x4D1, .valid, []⟩,
  ⟨0x4D2, 0x4D2, .mapped, [0x4D3]⟩,
  ⟨0x4D3, 0x4D3, .valid, []⟩,
  ⟨0x4D4, 0x4D4, .mapped, [0x4D5]⟩,
  ⟨0x4D5, 0x4D5, .valid, []⟩,
  ⟨0x4D6, 0x4D6, .mapped, [0x4D7]⟩,
  ⟨0x4D7, 0x4D7, .valid, []⟩,
  ⟨0x4D8, 0x4D8, .mapped, [0x4D9]⟩,
  ⟨0x4D9, 0x4D9, .valid, []⟩,
  ⟨0x4DA, 0x4DA, .mapped, [0x4DB]⟩,
  ⟨0x4DB, 0x4DB, .valid, []⟩,
  ⟨0x4DC, 0x4DC, .mapped, [0x4DD]⟩,
  ⟨0x4DD, 0x4DD, .valid, []⟩,
  ⟨0x4DE, 0x4DE, .mapped, [0x4DF]⟩,
  ⟨0x4DF, 0x4DF, .valid, []⟩,
  ⟨0x4E0, 0x4E0, .mapped, [0x4E1]⟩,
  ⟨0x4E1, 0x4E1, .valid, []⟩,
  ⟨0x4E2, 0x4E2, .mapped, [0x4E3]⟩,
  ⟨0x4E3, 0x4E3, .valid, []⟩,
  ⟨0x4E4, 0x4E4, .mapped, [0x4E5]⟩,
  ⟨0x4E5, 0x4E5, .valid, []⟩]

def map3 : List MapRow := [
  ⟨0x4E6, 0x4E6, .mapped, [0x4E7]⟩,
  ⟨0x4E7, 0x4E7, .valid, []⟩,
  ⟨0x4E8, 0x4E8, .mapped, [0x4E9]⟩,
  ⟨0x4E9, 0x4E9, .valid, []⟩,
  ⟨0x4EA, 0x4EA, .mapped, [0x4EB]⟩,
  ⟨0x4EB, 0x4EB, .valid, []⟩,
  ⟨0x4EC, 0x4EC, .mapped, [0x4ED]⟩,
  ⟨0x4ED, 0x4ED, .valid, []⟩,
  ⟨0x4EE, 0x4EE, .mapped, [0x4EF]⟩,
  ⟨0x4EF, 0x4EF, .valid, []⟩,
  ⟨0x4F0, 0x4F0, .mapped, [0x4F1]⟩,
  ⟨0x4F1, 0x4F1, .valid, []⟩,
  ⟨0x4F2, 0x4F2, .mapped, [0x4F3]⟩,
  ⟨0x4F3, 0x4F3, .valid, []⟩,
  ⟨0x4F4, 0x4F4, .mapped, [0x4F5]⟩,
  ⟨0x4F5, 0x4F5, .valid, []⟩,
  ⟨0x4F6, 0x4F6, .mapped, [0x4F7]⟩,
  ⟨0x4F7, 0x4F7, .valid, []⟩,
  ⟨0x4F8, 0x4F8, .mapped, [0x4F9]⟩,
  ⟨0x4F9, 0x4F9, .valid, []⟩,
  ⟨0x4FA, 0x4FA, .mapped, [0x4FB]⟩,
  ⟨0x4FB, 0x4FB, .valid, []⟩,
  ⟨0x4FC, 0x4FC, .mapped, [0x4FD]⟩,
  ⟨0x4FD, 0x4FD, .valid, []⟩,
  ⟨0x4FE, 0x4FE, .mapped, [0x4FF]⟩,
  ⟨0x4FF, 0x4FF, .valid, []⟩,
  ⟨0x500, 0x500, .mapped, [0x501]⟩,
  ⟨0x501, 0x501, .valid, []⟩,
  ⟨0x502, 0x502, .mapped, [0x503]⟩,
  ⟨0x503, 0x503, .valid, []⟩,
  ⟨0x504, 0x504, .mapped, [0x505]⟩,
  ⟨0x505, 0x505, .valid, []⟩,
  ⟨0x506, 0x506, .mapped, [0x507]⟩,
  ⟨0x507, 0x507, .valid, []⟩,
  ⟨0x508, 0x508, .mapped, [0x509]⟩,
  ⟨0x509, 0x509, .valid, []⟩,
  ⟨0x50A, 0x50A, .mapped, [0x50B]⟩,
  ⟨0x50B, 0x50B, .valid, []⟩,
  ⟨0x50C, 0x50C, .mapped, [0x50D]⟩,
  ⟨0x50D, 0x50D, .valid, []⟩,
  ⟨0x50E, 0x50E, .mapped, [0x50F]⟩,
  ⟨0x50F, 0x50F, .valid, []⟩,
  ⟨0x510, 0x510, .mapped, [0x511]⟩,
  ⟨0x511, 0x511, .valid, []⟩,
  ⟨0x512, 0x512, .mapped, [0x513]⟩,
  ⟨0x513, 0x513, .valid, []⟩,
  ⟨0x514, 0x514, .mapped, [0x515]⟩,
  ⟨0x515, 0x515, .valid, []⟩,
  ⟨0x516, 0x516, .mapped, [0x517]⟩,
  ⟨0x517, 0x517, .valid, []⟩,
  ⟨0x518, 0x518, .mapped, [0x519]⟩,
  ⟨0x519, 0x519, .valid, []⟩,
  ⟨0x51A, 0x51A, .mapped, [0x51B]⟩,
  ⟨0x51B, 0x51B, .valid, []⟩,
  ⟨0x51C, 0x51C, .mapped, [0x51D]⟩,
  ⟨0x51D, 0x51D, .valid, []⟩,
  ⟨0x51E, 0x51E, .mapped, [0x51F]⟩,
  ⟨0x51F, 0x51F, .valid, []⟩,
  ⟨0x520, 0x520, .mapped, [0x521]⟩,
  ⟨0x521, 0x521, .valid, []⟩,
  ⟨0x522, 0x522, .mapped, [0x523]⟩,
  ⟨0x523, 0x523, .valid, []⟩,
  ⟨0x524, 0x524, .mapped, [0x525]⟩,
  ⟨0x525, 0x525, .valid, []⟩,
  ⟨0x526, 0x526, .mapped, [0x527]⟩,
  ⟨0x527, 0x527, .valid, []⟩,
  ⟨0x528, 0x528, .mapped, [0x529]⟩,
  ⟨0x529, 0x529, .valid, []⟩,
  ⟨0x52A, 0x52A, .mapped, [0x52B]⟩,
  ⟨0x52B, 0x52B, .valid, []⟩,
  ⟨0x52C, 0x52C, .mapped, [0x52D]⟩,
  ⟨0x52D, 0x52D, .valid, []⟩,
  ⟨0x52E, 0x52E, .mapped, [0x52F]⟩,
  ⟨0x52F, 0x52F, .valid, []⟩,
  ⟨0x530, 0x530, .disallowed, []⟩,
  ⟨0x531, 0x531, .mapped, [0x561]⟩,
  ⟨0x532, 0x532, .mapped, [0x562]⟩,
  ⟨0x533, 0x533, .mapped, [0x563]⟩,
  ⟨0x534, 0x534, .mapped, [0x564]⟩,
  ⟨0x535, 0x535, .mapped, [0x565]⟩,
  ⟨0x536, 0x536, .mapped, [0x566]⟩,
  ⟨0x537, 0x537, .mapped, [0x567]⟩,
  ⟨0x538, 0x538, .mapped, [0x568]⟩,
  ⟨0x539, 0x539, .mapped, [0x569]⟩,
  ⟨0x53A, 0x53A, .mapped, [0x56A]⟩,
  ⟨0x53B, 0x53B, .mapped, [0x56B]⟩,
  ⟨0x53C, 0x53C, .mapped, [0x56C]⟩,
  ⟨0x53D, 0x53D, .mapped, [0x56D]⟩,
  ⟨0x53E, 0x53E, .mapped, [0x56E]⟩,
  ⟨0x53F, 0x53F, .mapped, [0x56F]⟩,
  ⟨0x540, 0x540, .mapped, [0x570]⟩,
  ⟨0x541, 0x541, .mapped, [0x571]⟩,
  ⟨0x542, 0x542, .mapped, [0x572]⟩,
  ⟨0x543, 0x543, .mapped, [0x573]⟩,
  ⟨0x544, 0x544, .mapped, [0x574]⟩,
  ⟨0x545, 0x545, .mapped, [0x575]⟩,
  ⟨0x546, 0x546, .mapped, [0x576]⟩,
  ⟨0x547, 0x547, .mapped, [0x577]⟩,
  ⟨0x548, 0x548, .mapped, [0x578]⟩,
  ⟨0x549, 0x549, .mapped, [0x579]⟩,
  ⟨0x54A, 0x54A, .mapped, [0x57A]⟩,
  ⟨0x54B, 0x54B, .mapped, [0x57B]⟩,
  ⟨0x54C, 0x54C, .mapped, [0x57C]⟩,
  ⟨0x54D, 0x54D, .mapped, [0x57D]⟩,
  ⟨0x54E, 0x54E, .mapped, [0x57E]⟩,
  ⟨0x54F, 0x54F, .mapped, [0x57F]⟩,
  ⟨0x550, 0x550, .mapped, [0x580]⟩,
  ⟨0x551, 0x551, .mapped, [0x581]⟩,
  ⟨0x552, 0x552, .mapped, [0x582]⟩,
  ⟨0x553, 0x553, .mapped, [0x583]⟩,
  ⟨0x554, 0x554, .mapped, [0x584]⟩,
  ⟨0x555, 0x555, .mapped, [0x585]⟩,
  ⟨0x556, 0x556, .mapped, [0x586]⟩,
  ⟨0x557, 0x558, .disallowed, []⟩,
  ⟨0x559, 0x559, .valid, []⟩,
  ⟨0x55A, 0x55F, .valid, []⟩,
  ⟨0x560, 0x560, .valid, []⟩,
  ⟨0x561, 0x586, .valid, []⟩,
  ⟨0x587, 0x587, .mapped, [0x565, 0x582]⟩,
  ⟨0x588, 0x588, .valid, []⟩,
  ⟨0x589, 0x589, .valid, []⟩,
  ⟨0x58A, 0x58A, .valid, []⟩,
  ⟨0x58B, 0x58C, .disallowed, []⟩,
  ⟨0x58D, 0x58E, .valid, []⟩,
  ⟨0x58F, 0x58F, .valid, []⟩,
  ⟨0x590, 0x590, .disallowed, []⟩,
  ⟨0x591, 0x5A1, .valid, []⟩,
  ⟨0x5A2, 0x5A2, .valid, []⟩,
  ⟨0x5A3, 0x5AF, .valid, []⟩,
  ⟨0x5B0, 0x5B9, .valid, []⟩,
  ⟨0x5BA, 0x5BA, .valid, []⟩,
  ⟨0x5BB, 0x5BD, .valid, []⟩,
  ⟨0x5BE, 0x5BE, .valid, []⟩,
  ⟨0x5BF, 0x5BF, .valid, []⟩,
  ⟨0x5C0, 0x5C0, .valid, []⟩,
  ⟨0x5C1, 0x5C2, .valid, []⟩,
  ⟨0x5C3, 0x5C3, .valid, []⟩,
  ⟨0x5C4, 0x5C4, .valid, []⟩,
  ⟨0x5C5, 0x5C5, .valid, []⟩,
  ⟨0x5C6, 0x5C6, .valid, []⟩,
  ⟨0x5C7, 0x5C7, .valid, []⟩,
  ⟨0x5C8, 0x5CF, .disallowed, []⟩,
  ⟨0x5D0, 0x5EA, .valid, []⟩,
  ⟨0x5EB, 0x5EE, .disallowed, []⟩,
  ⟨0x5EF, 0x5EF, .valid, []⟩,
  ⟨0x5F0, 0x5F4, .valid, []⟩,
  ⟨0x5F5, 0x5FF, .disallowed, []⟩,
  ⟨0x600, 0x603, .disallowed, []⟩,
  ⟨0x604, 0x604, .disallowed, []⟩,
  ⟨0x605, 0x605, .disallowed, []⟩,
  ⟨0x606, 0x60A, .valid, []⟩,
  ⟨0x60B, 0x60B, .valid, []⟩,
  ⟨0x60C, 0x60C, .valid, []⟩,
  ⟨0x60D, 0x60F, .valid, []⟩,
  ⟨0x610, 0x615, .valid, []⟩,
  ⟨0x616, 0x61A, .valid, []⟩,
  ⟨0x61B, 0x61B, .valid, []⟩,
  ⟨0x61C, 0x61C, .disallowed, []⟩,
  ⟨0x61D, 0x61D, .disallowed, []⟩,
  ⟨0x61E, 0x61E, .valid, []⟩,
  ⟨0x61F, 0x61F, .valid, []⟩,
  ⟨0x620, 0x620, .valid, []⟩,
  ⟨0x621, 0x63A, .valid, []⟩,
  ⟨0x63B, 0x63F, .valid, []⟩,
  ⟨0x640, 0x640, .valid, []⟩,
  ⟨0x641, 0x652, .valid, []⟩,
  ⟨0x653, 0x655, .valid, []⟩,
  ⟨0x656, 0x658, .valid, []⟩,
  ⟨0x659, 0x65E, .valid, []⟩,
  ⟨0x65F, 0x65F, .valid, []⟩,
  ⟨0x660, 0x669, .valid, []⟩,
  ⟨0x66A, 0x66D, .valid, []⟩,
  ⟨0x66E, 0x66F, .valid, []⟩,
  ⟨0x670, 0x674, .valid, []⟩,
  ⟨0x675, 0x675, .mapped, [0x627, 0x674]⟩,
  ⟨0x676, 0x676, .mapped, [0x648, 0x674]⟩,
  ⟨0x677, 0x677, .mapped, [0x6C7, 0x674]⟩,
  ⟨0x678, 0x678, .mapped, [0x64A, 0x674]⟩,
  ⟨0x679, 0x6B7, .valid, []⟩,
  ⟨0x6B8, 0x6B9, .valid, []⟩,
  ⟨0x6BA, 0x6BE, .valid, []⟩,
  ⟨0x6BF, 0x6BF, .valid, []⟩,
  ⟨0x6C0, 0x6CE, .valid, []⟩,
  ⟨0x6CF, 0x6CF, .valid, []⟩,
  ⟨0x6D0, 0x6D3, .valid, []⟩,
  ⟨0x6D4, 0x6D4, .valid, []⟩,
  ⟨0x6D5, 0x6DC, .valid, []⟩,
  ⟨0x6DD, 0x6DD, .disallowed, []⟩,
  ⟨0x6DE, 0x6DE, .valid, []⟩,
  ⟨0x6DF, 0x6E8, .valid, []⟩,
  ⟨0x6E9, 0x6E9, .valid, []⟩,
  ⟨0x6EA, 0x6ED, .valid, []⟩,
  ⟨0x6EE, 0x6EF, .valid, []⟩,
  ⟨0x6F0, 0x6F9, .valid, []⟩,
  ⟨0x6FA, 0x6FE, .valid, []⟩,
  ⟨0x6FF, 0x6FF, .valid, []⟩,
  ⟨0x700, 0x70D, .valid, []⟩,
  ⟨0x70E, 0x70E, .disallowed, []⟩,
  ⟨0x70F, 0x70F, .disallowed, []⟩,
  ⟨0x710, 0x72C, .valid, []⟩,
  ⟨0x72D, 0x72F, .valid, []⟩,
  ⟨0x730, 0x74A, .valid, []⟩,
  ⟨0x74B, 0x74C, .disallowed, []⟩,
  ⟨0x74D, 0x74F, .valid, []⟩,
  ⟨0x750, 0x76D, .valid, []⟩,
  ⟨0x76E, 0x77F, .valid, []⟩,
  ⟨0x780, 0x7B0, .valid, []⟩,
  ⟨0x7B1, 0x7B1, .valid, []⟩,
  ⟨0x7B2, 0x7BF, .disallowed, []⟩,
  ⟨0x7C0, 0x7F5, .valid, []⟩,
  ⟨0x7F6, 0x7FA, .valid, []⟩,
  ⟨0x7FB, 0x7FC, .disallowed, []⟩,
  ⟨0x7FD, 0x7FD, .valid, []⟩,
  ⟨0x7FE, 0x7FF, .valid, []⟩,
  ⟨0x800, 0x82D, .valid, []⟩,
  ⟨0x82E, 0x82F, .disallowed, []⟩,
  ⟨0x830, 0x83E, .valid, []⟩,
  ⟨0x83F, 0x83F, .disallowed, []⟩,
  ⟨0x840, 0x85B, .valid, []⟩,
  ⟨0x85C, 0x85D, .disallowed, []⟩,
  ⟨0x85E, 0x85E, .valid, []⟩,
  ⟨0x85F, 0x85F, .disallowed, []⟩,
  ⟨0x860, 0x86A, .valid, []⟩,
  ⟨0x86B, 0x89F, .disallowed, []⟩,
  ⟨0x8A0, 0x8A0, .valid, []⟩,
  ⟨0x8A1, 0x8A1, .valid, []⟩,
  ⟨0x8A2, 0x8AC, .valid, []⟩,
  ⟨0x8AD, 0x8B2, .valid, []⟩,
  ⟨0x8B3, 0x8B4, .valid, []⟩,
  ⟨0x8B5, 0x8B5, .disallowed, []⟩,
  ⟨0x8B6, 0x8BD, .valid, []⟩,
  ⟨0x8BE, 0x8C7, .valid, []⟩,
  ⟨0x8C8, 0x8D2, .disallowed, []⟩,
  ⟨0x8D3, 0x8D3, .valid, []⟩,
  ⟨0x8D4, 0x8E1, .valid, []⟩,
  ⟨0x8E2, 0x8E2, .disallowed, []⟩,
  ⟨0x8E3, 0x8E3, .valid, []⟩,
  ⟨0x8E4, 0x8FE, .valid, []⟩,
  ⟨0x8FF, 0x8FF, .valid, []⟩,
  ⟨0x900, 0x900, .valid, []⟩,
  ⟨0x901, 0x903, .valid, []⟩,
  ⟨0x904, 0x904, .valid, []⟩,
  ⟨0x905, 0x939, .valid, []⟩,
  ⟨0x93A, 0x93B, .valid, []⟩,
  ⟨0x93C, 0x94D, .valid, []⟩,
  ⟨0x94E, 0x94E, .valid, []⟩,
  ⟨0x94F, 0x94F, .valid, []⟩,
  ⟨0x950, 0x954, .valid, []⟩,
  ⟨0x955, 0x955, .valid, []⟩,
  ⟨0x956, 0x957, .valid, []⟩]

def map4 : List MapRow := [
  ⟨0x958, 0x958, .mapped, [0x915, 0x93C]⟩,
  ⟨0x959, 0x959, .mapped, [0x916, 0x93C]⟩,
  ⟨0x95A, 0x95A, .mapped, [0x917, 0x93C]⟩,
  ⟨0x95B, 0x95B, .mapped, [0x91C, 0x93C]⟩,
  ⟨0x95C, 0x95C, .mapped, [0x921, 0x93C]⟩,
  ⟨0x95D, 0x95D, .mapped, [0x922, 0x93C]⟩,
  ⟨0x95E, 0x95E, .mapped, [0x92B, 0x93C]⟩,
  ⟨0x95F, 0x95F, .mapped, [0x92F, 0x93C]⟩,
  ⟨0x960, 0x963, .valid, []⟩,
  ⟨0x964, 0x965, .valid, []⟩,
  ⟨0x966, 0x96F, .valid, []⟩,
  ⟨0x970, 0x970, .valid, []⟩,
  ⟨0x971, 0x972, .valid, []⟩,
  ⟨0x973, 0x977, .valid, []⟩,
  ⟨0x978, 0x978, .valid, []⟩,
  ⟨0x979, 0x97A, .valid, []⟩,
  ⟨0x97B, 0x97C, .valid, []⟩,
  ⟨0x97D, 0x97D, .valid, []⟩,
  ⟨0x97E, 0x97F, .valid, []⟩,
  ⟨0x980, 0x980, .valid, []⟩,
  ⟨0x981, 0x983, .valid, []⟩,
  ⟨0x984, 0x984, .disallowed, []⟩,
  ⟨0x985, 0x98C, .valid, []⟩,
  ⟨0x98D, 0x98E, .disallowed, []⟩,
  ⟨0x98F, 0x990, .valid, []⟩,
  ⟨0x991, 0x992, .disallowed, []⟩,
  ⟨0x993, 0x9A8, .valid, []⟩,
  ⟨0x9A9, 0x9A9, .disallowed, []⟩,
  ⟨0x9AA, 0x9B0, .valid, []⟩,
  ⟨0x9B1, 0x9B1, .disallowed, []⟩,
  ⟨0x9B2, 0x9B2, .valid, []⟩,
  ⟨0x9B3, 0x9B5, .disallowed, []⟩,
  ⟨0x9B6, 0x9B9, .valid, []⟩,
  ⟨0x9BA, 0x9BB, .disallowed, []⟩,
  ⟨0x9BC, 0x9BC, .valid, []⟩,
  ⟨0x9BD, 0x9BD, .valid, []⟩,
  ⟨0x9BE, 0x9C4, .valid, []⟩,
  ⟨0x9C5, 0x9C6, .disallowed, []⟩,
  ⟨0x9C7, 0x9C8, .valid, []⟩,
  ⟨0x9C9, 0x9CA, .disallowed, []⟩,
  ⟨0x9CB, 0x9CD, .valid, []⟩,
  ⟨0x9CE, 0x9CE, .valid, []⟩,
  ⟨0x9CF, 0x9D6, .disallowed, []⟩,
  ⟨0x9D7, 0x9D7, .valid, []⟩,
  ⟨0x9D8, 0x9DB, .disallowed, []⟩,
  ⟨0x9DC, 0x9DC, .mapped, [0x9A1, 0x9BC]⟩,
  ⟨0x9DD, 0x9DD, .mapped, [0x9A2, 0x9BC]⟩,
  ⟨0x9DE, 0x9DE, .disallowed, []⟩,
  ⟨0x9DF, 0x9DF, .mapped, [0x9AF, 0x9BC]⟩,
  ⟨0x9E0, 0x9E3, .valid, []⟩,
  ⟨0x9E4, 0x9E5, .disallowed, []⟩,
  ⟨0x9E6, 0x9F1, .valid, []⟩,
  ⟨0x9F2, 0x9FA, .valid, []⟩,
  ⟨0x9FB, 0x9FB, .valid, []⟩,
  ⟨0x9FC, 0x9FC, .valid, []⟩,
  ⟨0x9FD, 0x9FD, .valid, []⟩,
  ⟨0x9FE, 0x9FE, .valid, []⟩,
  ⟨0x9FF, 0xA00, .disallowed, []⟩,
  ⟨0xA01, 0xA01, .valid, []⟩,
  ⟨0xA02, 0xA02, .valid, []⟩,
  ⟨0xA03, 0xA03, .valid, []⟩,
  ⟨0xA04, 0xA04, .disallowed, []⟩,
  ⟨0xA05, 0xA0A, .valid, []⟩,
  ⟨0xA0B, 0xA0E, .disallowed, []⟩,
  ⟨0xA0F, 0xA10, .valid, []⟩,
  ⟨0xA11, 0xA12, .disallowed, []⟩,
  ⟨0xA13, 0xA28, .valid, []⟩,
  ⟨0xA29, 0xA29, .disallowed, []⟩,
  ⟨0xA2A, 0xA30, .valid, []⟩,
  ⟨0xA31, 0xA31, .disallowed, []⟩,
  ⟨0xA32, 0xA32, .valid, []⟩,
  ⟨0xA33, 0xA33, .mapped, [0xA32, 0xA3C]⟩,
  ⟨0xA34, 0xA34, .disallowed, []⟩,
  ⟨0xA35, 0xA35, .valid, []⟩,
  ⟨0xA36, 0xA36, .mapped, [0xA38, 0xA3C]⟩,
  ⟨0xA37, 0xA37, .disallowed, []⟩,
  ⟨0xA38, 0xA39, .valid, []⟩,
  ⟨0xA3A, 0xA3B, .disallowed, []⟩,
  ⟨0xA3C, 0xA3C, .valid, []⟩,
  ⟨0xA3D, 0xA3D, .disallowed, []⟩,
  ⟨0xA3E, 0xA42, .valid, []⟩,
  ⟨0xA43, 0xA46, .disallowed, []⟩,
  ⟨0xA47, 0xA48, .valid, []⟩,
  ⟨0xA49, 0xA4A, .disallowed, []⟩,
  ⟨0xA4B, 0xA4D, .valid, []⟩,
  ⟨0xA4E, 0xA50, .disallowed, []⟩,
  ⟨0xA51, 0xA51, .valid, []⟩,
  ⟨0xA52, 0xA58, .disallowed, []⟩,
  ⟨0xA59, 0xA59, .mapped, [0xA16, 0xA3C]⟩,
  ⟨0xA5A, 0xA5A, .mapped, [0xA17, 0xA3C]⟩,
  ⟨0xA5B, 0xA5B, .mapped, [0xA1C, 0xA3C]⟩,
  ⟨0xA5C, 0xA5C, .valid, []⟩,
  ⟨0xA5D, 0xA5D, .disallowed, []⟩,
  ⟨0xA5E, 0xA5E, .mapped, [0xA2B, 0xA3C]⟩,
  ⟨0xA5F, 0xA65, .disallowed, []⟩,
  ⟨0xA66, 0xA74, .valid, []⟩,
  ⟨0xA75, 0xA75, .valid, []⟩,
  ⟨0xA76, 0xA76, .valid, []⟩,
  ⟨0xA77, 0xA80, .disallowed, []⟩,
  ⟨0xA81, 0xA83, .valid, []⟩,
  ⟨0xA84, 0xA84, .disallowed, []⟩,
  ⟨0xA85, 0xA8B, .valid, []⟩,
  ⟨0xA8C, 0xA8C, .valid, []⟩,
  ⟨0xA8D, 0xA8D, .valid, []⟩,
  ⟨0xA8E, 0xA8E, .disallowed, []⟩,
  ⟨0xA8F, 0xA91, .valid, []⟩,
  ⟨0xA92, 0xA92, .disallowed, []⟩,
  ⟨0xA93, 0xAA8, .valid, []⟩,
  ⟨0xAA9, 0xAA9, .disallowed, []⟩,
  ⟨0xAAA, 0xAB0, .valid, []⟩,
  ⟨0xAB1, 0xAB1, .disallowed, []⟩,
  ⟨0xAB2, 0xAB3, .valid, []⟩,
  ⟨0xAB4, 0xAB4, .disallowed, []⟩,
  ⟨0xAB5, 0xAB9, .valid, []⟩,
  ⟨0xABA, 0xABB, .disallowed, []⟩,
  ⟨0xABC, 0xAC5, .valid, []⟩,
  ⟨0xAC6, 0xAC6, .disallowed, []⟩,
  ⟨0xAC7, 0xAC9, .valid, []⟩,
  ⟨0xACA, 0xACA, .disallowed, []⟩,
  ⟨0xACB, 0xACD, .valid, []⟩,
  ⟨0xACE, 0xACF, .disallowed, []⟩,
  ⟨0xAD0, 0xAD0, .valid, []⟩,
  ⟨0xAD1, 0xADF, .disallowed, []⟩,
  ⟨0xAE0, 0xAE0, .valid, []⟩,
  ⟨0xAE1, 0xAE3, .valid, []⟩,
  ⟨0xAE4, 0xAE5, .disallowed, []⟩,
  ⟨0xAE6, 0xAEF, .valid, []⟩,
  ⟨0xAF0, 0xAF0, .valid, []⟩,
  ⟨0xAF1, 0xAF1, .valid, []⟩,
  ⟨0xAF2, 0xAF8, .disallowed, []⟩,
  ⟨0xAF9, 0xAF9, .valid, []⟩,
  ⟨0xAFA, 0xAFF, .valid, []⟩,
  ⟨0xB00, 0xB00, .disallowed, []⟩,
  ⟨0xB01, 0xB03, .valid, []⟩,
  ⟨0xB04, 0xB04, .disallowed, []⟩,
  ⟨0xB05, 0xB0C, .valid, []⟩,
  ⟨0xB0D, 0xB0E, .disallowed, []⟩,
  ⟨0xB0F, 0xB10, .valid, []⟩,
  ⟨0xB11, 0xB12, .disallowed, []⟩,
  ⟨0xB13, 0xB28, .valid, []⟩,
  ⟨0xB29, 0xB29, .disallowed, []⟩,
  ⟨0xB2A, 0xB30, .valid, []⟩,
  ⟨0xB31, 0xB31, .disallowed, []⟩,
  ⟨0xB32, 0xB33, .valid, []⟩,
  ⟨0xB34, 0xB34, .disallowed, []⟩,
  ⟨0xB35, 0xB35, .valid, []⟩,
  ⟨0xB36, 0xB39, .valid, []⟩,
  ⟨0xB3A, 0xB3B, .disallowed, []⟩,
  ⟨0xB3C, 0xB43, .valid, []⟩,
  ⟨0xB44, 0xB44, .valid, []⟩,
  ⟨0xB45, 0xB46, .disallowed, []⟩,
  ⟨0xB47, 0xB48, .valid, []⟩,
  ⟨0xB49, 0xB4A, .disallowed, []⟩,
  ⟨0xB4B, 0xB4D, .valid, []⟩,
  ⟨0xB4E, 0xB54, .disallowed, []⟩,
  ⟨0xB55, 0xB55, .valid, []⟩,
  ⟨0xB56, 0xB57, .valid, []⟩,
  ⟨0xB58, 0xB5B, .disallowed, []⟩,
  ⟨0xB5C, 0xB5C, .mapped, [0xB21, 0xB3C]⟩,
  ⟨0xB5D, 0xB5D, .mapped, [0xB22, 0xB3C]⟩,
  ⟨0xB5E, 0xB5E, .disallowed, []⟩,
  ⟨0xB5F, 0xB61, .valid, []⟩,
  ⟨0xB62, 0xB63, .valid, []⟩,
  ⟨0xB64, 0xB65, .disallowed, []⟩,
  ⟨0xB66, 0xB6F, .valid, []⟩,
  ⟨0xB70, 0xB70, .valid, []⟩,
  ⟨0xB71, 0xB71, .valid, []⟩,
  ⟨0xB72, 0xB77, .valid, []⟩,
  ⟨0xB78, 0xB81, .disallowed, []⟩,
  ⟨0xB82, 0xB83, .valid, []⟩,
  ⟨0xB84, 0xB84, .disallowed, []⟩,
  ⟨0xB85, 0xB8A, .valid, []⟩,
  ⟨0xB8B, 0xB8D, .disallowed, []⟩,
  ⟨0xB8E, 0xB90, .valid, []⟩,
  ⟨0xB91, 0xB91, .disallowed, []⟩,
  ⟨0xB92, 0xB95, .valid, []⟩,
  ⟨0xB96, 0xB98, .disallowed, []⟩,
  ⟨0xB99, 0xB9A, .valid, []⟩,
  ⟨0xB9B, 0xB9B, .disallowed, []⟩,
  ⟨0xB9C, 0xB9C, .valid, []⟩,
  ⟨0xB9D, 0xB9D, .disallowed, []⟩,
  ⟨0xB9E, 0xB9F, .valid, []⟩,
  ⟨0xBA0, 0xBA2, .disallowed, []⟩,
  ⟨0xBA3, 0xBA4, .valid, []⟩,
  ⟨0xBA5, 0xBA7, .disallowed, []⟩,
  ⟨0xBA8, 0xBAA, .valid, []⟩,
  ⟨0xBAB, 0xBAD, .disallowed, []⟩,
  ⟨0xBAE, 0xBB5, .valid, []⟩,
  ⟨0xBB6, 0xBB6, .valid, []⟩,
  ⟨0xBB7, 0xBB9, .valid, []⟩,
  ⟨0xBBA, 0xBBD, .disallowed, []⟩,
  ⟨0xBBE, 0xBC2, .valid, []⟩,
  ⟨0xBC3, 0xBC5, .disallowed, []⟩,
  ⟨0xBC6, 0xBC8, .valid, []⟩,
  ⟨0xBC9, 0xBC9, .disallowed, []⟩,
  ⟨0xBCA, 0xBCD, .valid, []⟩,
  ⟨0xBCE, 0xBCF, .disallowed, []⟩,
  ⟨0xBD0, 0xBD0, .valid, []⟩,
  ⟨0xBD1, 0xBD6, .disallowed, []⟩,
  ⟨0xBD7, 0xBD7, .valid, []⟩,
  ⟨0xBD8, 0xBE5, .disallowed, []⟩,
  ⟨0xBE6, 0xBE6, .valid, []⟩,
  ⟨0xBE7, 0xBEF, .valid, []⟩,
  ⟨0xBF0, 0xBF2, .valid, []⟩,
  ⟨0xBF3, 0xBFA, .valid, []⟩,
  ⟨0xBFB, 0xBFF, .disallowed, []⟩,
  ⟨0xC00, 0xC00, .valid, []⟩,
  ⟨0xC01, 0xC03, .valid, []⟩,
  ⟨0xC04, 0xC04, .valid, []⟩,
  ⟨0xC05, 0xC0C, .valid, []⟩,
  ⟨0xC0D, 0xC0D, .disallowed, []⟩,
  ⟨0xC0E, 0xC10, .valid, []⟩,
  ⟨0xC11, 0xC11, .disallowed, []⟩,
  ⟨0xC12, 0xC28, .valid, []⟩,
  ⟨0xC29, 0xC29, .disallowed, []⟩,
  ⟨0xC2A, 0xC33, .valid, []⟩,
  ⟨0xC34, 0xC34, .valid, []⟩,
  ⟨0xC35, 0xC39, .valid, []⟩,
  ⟨0xC3A, 0xC3C, .disallowed, []⟩,
  ⟨0xC3D, 0xC3D, .valid, []⟩,
  ⟨0xC3E, 0xC44, .valid, []⟩,
  ⟨0xC45, 0xC45, .disallowed, []⟩,
  ⟨0xC46, 0xC48, .valid, []⟩,
  ⟨0xC49, 0xC49, .disallowed, []⟩,
  ⟨0xC4A, 0xC4D, .valid, []⟩,
  ⟨0xC4E, 0xC54, .disallowed, []⟩,
  ⟨0xC55, 0xC56, .valid, []⟩,
  ⟨0xC57, 0xC57, .disallowed, []⟩,
  ⟨0xC58, 0xC59, .valid, []⟩,
  ⟨0xC5A, 0xC5A, .valid, []⟩,
  ⟨0xC5B, 0xC5F, .disallowed, []⟩,
  ⟨0xC60, 0xC61, .valid, []⟩,
  ⟨0xC62, 0xC63, .valid, []⟩,
  ⟨0xC64, 0xC65, .disallowed, []⟩,
  ⟨0xC66, 0xC6F, .valid, []⟩,
  ⟨0xC70, 0xC76, .disallowed, []⟩,
  ⟨0xC77, 0xC77, .valid, []⟩,
  ⟨0xC78, 0xC7F, .valid, []⟩,
  ⟨0xC80, 0xC80, .valid, []⟩,
  ⟨0xC81, 0xC81, .valid, []⟩,
  ⟨0xC82, 0xC83, .valid, []⟩,
  ⟨0xC84, 0xC84, .valid, []⟩,
  ⟨0xC85, 0xC8C, .valid, []⟩,
  ⟨0xC8D, 0xC8D, .disallowed, []⟩,
  ⟨0xC8E, 0xC90, .valid, []⟩,
  ⟨0xC91, 0xC91, .disallowed, []⟩,
  ⟨0xC92, 0xCA8, .valid, []⟩,
  ⟨0xCA9, 0xCA9, .disallowed, []⟩,
  ⟨0xCAA, 0xCB3, .valid, []⟩,
  ⟨0xCB4, 0xCB4, .disallowed, []⟩]

def map5 : List MapRow := [
  ⟨0xCB5, 0xCB9, .valid, []⟩,
  ⟨0xCBA, 0xCBB, .disallowed, []⟩,
  ⟨0xCBC, 0xCBD, .valid, []⟩,
  ⟨0xCBE, 0xCC4, .valid, []⟩,
  ⟨0xCC5, 0xCC5, .disallowed, []⟩,
  ⟨0xCC6, 0xCC8, .valid, []⟩,
  ⟨0xCC9, 0xCC9, .disallowed, []⟩,
  ⟨0xCCA, 0xCCD, .valid, []⟩,
  ⟨0xCCE, 0xCD4, .disallowed, []⟩,
  ⟨0xCD5, 0xCD6, .valid, []⟩,
  ⟨0xCD7, 0xCDD, .disallowed, []⟩,
  ⟨0xCDE, 0xCDE, .valid, []⟩,
  ⟨0xCDF, 0xCDF, .disallowed, []⟩,
  ⟨0xCE0, 0xCE1, .valid, []⟩,
  ⟨0xCE2, 0xCE3, .valid, []⟩,
  ⟨0xCE4, 0xCE5, .disallowed, []⟩,
  ⟨0xCE6, 0xCEF, .valid, []⟩,
  ⟨0xCF0, 0xCF0, .disallowed, []⟩,
  ⟨0xCF1, 0xCF2, .valid, []⟩,
  ⟨0xCF3, 0xCFF, .disallowed, []⟩,
  ⟨0xD00, 0xD00, .valid, []⟩,
  ⟨0xD01, 0xD01, .valid, []⟩,
  ⟨0xD02, 0xD03, .valid, []⟩,
  ⟨0xD04, 0xD04, .valid, []⟩,
  ⟨0xD05, 0xD0C, .valid, []⟩,
  ⟨0xD0D, 0xD0D, .disallowed, []⟩,
  ⟨0xD0E, 0xD10, .valid, []⟩,
  ⟨0xD11, 0xD11, .disallowed, []⟩,
  ⟨0xD12, 0xD28, .valid, []⟩,
  ⟨0xD29, 0xD29, .valid, []⟩,
  ⟨0xD2A, 0xD39, .valid, []⟩,
  ⟨0xD3A, 0xD3A, .valid, []⟩,
  ⟨0xD3B, 0xD3C, .valid, []⟩,
  ⟨0xD3D, 0xD3D, .valid, []⟩,
  ⟨0xD3E, 0xD43, .valid, []⟩,
  ⟨0xD44, 0xD44, .valid, []⟩,
  ⟨0xD45, 0xD45, .disallowed, []⟩,
  ⟨0xD46, 0xD48, .valid, []⟩,
  ⟨0xD49, 0xD49, .disallowed, []⟩,
  ⟨0xD4A, 0xD4D, .valid, []⟩,
  ⟨0xD4E, 0xD4E, .valid, []⟩,
  ⟨0xD4F, 0xD4F, .valid, []⟩,
  ⟨0xD50, 0xD53, .disallowed, []⟩,
  ⟨0xD54, 0xD56, .valid, []⟩,
  ⟨0xD57, 0xD57, .valid, []⟩,
  ⟨0xD58, 0xD5E, .valid, []⟩,
  ⟨0xD5F, 0xD5F, .valid, []⟩,
  ⟨0xD60, 0xD61, .valid, []⟩,
  ⟨0xD62, 0xD63, .valid, []⟩,
  ⟨0xD64, 0xD65, .disallowed, []⟩,
  ⟨0xD66, 0xD6F, .valid, []⟩,
  ⟨0xD70, 0xD75, .valid, []⟩,
  ⟨0xD76, 0xD78, .valid, []⟩,
  ⟨0xD79, 0xD79, .valid, []⟩,
  ⟨0xD7A, 0xD7F, .valid, []⟩,
  ⟨0xD80, 0xD80, .disallowed, []⟩,
  ⟨0xD81, 0xD81, .valid, []⟩,
  ⟨0xD82, 0xD83, .valid, []⟩,
  ⟨0xD84, 0xD84, .disallowed, []⟩,
  ⟨0xD85, 0xD96, .valid, []⟩,
  ⟨0xD97, 0xD99, .disallowed, []⟩,
  ⟨0xD9A, 0xDB1, .valid, []⟩,
  ⟨0xDB2, 0xDB2, .disallowed, []⟩,
  ⟨0xDB3, 0xDBB, .valid, []⟩,
  ⟨0xDBC, 0xDBC, .disallowed, []⟩,
  ⟨0xDBD, 0xDBD, .valid, []⟩,
  ⟨0xDBE, 0xDBF, .disallowed, []⟩,
  ⟨0xDC0, 0xDC6, .valid, []⟩,
  ⟨0xDC7, 0xDC9, .disallowed, []⟩,
  ⟨0xDCA, 0xDCA, .valid, []⟩,
  ⟨0xDCB, 0xDCE, .disallowed, []⟩,
  ⟨0xDCF, 0xDD4, .valid, []⟩,
  ⟨0xDD5, 0xDD5, .disallowed, []⟩,
  ⟨0xDD6, 0xDD6, .valid, []⟩,
  ⟨0xDD7, 0xDD7, .disallowed, []⟩,
  ⟨0xDD8, 0xDDF, .valid, []⟩,
  ⟨0xDE0, 0xDE5, .disallowed, []⟩,
  ⟨0xDE6, 0xDEF, .valid, []⟩,
  ⟨0xDF0, 0xDF1, .disallowed, []⟩,
  ⟨0xDF2, 0xDF3, .valid, []⟩,
  ⟨0xDF4, 0xDF4, .valid, []⟩,
  ⟨0xDF5, 0xE00, .disallowed, []⟩,
  ⟨0xE01, 0xE32, .valid, []⟩,
  ⟨0xE33, 0xE33, .mapped, [0xE4D, 0xE32]⟩,
  ⟨0xE34, 0xE3A, .valid, []⟩,
  ⟨0xE3B, 0xE3E, .disallowed, []⟩,
  ⟨0xE3F, 0xE3F, .valid, []⟩,
  ⟨0xE40, 0xE4E, .valid, []⟩,
  ⟨0xE4F, 0xE4F, .valid, []⟩,
  ⟨0xE50, 0xE59, .valid, []⟩,
  ⟨0xE5A, 0xE5B, .valid, []⟩,
  ⟨0xE5C, 0xE80, .disallowed, []⟩,
  ⟨0xE81, 0xE82, .valid, []⟩,
  ⟨0xE83, 0xE83, .disallowed, []⟩,
  ⟨0xE84, 0xE84, .valid, []⟩,
  ⟨0xE85, 0xE85, .disallowed, []⟩,
  ⟨0xE86, 0xE86, .valid, []⟩,
  ⟨0xE87, 0xE88, .valid, []⟩,
  ⟨0xE89, 0xE89, .valid, []⟩,
  ⟨0xE8A, 0xE8A, .valid, []⟩,
  ⟨0xE8B, 0xE8B, .disallowed, []⟩,
  ⟨0xE8C, 0xE8C, .valid, []⟩,
  ⟨0xE8D, 0xE8D, .valid, []⟩,
  ⟨0xE8E, 0xE93, .valid, []⟩,
  ⟨0xE94, 0xE97, .valid, []⟩,
  ⟨0xE98, 0xE98, .valid, []⟩,
  ⟨0xE99, 0xE9F, .valid, []⟩,
  ⟨0xEA0, 0xEA0, .valid, []⟩,
  ⟨0xEA1, 0xEA3, .valid, []⟩,
  ⟨0xEA4, 0xEA4, .disallowed, []⟩,
  ⟨0xEA5, 0xEA5, .valid, []⟩,
  ⟨0xEA6, 0xEA6, .disallowed, []⟩,
  ⟨0xEA7, 0xEA7, .valid, []⟩,
  ⟨0xEA8, 0xEA9, .valid, []⟩,
  ⟨0xEAA, 0xEAB, .valid, []⟩,
  ⟨0xEAC, 0xEAC, .valid, []⟩,
  ⟨0xEAD, 0xEB2, .valid, []⟩,
  ⟨0xEB3, 0xEB3, .mapped, [0xECD, 0xEB2]⟩,
  ⟨0xEB4, 0xEB9, .valid, []⟩,
  ⟨0xEBA, 0xEBA, .valid, []⟩,
  ⟨0xEBB, 0xEBD, .valid, []⟩,
  ⟨0xEBE, 0xEBF, .disallowed, []⟩,
  ⟨0xEC0, 0xEC4, .valid, []⟩,
  ⟨0xEC5, 0xEC5, .disallowed, []⟩,
  ⟨0xEC6, 0xEC6, .valid, []⟩,
  ⟨0xEC7, 0xEC7, .disallowed, []⟩,
  ⟨0xEC8, 0xECD, .valid, []⟩,
  ⟨0xECE, 0xECF, .disallowed, []⟩,
  ⟨0xED0, 0xED9, .valid, []⟩,
  ⟨0xEDA, 0xEDB, .disallowed, []⟩,
  ⟨0xEDC, 0xEDC, .mapped, [0xEAB, 0xE99]⟩,
  ⟨0xEDD, 0xEDD, .mapped, [0xEAB, 0xEA1]⟩,
  ⟨0xEDE, 0xEDF, .valid, []⟩,
  ⟨0xEE0, 0xEFF, .disallowed, []⟩,
  ⟨0xF00, 0xF00, .valid, []⟩,
  ⟨0xF01, 0xF0A, .valid, []⟩,
  ⟨0xF0B, 0xF0B, .valid, []⟩,
  ⟨0xF0C, 0xF0C, .mapped, [0xF0B]⟩,
  ⟨0xF0D, 0xF17, .valid, []⟩,
  ⟨0xF18, 0xF19, .valid, []⟩,
  ⟨0xF1A, 0xF1F, .valid, []⟩,
  ⟨0xF20, 0xF29, .valid, []⟩,
  ⟨0xF2A, 0xF34, .valid, []⟩,
  ⟨0xF35, 0xF35, .valid, []⟩,
  ⟨0xF36, 0xF36, .valid, []⟩,
  ⟨0xF37, 0xF37, .valid, []⟩,
  ⟨0xF38, 0xF38, .valid, []⟩,
  ⟨0xF39, 0xF39, .valid, []⟩,
  ⟨0xF3A, 0xF3D, .valid, []⟩,
  ⟨0xF3E, 0xF42, .valid, []⟩,
  ⟨0xF43, 0xF43, .mapped, [0xF42, 0xFB7]⟩,
  ⟨0xF44, 0xF47, .valid, []⟩,
  ⟨0xF48, 0xF48, .disallowed, []⟩,
  ⟨0xF49, 0xF4C, .valid, []⟩,
  ⟨0xF4D, 0xF4D, .mapped, [0xF4C, 0xFB7]⟩,
  ⟨0xF4E, 0xF51, .valid, []⟩,
  ⟨0xF52, 0xF52, .mapped, [0xF51, 0xFB7]⟩,
  ⟨0xF53, 0xF56, .valid, []⟩,
  ⟨0xF57, 0xF57, .mapped, [0xF56, 0xFB7]⟩,
  ⟨0xF58, 0xF5B, .valid, []⟩,
  ⟨0xF5C, 0xF5C, .mapped, [0xF5B, 0xFB7]⟩,
  ⟨0xF5D, 0xF68, .valid, []⟩,
  ⟨0xF69, 0xF69, .mapped, [0xF40, 0xFB5]⟩,
  ⟨0xF6A, 0xF6A, .valid, []⟩,
  ⟨0xF6B, 0xF6C, .valid, []⟩,
  ⟨0xF6D, 0xF70, .disallowed, []⟩,
  ⟨0xF71, 0xF72, .valid, []⟩,
  ⟨0xF73, 0xF73, .mapped, [0xF71, 0xF72]⟩,
  ⟨0xF74, 0xF74, .valid, []⟩,
  ⟨0xF75, 0xF75, .mapped, [0xF71, 0xF74]⟩,
  ⟨0xF76, 0xF76, .mapped, [0xFB2, 0xF80]⟩,
  ⟨0xF77, 0xF77, .mapped, [0xFB2, 0xF71, 0xF80]⟩,
  ⟨0xF78, 0xF78, .mapped, [0xFB3, 0xF80]⟩,
  ⟨0xF79, 0xF79, .mapped, [0xFB3, 0xF71, 0xF80]⟩,
  ⟨0xF7A, 0xF80, .valid, []⟩,
  ⟨0xF81, 0xF81, .mapped, [0xF71, 0xF80]⟩,
  ⟨0xF82, 0xF84, .valid, []⟩,
  ⟨0xF85, 0xF85, .valid, []⟩,
  ⟨0xF86, 0xF8B, .valid, []⟩,
  ⟨0xF8C, 0xF8F, .valid, []⟩,
  ⟨0xF90, 0xF92, .valid, []⟩,
  ⟨0xF93, 0xF93, .mapped, [0xF92, 0xFB7]⟩,
  ⟨0xF94, 0xF95, .valid, []⟩,
  ⟨0xF96, 0xF96, .valid, []⟩,
  ⟨0xF97, 0xF97, .valid, []⟩,
  ⟨0xF98, 0xF98, .disallowed, []⟩,
  ⟨0xF99, 0xF9C, .valid, []⟩,
  ⟨0xF9D, 0xF9D, .mapped, [0xF9C, 0xFB7]⟩,
  ⟨0xF9E, 0xFA1, .valid, []⟩,
  ⟨0xFA2, 0xFA2, .mapped, [0xFA1, 0xFB7]⟩,
  ⟨0xFA3, 0xFA6, .valid, []⟩,
  ⟨0xFA7, 0xFA7, .mapped, [0xFA6, 0xFB7]⟩,
  ⟨0xFA8, 0xFAB, .valid, []⟩,
  ⟨0xFAC, 0xFAC, .mapped, [0xFAB, 0xFB7]⟩,
  ⟨0xFAD, 0xFAD, .valid, []⟩,
  ⟨0xFAE, 0xFB0, .valid, []⟩,
  ⟨0xFB1, 0xFB7, .valid, []⟩,
  ⟨0xFB8, 0xFB8, .valid, []⟩,
  ⟨0xFB9, 0xFB9, .mapped, [0xF90, 0xFB5]⟩,
  ⟨0xFBA, 0xFBC, .valid, []⟩,
  ⟨0xFBD, 0xFBD, .disallowed, []⟩,
  ⟨0xFBE, 0xFC5, .valid, []⟩,
  ⟨0xFC6, 0xFC6, .valid, []⟩,
  ⟨0xFC7, 0xFCC, .valid, []⟩,
  ⟨0xFCD, 0xFCD, .disallowed, []⟩,
  ⟨0xFCE, 0xFCE, .valid, []⟩,
  ⟨0xFCF, 0xFCF, .valid, []⟩,
  ⟨0xFD0, 0xFD1, .valid, []⟩,
  ⟨0xFD2, 0xFD4, .valid, []⟩,
  ⟨0xFD5, 0xFD8, .valid, []⟩,
  ⟨0xFD9, 0xFDA, .valid, []⟩,
  ⟨0xFDB, 0xFFF, .disallowed, []⟩,
  ⟨0x1000, 0x1021, .valid, []⟩,
  ⟨0x1022, 0x1022, .valid, []⟩,
  ⟨0x1023, 0x1027, .valid, []⟩,
  ⟨0x1028, 0x1028, .valid, []⟩,
  ⟨0x1029, 0x102A, .valid, []⟩,
  ⟨0x102B, 0x102B, .valid, []⟩,
  ⟨0x102C, 0x1032, .valid, []⟩,
  ⟨0x1033, 0x1035, .valid, []⟩,
  ⟨0x1036, 0x1039, .valid, []⟩,
  ⟨0x103A, 0x103F, .valid, []⟩,
  ⟨0x1040, 0x1049, .valid, []⟩,
  ⟨0x104A, 0x104F, .valid, []⟩,
  ⟨0x1050, 0x1059, .valid, []⟩,
  ⟨0x105A, 0x1099, .valid, []⟩,
  ⟨0x109A, 0x109D, .valid, []⟩,
  ⟨0x109E, 0x109F, .valid, []⟩,
  ⟨0x10A0, 0x10C5, .disallowed, []⟩,
  ⟨0x10C6, 0x10C6, .disallowed, []⟩,
  ⟨0x10C7, 0x10C7, .mapped, [0x2D27]⟩,
  ⟨0x10C8, 0x10CC, .disallowed, []⟩,
  ⟨0x10CD, 0x10CD, .mapped, [0x2D2D]⟩,
  ⟨0x10CE, 0x10CF, .disallowed, []⟩,
  ⟨0x10D0, 0x10F6, .valid, []⟩,
  ⟨0x10F7, 0x10F8, .valid, []⟩,
  ⟨0x10F9, 0x10FA, .valid, []⟩,
  ⟨0x10FB, 0x10FB, .valid, []⟩,
  ⟨0x10FC, 0x10FC, .mapped, [0x10DC]⟩,
  ⟨0x10FD, 0x10FF, .valid, []⟩,
  ⟨0x1100, 0x1159, .valid, []⟩,
  ⟨0x115A, 0x115E, .valid, []⟩,
  ⟨0x115F, 0x1160, .disallowed, []⟩,
  ⟨0x1161, 0x11A2, .valid, []⟩,
  ⟨0x11A3, 0x11A7, .valid, []⟩,
  ⟨0x11A8, 0x11F9, .valid, []⟩,
  ⟨0x11FA, 0x11FF, .valid, []⟩,
  ⟨0x1200, 0x1206, .valid, []⟩,
  ⟨0x1207, 0x1207, .valid, []⟩,
  ⟨0x1208, 0x1246, .valid, []⟩]

def map6 : List MapRow := [
  ⟨0x1247, 0x1247, .valid, []⟩,
  ⟨0x1248, 0x1248, .valid, []⟩,
  ⟨0x1249, 0x1249, .disallowed, []⟩,
  ⟨0x124A, 0x124D, .valid, []⟩,
  ⟨0x124E, 0x124F, .disallowed, []⟩,
  ⟨0x1250, 0x1256, .valid, []⟩,
  ⟨0x1257, 0x1257, .disallowed, []⟩,
  ⟨0x1258, 0x1258, .valid, []⟩,
  ⟨0x1259, 0x1259, .disallowed, []⟩,
  ⟨0x125A, 0x125D, .valid, []⟩,
  ⟨0x125E, 0x125F, .disallowed, []⟩,
  ⟨0x1260, 0x1286, .valid, []⟩,
  ⟨0x1287, 0x1287, .valid, []⟩,
  ⟨0x1288, 0x1288, .valid, []⟩,
  ⟨0x1289, 0x1289, .disallowed, []⟩,
  ⟨0x128A, 0x128D, .valid, []⟩,
  ⟨0x128E, 0x128F, .disallowed, []⟩,
  ⟨0x1290, 0x12AE, .valid, []⟩,
  ⟨0x12AF, 0x12AF, .valid, []⟩,
  ⟨0x12B0, 0x12B0, .valid, []⟩,
  ⟨0x12B1, 0x12B1, .disallowed, []⟩,
  ⟨0x12B2, 0x12B5, .valid, []⟩,
  ⟨0x12B6, 0x12B7, .disallowed, []⟩,
  ⟨0x12B8, 0x12BE, .valid, []⟩,
  ⟨0x12BF, 0x12BF, .disallowed, []⟩,
  ⟨0x12C0, 0x12C0, .valid, []⟩,
  ⟨0x12C1, 0x12C1, .disallowed, []⟩,
  ⟨0x12C2, 0x12C5, .valid, []⟩,
  ⟨0x12C6, 0x12C7, .disallowed, []⟩,
  ⟨0x12C8, 0x12CE, .valid, []⟩,
  ⟨0x12CF, 0x12CF, .valid, []⟩,
  ⟨0x12D0, 0x12D6, .valid, []⟩,
  ⟨0x12D7, 0x12D7, .disallowed, []⟩,
  ⟨0x12D8, 0x12EE, .valid, []⟩,
  ⟨0x12EF, 0x12EF, .valid, []⟩,
  ⟨0x12F0, 0x130E, .valid, []⟩,
  ⟨0x130F, 0x130F, .valid, []⟩,
  ⟨0x1310, 0x1310, .valid, []⟩,
  ⟨0x1311, 0x1311, .disallowed, []⟩,
  ⟨0x1312, 0x1315, .valid, []⟩,
  ⟨0x1316, 0x1317, .disallowed, []⟩,
  ⟨0x1318, 0x131E, .valid, []⟩,
  ⟨0x131F, 0x131F, .valid, []⟩,
  ⟨0x1320, 0x1346, .valid, []⟩,
  ⟨0x1347, 0x1347, .valid, []⟩,
  ⟨0x1348, 0x135A, .valid, []⟩,
  ⟨0x135B, 0x135C, .disallowed, []⟩,
  ⟨0x135D, 0x135E, .valid, []⟩,
  ⟨0x135F, 0x135F, .valid, []⟩,
  ⟨0x1360, 0x1360, .valid, []⟩,
  ⟨0x1361, 0x137C, .valid, []⟩,
  ⟨0x137D, 0x137F, .disallowed, []⟩,
  ⟨0x1380, 0x138F, .valid, []⟩,
  ⟨0x1390, 0x1399, .valid, []⟩,
  ⟨0x139A, 0x139F, .disallowed, []⟩,
  ⟨0x13A0, 0x13F4, .valid, []⟩,
  ⟨0x13F5, 0x13F5, .valid, []⟩,
  ⟨0x13F6, 0x13F7, .disallowed, []⟩,
  ⟨0x13F8, 0x13F8, .mapped, [0x13F0]⟩,
  ⟨0x13F9, 0x13F9, .mapped, [0x13F1]⟩,
  ⟨0x13FA, 0x13FA, .mapped, [0x13F2]⟩,
  ⟨0x13FB, 0x13FB, .mapped, [0x13F3]⟩,
  ⟨0x13FC, 0x13FC, .mapped, [0x13F4]⟩,
  ⟨0x13FD, 0x13FD, .mapped, [0x13F5]⟩,
  ⟨0x13FE, 0x13FF, .disallowed, []⟩,
  ⟨0x1400, 0x1400, .valid, []⟩,
  ⟨0x1401, 0x166C, .valid, []⟩,
  ⟨0x166D, 0x166E, .valid, []⟩,
  ⟨0x166F, 0x1676, .valid, []⟩,
  ⟨0x1677, 0x167F, .valid, []⟩,
  ⟨0x1680, 0x1680, .disallowed, []⟩,
  ⟨0x1681, 0x169A, .valid, []⟩,
  ⟨0x169B, 0x169C, .valid, []⟩,
  ⟨0x169D, 0x169F, .disallowed, []⟩,
  ⟨0x16A0, 0x16EA, .valid, []⟩,
  ⟨0x16EB, 0x16F0, .valid, []⟩,
  ⟨0x16F1, 0x16F8, .valid, []⟩,
  ⟨0x16F9, 0x16FF, .disallowed, []⟩,
  ⟨0x1700, 0x170C, .valid, []⟩,
  ⟨0x170D, 0x170D, .disallowed, []⟩,
  ⟨0x170E, 0x1714, .valid, []⟩,
  ⟨0x1715, 0x171F, .disallowed, []⟩,
  ⟨0x1720, 0x1734, .valid, []⟩,
  ⟨0x1735, 0x1736, .valid, []⟩,
  ⟨0x1737, 0x173F, .disallowed, []⟩,
  ⟨0x1740, 0x1753, .valid, []⟩,
  ⟨0x1754, 0x175F, .disallowed, []⟩,
  ⟨0x1760, 0x176C, .valid, []⟩,
  ⟨0x176D, 0x176D, .disallowed, []⟩,
  ⟨0x176E, 0x1770, .valid, []⟩,
  ⟨0x1771, 0x1771, .disallowed, []⟩,
  ⟨0x1772, 0x1773, .valid, []⟩,
  ⟨0x1774, 0x177F, .disallowed, []⟩,
  ⟨0x1780, 0x17B3, .valid, []⟩,
  ⟨0x17B4, 0x17B5, .disallowed, []⟩,
  ⟨0x17B6, 0x17D3, .valid, []⟩,
  ⟨0x17D4, 0x17D6, .valid, []⟩,
  ⟨0x17D7, 0x17D7, .valid, []⟩,
  ⟨0x17D8, 0x17DB, .valid, []⟩,
  ⟨0x17DC, 0x17DC, .valid, []⟩,
  ⟨0x17DD, 0x17DD, .valid, []⟩,
  ⟨0x17DE, 0x17DF, .disallowed, []⟩,
  ⟨0x17E0, 0x17E9, .valid, []⟩,
  ⟨0x17EA, 0x17EF, .disallowed, []⟩,
  ⟨0x17F0, 0x17F9, .valid, []⟩,
  ⟨0x17FA, 0x17FF, .disallowed, []⟩,
  ⟨0x1800, 0x1805, .valid, []⟩,
  ⟨0x1806, 0x1806, .disallowed, []⟩,
  ⟨0x1807, 0x180A, .valid, []⟩,
  ⟨0x180B, 0x180D, .ignored, []⟩,
  ⟨0x180E, 0x180E, .disallowed, []⟩,
  ⟨0x180F, 0x180F, .disallowed, []⟩,
  ⟨0x1810, 0x1819, .valid, []⟩,
  ⟨0x181A, 0x181F, .disallowed, []⟩,
  ⟨0x1820, 0x1877, .valid, []⟩,
  ⟨0x1878, 0x1878, .valid, []⟩,
  ⟨0x1879, 0x187F, .disallowed, []⟩,
  ⟨0x1880, 0x18A9, .valid, []⟩,
  ⟨0x18AA, 0x18AA, .valid, []⟩,
  ⟨0x18AB, 0x18AF, .disallowed, []⟩,
  ⟨0x18B0, 0x18F5, .valid, []⟩,
  ⟨0x18F6, 0x18FF, .disallowed, []⟩,
  ⟨0x1900, 0x191C, .valid, []⟩,
  ⟨0x191D, 0x191E, .valid, []⟩,
  ⟨0x191F, 0x191F, .disallowed, []⟩,
  ⟨0x1920, 0x192B, .valid, []⟩,
  ⟨0x192C, 0x192F, .disallowed, []⟩,
  ⟨0x1930, 0x193B, .valid, []⟩,
  ⟨0x193C, 0x193F, .disallowed, []⟩,
  ⟨0x1940, 0x1940, .valid, []⟩,
  ⟨0x1941, 0x1943, .disallowed, []⟩,
  ⟨0x1944, 0x1945, .valid, []⟩,
  ⟨0x1946, 0x196D, .valid, []⟩,
  ⟨0x196E, 0x196F, .disallowed, []⟩,
  ⟨0x1970, 0x1974, .valid, []⟩,
  ⟨0x1975, 0x197F, .disallowed, []⟩,
  ⟨0x1980, 0x19A9, .valid, []⟩,
  ⟨0x19AA, 0x19AB, .valid, []⟩,
  ⟨0x19AC, 0x19AF, .disallowed, []⟩,
  ⟨0x19B0, 0x19C9, .valid, []⟩,
  ⟨0x19CA, 0x19CF, .disallowed, []⟩,
  ⟨0x19D0, 0x19D9, .valid, []⟩,
  ⟨0x19DA, 0x19DA, .valid, []⟩,
  ⟨0x19DB, 0x19DD, .disallowed, []⟩,
  ⟨0x19DE, 0x19DF, .valid, []⟩,
  ⟨0x19E0, 0x19FF, .valid, []⟩,
  ⟨0x1A00, 0x1A1B, .valid, []⟩,
  ⟨0x1A1C, 0x1A1D, .disallowed, []⟩,
  ⟨0x1A1E, 0x1A1F, .valid, []⟩,
  ⟨0x1A20, 0x1A5E, .valid, []⟩,
  ⟨0x1A5F, 0x1A5F, .disallowed, []⟩,
  ⟨0x1A60, 0x1A7C, .valid, []⟩,
  ⟨0x1A7D, 0x1A7E, .disallowed, []⟩,
  ⟨0x1A7F, 0x1A89, .valid, []⟩,
  ⟨0x1A8A, 0x1A8F, .disallowed, []⟩,
  ⟨0x1A90, 0x1A99, .valid, []⟩,
  ⟨0x1A9A, 0x1A9F, .disallowed, []⟩,
  ⟨0x1AA0, 0x1AA6, .valid, []⟩,
  ⟨0x1AA7, 0x1AA7, .valid, []⟩,
  ⟨0x1AA8, 0x1AAD, .valid, []⟩,
  ⟨0x1AAE, 0x1AAF, .disallowed, []⟩,
  ⟨0x1AB0, 0x1ABD, .valid, []⟩,
  ⟨0x1ABE, 0x1ABE, .valid, []⟩,
  ⟨0x1ABF, 0x1AC0, .valid, []⟩,
  ⟨0x1AC1, 0x1AFF, .disallowed, []⟩,
  ⟨0x1B00, 0x1B4B, .valid, []⟩,
  ⟨0x1B4C, 0x1B4F, .disallowed, []⟩,
  ⟨0x1B50, 0x1B59, .valid, []⟩,
  ⟨0x1B5A, 0x1B6A, .valid, []⟩,
  ⟨0x1B6B, 0x1B73, .valid, []⟩,
  ⟨0x1B74, 0x1B7C, .valid, []⟩,
  ⟨0x1B7D, 0x1B7F, .disallowed, []⟩,
  ⟨0x1B80, 0x1BAA, .valid, []⟩,
  ⟨0x1BAB, 0x1BAD, .valid, []⟩,
  ⟨0x1BAE, 0x1BB9, .valid, []⟩,
  ⟨0x1BBA, 0x1BBF, .valid, []⟩,
  ⟨0x1BC0, 0x1BF3, .valid, []⟩,
  ⟨0x1BF4, 0x1BFB, .disallowed, []⟩,
  ⟨0x1BFC, 0x1BFF, .valid, []⟩,
  ⟨0x1C00, 0x1C37, .valid, []⟩,
  ⟨0x1C38, 0x1C3A, .disallowed, []⟩,
  ⟨0x1C3B, 0x1C3F, .valid, []⟩,
  ⟨0x1C40, 0x1C49, .valid, []⟩,
  ⟨0x1C4A, 0x1C4C, .disallowed, []⟩,
  ⟨0x1C4D, 0x1C7D, .valid, []⟩,
  ⟨0x1C7E, 0x1C7F, .valid, []⟩,
  ⟨0x1C80, 0x1C80, .mapped, [0x432]⟩,
  ⟨0x1C81, 0x1C81, .mapped, [0x434]⟩,
  ⟨0x1C82, 0x1C82, .mapped, [0x43E]⟩,
  ⟨0x1C83, 0x1C83, .mapped, [0x441]⟩,
  ⟨0x1C84, 0x1C85, .mapped, [0x442]⟩,
  ⟨0x1C86, 0x1C86, .mapped, [0x44A]⟩,
  ⟨0x1C87, 0x1C87, .mapped, [0x463]⟩,
  ⟨0x1C88, 0x1C88, .mapped, [0xA64B]⟩,
  ⟨0x1C89, 0x1C8F, .disallowed, []⟩,
  ⟨0x1C90, 0x1C90, .mapped, [0x10D0]⟩,
  ⟨0x1C91, 0x1C91, .mapped, [0x10D1]⟩,
  ⟨0x1C92, 0x1C92, .mapped, [0x10D2]⟩,
  ⟨0x1C93, 0x1C93, .mapped, [0x10D3]⟩,
  ⟨0x1C94, 0x1C94, .mapped, [0x10D4]⟩,
  ⟨0x1C95, 0x1C95, .mapped, [0x10D5]⟩,
  ⟨0x1C96, 0x1C96, .mapped, [0x10D6]⟩,
  ⟨0x1C97, 0x1C97, .mapped, [0x10D7]⟩,
  ⟨0x1C98, 0x1C98, .mapped, [0x10D8]⟩,
  ⟨0x1C99, 0x1C99, .mapped, [0x10D9]⟩,
  ⟨0x1C9A, 0x1C9A, .mapped, [0x10DA]⟩,
  ⟨0x1C9B, 0x1C9B, .mapped, [0x10DB]⟩,
  ⟨0x1C9C, 0x1C9C, .mapped, [0x10DC]⟩,
  ⟨0x1C9D, 0x1C9D, .mapped, [0x10DD]⟩,
  ⟨0x1C9E, 0x1C9E, .mapped, [0x10DE]⟩,
  ⟨0x1C9F, 0x1C9F, .mapped, [0x10DF]⟩,
  ⟨0x1CA0, 0x1CA0, .mapped, [0x10E0]⟩,
  ⟨0x1CA1, 0x1CA1, .mapped, [0x10E1]⟩,
  ⟨0x1CA2, 0x1CA2, .mapped, [0x10E2]⟩,
  ⟨0x1CA3, 0x1CA3, .mapped, [0x10E3]⟩,
  ⟨0x1CA4, 0x1CA4, .mapped, [0x10E4]⟩,
  ⟨0x1CA5, 0x1CA5, .mapped, [0x10E5]⟩,
  ⟨0x1CA6, 0x1CA6, .mapped, [0x10E6]⟩,
  ⟨0x1CA7, 0x1CA7, .mapped, [0x10E7]⟩,
  ⟨0x1CA8, 0x1CA8, .mapped, [0x10E8]⟩,
  ⟨0x1CA9, 0x1CA9, .mapped, [0x10E9]⟩,
  ⟨0x1CAA, 0x1CAA, .mapped, [0x10EA]⟩,
  ⟨0x1CAB, 0x1CAB, .mapped, [0x10EB]⟩,
  ⟨0x1CAC, 0x1CAC, .mapped, [0x10EC]⟩,
  ⟨0x1CAD, 0x1CAD, .mapped, [0x10ED]⟩,
  ⟨0x1CAE, 0x1CAE, .mapped, [0x10EE]⟩,
  ⟨0x1CAF, 0x1CAF, .mapped, [0x10EF]⟩,
  ⟨0x1CB0, 0x1CB0, .mapped, [0x10F0]⟩,
  ⟨0x1CB1, 0x1CB1, .mapped, [0x10F1]⟩,
  ⟨0x1CB2, 0x1CB2, .mapped, [0x10F2]⟩,
  ⟨0x1CB3, 0x1CB3, .mapped, [0x10F3]⟩,
  ⟨0x1CB4, 0x1CB4, .mapped, [0x10F4]⟩,
  ⟨0x1CB5, 0x1CB5, .mapped, [0x10F5]⟩,
  ⟨0x1CB6, 0x1CB6, .mapped, [0x10F6]⟩,
  ⟨0x1CB7, 0x1CB7, .mapped, [0x10F7]⟩,
  ⟨0x1CB8, 0x1CB8, .mapped, [0x10F8]⟩,
  ⟨0x1CB9, 0x1CB9, .mapped, [0x10F9]⟩,
  ⟨0x1CBA, 0x1CBA, .mapped, [0x10FA]⟩,
  ⟨0x1CBB, 0x1CBC, .disallowed, []⟩,
  ⟨0x1CBD, 0x1CBD, .mapped, [0x10FD]⟩,
  ⟨0x1CBE, 0x1CBE, .mapped, [0x10FE]⟩,
  ⟨0x1CBF, 0x1CBF, .mapped, [0x10FF]⟩,
  ⟨0x1CC0, 0x1CC7, .valid, []⟩,
  ⟨0x1CC8, 0x1CCF, .disallowed, []⟩,
  ⟨0x1CD0, 0x1CD2, .valid, []⟩,
  ⟨0x1CD3, 0x1CD3, .valid, []⟩,
  ⟨0x1CD4, 0x1CF2, .valid, []⟩,
  ⟨0x1CF3, 0x1CF6, .valid, []⟩,
  ⟨0x1CF7, 0x1CF7, .valid, []⟩,
  ⟨0x1CF8, 0x1CF9, .valid, []⟩]

def map7 : List MapRow := [
  ⟨0x1CFA, 0x1CFA, .valid, []⟩,
  ⟨0x1CFB, 0x1CFF, .disallowed, []⟩,
  ⟨0x1D00, 0x1D2B, .valid, []⟩,
  ⟨0x1D2C, 0x1D2C, .mapped, [0x61]⟩,
  ⟨0x1D2D, 0x1D2D, .mapped, [0xE6]⟩,
  ⟨0x1D2E, 0x1D2E, .mapped, [0x62]⟩,
  ⟨0x1D2F, 0x1D2F, .valid, []⟩,
  ⟨0x1D30, 0x1D30, .mapped, [0x64]⟩,
  ⟨0x1D31, 0x1D31, .mapped, [0x65]⟩,
  ⟨0x1D32, 0x1D32, .mapped, [0x1DD]⟩,
  ⟨0x1D33, 0x1D33, .mapped, [0x67]⟩,
  ⟨0x1D34, 0x1D34, .mapped, [0x68]⟩,
  ⟨0x1D35, 0x1D35, .mapped, [0x69]⟩,
  ⟨0x1D36, 0x1D36, .mapped, [0x6A]⟩,
  ⟨0x1D37, 0x1D37, .mapped, [0x6B]⟩,
  ⟨0x1D38, 0x1D38, .mapped, [0x6C]⟩,
  ⟨0x1D39, 0x1D39, .mapped, [0x6D]⟩,
  ⟨0x1D3A, 0x1D3A, .mapped, [0x6E]⟩,
  ⟨0x1D3B, 0x1D3B, .valid, []⟩,
  ⟨0x1D3C, 0x1D3C, .mapped, [0x6F]⟩,
  ⟨0x1D3D, 0x1D3D, .mapped, [0x223]⟩,
  ⟨0x1D3E, 0x1D3E, .mapped, [0x70]⟩,
  ⟨0x1D3F, 0x1D3F, .mapped, [0x72]⟩,
  ⟨0x1D40, 0x1D40, .mapped, [0x74]⟩,
  ⟨0x1D41, 0x1D41, .mapped, [0x75]⟩,
  ⟨0x1D42, 0x1D42, .mapped, [0x77]⟩,
  ⟨0x1D43, 0x1D43, .mapped, [0x61]⟩,
  ⟨0x1D44, 0x1D44, .mapped, [0x250]⟩,
  ⟨0x1D45, 0x1D45, .mapped, [0x251]⟩,
  ⟨0x1D46, 0x1D46, .mapped, [0x1D02]⟩,
  ⟨0x1D47, 0x1D47, .mapped, [0x62]⟩,
  ⟨0x1D48, 0x1D48, .mapped, [0x64]⟩,
  ⟨0x1D49, 0x1D49, .mapped, [0x65]⟩,
  ⟨0x1D4A, 0x1D4A, .mapped, [0x259]⟩,
  ⟨0x1D4B, 0x1D4B, .mapped, [0x25B]⟩,
  ⟨0x1D4C, 0x1D4C, .mapped, [0x25C]⟩,
  ⟨0x1D4D, 0x1D4D, .mapped, [0x67]⟩,
  ⟨0x1D4E, 0x1D4E, .valid, []⟩,
  ⟨0x1D4F, 0x1D4F, .mapped, [0x6B]⟩,
  ⟨0x1D50, 0x1D50, .mapped, [0x6D]⟩,
  ⟨0x1D51, 0x1D51, .mapped, [0x14B]⟩,
  ⟨0x1D52, 0x1D52, .mapped, [0x6F]⟩,
  ⟨0x1D53, 0x1D53, .mapped, [0x254]⟩,
  ⟨0x1D54, 0x1D54, .mapped, [0x1D16]⟩,
  ⟨0x1D55, 0x1D55, .mapped, [0x1D17]⟩,
  ⟨0x1D56, 0x1D56, .mapped, [0x70]⟩,
  ⟨0x1D57, 0x1D57, .mapped, [0x74]⟩,
  ⟨0x1D58, 0x1D58, .mapped, [0x75]⟩,
  ⟨0x1D59, 0x1D59, .mapped, [0x1D1D]⟩,
  ⟨0x1D5A, 0x1D5A, .mapped, [0x26F]⟩,
  ⟨0x1D5B, 0x1D5B, .mapped, [0x76]⟩,
  ⟨0x1D5C, 0x1D5C, .mapped, [0x1D25]⟩,
  ⟨0x1D5D, 0x1D5D, .mapped, [0x3B2]⟩,
  ⟨0x1D5E, 0x1D5E, .mapped, [0x3B3]⟩,
  ⟨0x1D5F, 0x1D5F, .mapped, [0x3B4]⟩,
  ⟨0x1D60, 0x1D60, .mapped, [0x3C6]⟩,
  ⟨0x1D61, 0x1D61, .mapped, [0x3C7]⟩,
  ⟨0x1D62, 0x1D62, .mapped, [0x69]⟩,
  ⟨0x1D63, 0x1D63, .mapped, [0x72]⟩,
  ⟨0x1D64, 0x1D64, .mapped, [0x75]⟩,
  ⟨0x1D65, 0x1D65, .mapped, [0x76]⟩,
  ⟨0x1D66, 0x1D66, .mapped, [0x3B2]⟩,
  ⟨0x1D67, 0x1D67, .mapped, [0x3B3]⟩,
  ⟨0x1D68, 0x1D68, .mapped, [0x3C1]⟩,
  ⟨0x1D69, 0x1D69, .mapped, [0x3C6]⟩,
  ⟨0x1D6A, 0x1D6A, .mapped, [0x3C7]⟩,
  ⟨0x1D6B, 0x1D6B, .valid, []⟩,
  ⟨0x1D6C, 0x1D77, .valid, []⟩,
  ⟨0x1D78, 0x1D78, .mapped, [0x43D]⟩,
  ⟨0x1D79, 0x1D9A, .valid, []⟩,
  ⟨0x1D9B, 0x1D9B, .mapped, [0x252]⟩,
  ⟨0x1D9C, 0x1D9C, .mapped, [0x63]⟩,
  ⟨0x1D9D, 0x1D9D, .mapped, [0x255]⟩,
  ⟨0x1D9E, 0x1D9E, .mapped, [0xF0]⟩,
  ⟨0x1D9F, 0x1D9F, .mapped, [0x25C]⟩,
  ⟨0x1DA0, 0x1DA0, .mapped, [0x66]⟩,
  ⟨0x1DA1, 0x1DA1, .mapped, [0x25F]⟩,
  ⟨0x1DA2, 0x1DA2, .mapped, [0x261]⟩,
  ⟨0x1DA3, 0x1DA3, .mapped, [0x265]⟩,
  ⟨0x1DA4, 0x1DA4, .mapped, [0x268]⟩,
  ⟨0x1DA5, 0x1DA5, .mapped, [0x269]⟩,
  ⟨0x1DA6, 0x1DA6, .mapped, [0x26A]⟩,
  ⟨0x1DA7, 0x1DA7, .mapped, [0x1D7B]⟩,
  ⟨0x1DA8, 0x1DA8, .mapped, [0x29D]⟩,
  ⟨0x1DA9, 0x1DA9, .mapped, [0x26D]⟩,
  ⟨0x1DAA, 0x1DAA, .mapped, [0x1D85]⟩,
  ⟨0x1DAB, 0x1DAB, .mapped, [0x29F]⟩,
  ⟨0x1DAC, 0x1DAC, .mapped, [0x271]⟩,
  ⟨0x1DAD, 0x1DAD, .mapped, [0x270]⟩,
  ⟨0x1DAE, 0x1DAE, .mapped, [0x272]⟩,
  ⟨0x1DAF, 0x1DAF, .mapped, [0x273]⟩,
  ⟨0x1DB0, 0x1DB0, .mapped, [0x274]⟩,
  ⟨0x1DB1, 0x1DB1, .mapped, [0x275]⟩,
  ⟨0x1DB2, 0x1DB2, .mapped, [0x278]⟩,
  ⟨0x1DB3, 0x1DB3, .mapped, [0x282]⟩,
  ⟨0x1DB4, 0x1DB4, .mapped, [0x283]⟩,
  ⟨0x1DB5, 0x1DB5, .mapped, [0x1AB]⟩,
  ⟨0x1DB6, 0x1DB6, .mapped, [0x289]⟩,
  ⟨0x1DB7, 0x1DB7, .mapped, [0x28A]⟩,
  ⟨0x1DB8, 0x1DB8, .mapped, [0x1D1C]⟩,
  ⟨0x1DB9, 0x1DB9, .mapped, [0x28B]⟩,
  ⟨0x1DBA, 0x1DBA, .mapped, [0x28C]⟩,
  ⟨0x1DBB, 0x1DBB, .mapped, [0x7A]⟩,
  ⟨0x1DBC, 0x1DBC, .mapped, [0x290]⟩,
  ⟨0x1DBD, 0x1DBD, .mapped, [0x291]⟩,
  ⟨0x1DBE, 0x1DBE, .mapped, [0x292]⟩,
  ⟨0x1DBF, 0x1DBF, .mapped, [0x3B8]⟩,
  ⟨0x1DC0, 0x1DC3, .valid, []⟩,
  ⟨0x1DC4, 0x1DCA, .valid, []⟩,
  ⟨0x1DCB, 0x1DE6, .valid, []⟩,
  ⟨0x1DE7, 0x1DF5, .valid, []⟩,
  ⟨0x1DF6, 0x1DF9, .valid, []⟩,
  ⟨0x1DFA, 0x1DFA, .disallowed, []⟩,
  ⟨0x1DFB, 0x1DFB, .valid, []⟩,
  ⟨0x1DFC, 0x1DFC, .valid, []⟩,
  ⟨0x1DFD, 0x1DFD, .valid, []⟩,
  ⟨0x1DFE, 0x1DFF, .valid, []⟩,
  ⟨0x1E00, 0x1E00, .mapped, [0x1E01]⟩,
  ⟨0x1E01, 0x1E01, .valid, []⟩,
  ⟨0x1E02, 0x1E02, .mapped, [0x1E03]⟩,
  ⟨0x1E03, 0x1E03, .valid, []⟩,
  ⟨0x1E04, 0x1E04, .mapped, [0x1E05]⟩,
  ⟨0x1E05, 0x1E05, .valid, []⟩,
  ⟨0x1E06, 0x1E06, .mapped, [0x1E07]⟩,
  ⟨0x1E07, 0x1E07, .valid, []⟩,
  ⟨0x1E08, 0x1E08, .mapped, [0x1E09]⟩,
  ⟨0x1E09, 0x1E09, .valid, []⟩,
  ⟨0x1E0A, 0x1E0A, .mapped, [0x1E0B]⟩,
  ⟨0x1E0B, 0x1E0B, .valid, []⟩,
  ⟨0x1E0C, 0x1E0C, .mapped, [0x1E0D]⟩,
  ⟨0x1E0D, 0x1E0D, .valid, []⟩,
  ⟨0x1E0E, 0x1E0E, .mapped, [0x1E0F]⟩,
  ⟨0x1E0F, 0x1E0F, .valid, []⟩,
  ⟨0x1E10, 0x1E10, .mapped, [0x1E11]⟩,
  ⟨0x1E11, 0x1E11, .valid, []⟩,
  ⟨0x1E12, 0x1E12, .mapped, [0x1E13]⟩,
  ⟨0x1E13, 0x1E13, .valid, []⟩,
  ⟨0x1E14, 0x1E14, .mapped, [0x1E15]⟩,
  ⟨0x1E15, 0x1E15, .valid, []⟩,
  ⟨0x1E16, 0x1E16, .mapped, [0x1E17]⟩,
  ⟨0x1E17, 0x1E17, .valid, []⟩,
  ⟨0x1E18, 0x1E18, .mapped, [0x1E19]⟩,
  ⟨0x1E19, 0x1E19, .valid, []⟩,
  ⟨0x1E1A, 0x1E1A, .mapped, [0x1E1B]⟩,
  ⟨0x1E1B, 0x1E1B, .valid, []⟩,
  ⟨0x1E1C, 0x1E1C, .mapped, [0x1E1D]⟩,
  ⟨0x1E1D, 0x1E1D, .valid, []⟩,
  ⟨0x1E1E, 0x1E1E, .mapped, [0x1E1F]⟩,
  ⟨0x1E1F, 0x1E1F, .valid, []⟩,
  ⟨0x1E20, 0x1E20, .mapped, [0x1E21]⟩,
  ⟨0x1E21, 0x1E21, .valid, []⟩,
  ⟨0x1E22, 0x1E22, .mapped, [0x1E23]⟩,
  ⟨0x1E23, 0x1E23, .valid, []⟩,
  ⟨0x1E24, 0x1E24, .mapped, [0x1E25]⟩,
  ⟨0x1E25, 0x1E25, .valid, []⟩,
  ⟨0x1E26, 0x1E26, .mapped, [0x1E27]⟩,
  ⟨0x1E27, 0x1E27, .valid, []⟩,
  ⟨0x1E28, 0x1E28, .mapped, [0x1E29]⟩,
  ⟨0x1E29, 0x1E29, .valid, []⟩,
  ⟨0x1E2A, 0x1E2A, .mapped, [0x1E2B]⟩,
  ⟨0x1E2B, 0x1E2B, .valid, []⟩,
  ⟨0x1E2C, 0x1E2C, .mapped, [0x1E2D]⟩,
  ⟨0x1E2D, 0x1E2D, .valid, []⟩,
  ⟨0x1E2E, 0x1E2E, .mapped, [0x1E2F]⟩,
  ⟨0x1E2F, 0x1E2F, .valid, []⟩,
  ⟨0x1E30, 0x1E30, .mapped, [0x1E31]⟩,
  ⟨0x1E31, 0x1E31, .valid, []⟩,
  ⟨0x1E32, 0x1E32, .mapped, [0x1E33]⟩,
  ⟨0x1E33, 0x1E33, .valid, []⟩,
  ⟨0x1E34, 0x1E34, .mapped, [0x1E35]⟩,
  ⟨0x1E35, 0x1E35, .valid, []⟩,
  ⟨0x1E36, 0x1E36, .mapped, [0x1E37]⟩,
  ⟨0x1E37, 0x1E37, .valid, []⟩,
  ⟨0x1E38, 0x1E38, .mapped, [0x1E39]⟩,
  ⟨0x1E39, 0x1E39, .valid, []⟩,
  ⟨0x1E3A, 0x1E3A, .mapped, [0x1E3B]⟩,
  ⟨0x1E3B, 0x1E3B, .valid, []⟩,
  ⟨0x1E3C, 0x1E3C, .mapped, [0x1E3D]⟩,
  ⟨0x1E3D, 0x1E3D, .valid, []⟩,
  ⟨0x1E3E, 0x1E3E, .mapped, [0x1E3F]⟩,
  ⟨0x1E3F, 0x1E3F, .valid, []⟩,
  ⟨0x1E40, 0x1E40, .mapped, [0x1E41]⟩,
  ⟨0x1E41, 0x1E41, .valid, []⟩,
  ⟨0x1E42, 0x1E42, .mapped, [0x1E43]⟩,
  ⟨0x1E43, 0x1E43, .valid, []⟩,
  ⟨0x1E44, 0x1E44, .mapped, [0x1E45]⟩,
  ⟨0x1E45, 0x1E45, .valid, []⟩,
  ⟨0x1E46, 0x1E46, .mapped, [0x1E47]⟩,
  ⟨0x1E47, 0x1E47, .valid, []⟩,
  ⟨0x1E48, 0x1E48, .mapped, [0x1E49]⟩,
  ⟨0x1E49, 0x1E49, .valid, []⟩,
  ⟨0x1E4A, 0x1E4A, .mapped, [0x1E4B]⟩,
  ⟨0x1E4B, 0x1E4B, .valid, []⟩,
  ⟨0x1E4C, 0x1E4C, .mapped, [0x1E4D]⟩,
  ⟨0x1E4D, 0x1E4D, .valid, []⟩,
  ⟨0x1E4E, 0x1E4E, .mapped, [0x1E4F]⟩,
  ⟨0x1E4F, 0x1E4F, .valid, []⟩,
  ⟨0x1E50, 0x1E50, .mapped, [0x1E51]⟩,
  ⟨0x1E51, 0x1E51, .valid, []⟩,
  ⟨0x1E52, 0x1E52, .mapped, [0x1E53]⟩,
  ⟨0x1E53, 0x1E53, .valid, []⟩,
  ⟨0x1E54, 0x1E54, .mapped, [0x1E55]⟩,
  ⟨0x1E55, 0x1E55, .valid, []⟩,
  ⟨0x1E56, 0x1E56, .mapped, [0x1E57]⟩,
  ⟨0x1E57, 0x1E57, .valid, []⟩,
  ⟨0x1E58, 0x1E58, .mapped, [0x1E59]⟩,
  ⟨0x1E59, 0x1E59, .valid, []⟩,
  ⟨0x1E5A, 0x1E5A, .mapped, [0x1E5B]⟩,
  ⟨0x1E5B, 0x1E5B, .valid, []⟩,
  ⟨0x1E5C, 0x1E5C, .mapped, [0x1E5D]⟩,
  ⟨0x1E5D, 0x1E5D, .valid, []⟩,
  ⟨0x1E5E, 0x1E5E, .mapped, [0x1E5F]⟩,
  ⟨0x1E5F, 0x1E5F, .valid, []⟩,
  ⟨0x1E60, 0x1E60, .mapped, [0x1E61]⟩,
  ⟨0x1E61, 0x1E61, .valid, []⟩,
  ⟨0x1E62, 0x1E62, .mapped, [0x1E63]⟩,
  ⟨0x1E63, 0x1E63, .valid, []⟩,
  ⟨0x1E64, 0x1E64, .mapped, [0x1E65]⟩,
  ⟨0x1E65, 0x1E65, .valid, []⟩,
  ⟨0x1E66, 0x1E66, .mapped, [0x1E67]⟩,
  ⟨0x1E67, 0x1E67, .valid, []⟩,
  ⟨0x1E68, 0x1E68, .mapped, [0x1E69]⟩,
  ⟨0x1E69, 0x1E69, .valid, []⟩,
  ⟨0x1E6A, 0x1E6A, .mapped, [0x1E6B]⟩,
  ⟨0x1E6B, 0x1E6B, .valid, []⟩,
  ⟨0x1E6C, 0x1E6C, .mapped, [0x1E6D]⟩,
  ⟨0x1E6D, 0x1E6D, .valid, []⟩,
  ⟨0x1E6E, 0x1E6E, .mapped, [0x1E6F]⟩,
  ⟨0x1E6F, 0x1E6F, .valid, []⟩,
  ⟨0x1E70, 0x1E70, .mapped, [0x1E71]⟩,
  ⟨0x1E71, 0x1E71, .valid, []⟩,
  ⟨0x1E72, 0x1E72, .mapped, [0x1E73]⟩,
  ⟨0x1E73, 0x1E73, .valid, []⟩,
  ⟨0x1E74, 0x1E74, .mapped, [0x1E75]⟩,
  ⟨0x1E75, 0x1E75, .valid, []⟩,
  ⟨0x1E76, 0x1E76, .mapped, [0x1E77]⟩,
  ⟨0x1E77, 0x1E77, .valid, []⟩,
  ⟨0x1E78, 0x1E78, .mapped, [0x1E79]⟩,
  ⟨0x1E79, 0x1E79, .valid, []⟩,
  ⟨0x1E7A, 0x1E7A, .mapped, [0x1E7B]⟩,
  ⟨0x1E7B, 0x1E7B, .valid, []⟩,
  ⟨0x1E7C, 0x1E7C, .mapped, [0x1E7D]⟩,
  ⟨0x1E7D, 0x1E7D, .valid, []⟩,
  ⟨0x1E7E, 0x1E7E, .mapped, [0x1E7F]⟩,
  ⟨0x1E7F, 0x1E7F, .valid, []⟩,
  ⟨0x1E80, 0x1E80, .mapped, [0x1E81]⟩,
  ⟨0x1E81, 0x1E81, .valid, []⟩,
  ⟨0x1E82, 0x1E82, .mapped, [0x1E83]⟩,
  ⟨0x1E83, 0x1E83, .valid, []⟩,
  ⟨0x1E84, 0x1E84, .mapped, [0x1E85]⟩]

def map8 : List MapRow := [
  ⟨0x1E85, 0x1E85, .valid, []⟩,
  ⟨0x1E86, 0x1E86, .mapped, [0x1E87]⟩,
  ⟨0x1E87, 0x1E87, .valid, []⟩,
  ⟨0x1E88, 0x1E88, .mapped, [0x1E89]⟩,
  ⟨0x1E89, 0x1E89, .valid, []⟩,
  ⟨0x1E8A, 0x1E8A, .mapped, [0x1E8B]⟩,
  ⟨0x1E8B, 0x1E8B, .valid, []⟩,
  ⟨0x1E8C, 0x1E8C, .mapped, [0x1E8D]⟩,
  ⟨0x1E8D, 0x1E8D, .valid, []⟩,
  ⟨0x1E8E, 0x1E8E, .mapped, [0x1E8F]⟩,
  ⟨0x1E8F, 0x1E8F, .valid, []⟩,
  ⟨0x1E90, 0x1E90, .mapped, [0x1E91]⟩,
  ⟨0x1E91, 0x1E91, .valid, []⟩,
  ⟨0x1E92, 0x1E92, .mapped, [0x1E93]⟩,
  ⟨0x1E93, 0x1E93, .valid, []⟩,
  ⟨0x1E94, 0x1E94, .mapped, [0x1E95]⟩,
  ⟨0x1E95, 0x1E99, .valid, []⟩,
  ⟨0x1E9A, 0x1E9A, .mapped, [0x61, 0x2BE]⟩,
  ⟨0x1E9B, 0x1E9B, .mapped, [0x1E61]⟩,
  ⟨0x1E9C, 0x1E9D, .valid, []⟩,
  ⟨0x1E9E, 0x1E9E, .mapped, [0x73, 0x73]⟩,
  ⟨0x1E9F, 0x1E9F, .valid, []⟩,
  ⟨0x1EA0, 0x1EA0, .mapped, [0x1EA1]⟩,
  ⟨0x1EA1, 0x1EA1, .valid, []⟩,
  ⟨0x1EA2, 0x1EA2, .mapped, [0x1EA3]⟩,
  ⟨0x1EA3, 0x1EA3, .valid, []⟩,
  ⟨0x1EA4, 0x1EA4, .mapped, [0x1EA5]⟩,
  ⟨0x1EA5, 0x1EA5, .valid, []⟩,
  ⟨0x1EA6, 0x1EA6, .mapped, [0x1EA7]⟩,
  ⟨0x1EA7, 0x1EA7, .valid, []⟩,
  ⟨0x1EA8, 0x1EA8, .mapped, [0x1EA9]⟩,
  ⟨0x1EA9, 0x1EA9, .valid, []⟩,
  ⟨0x1EAA, 0x1EAA, .mapped, [0x1EAB]⟩,
  ⟨0x1EAB, 0x1EAB, .valid, []⟩,
  ⟨0x1EAC, 0x1EAC, .mapped, [0x1EAD]⟩,
  ⟨0x1EAD, 0x1EAD, .valid, []⟩,
  ⟨0x1EAE, 0x1EAE, .mapped, [0x1EAF]⟩,
  ⟨0x1EAF, 0x1EAF, .valid, []⟩,
  ⟨0x1EB0, 0x1EB0, .mapped, [0x1EB1]⟩,
  ⟨0x1EB1, 0x1EB1, .valid, []⟩,
  ⟨0x1EB2, 0x1EB2, .mapped, [0x1EB3]⟩,
  ⟨0x1EB3, 0x1EB3, .valid, []⟩,
  ⟨0x1EB4, 0x1EB4, .mapped, [0x1EB5]⟩,
  ⟨0x1EB5, 0x1EB5, .valid, []⟩,
  ⟨0x1EB6, 0x1EB6, .mapped, [0x1EB7]⟩,
  ⟨0x1EB7, 0x1EB7, .valid, []⟩,
  ⟨0x1EB8, 0x1EB8, .mapped, [0x1EB9]⟩,
  ⟨0x1EB9, 0x1EB9, .valid, []⟩,
  ⟨0x1EBA, 0x1EBA, .mapped, [0x1EBB]⟩,
  ⟨0x1EBB, 0x1EBB, .valid, []⟩,
  ⟨0x1EBC, 0x1EBC, .mapped, [0x1EBD]⟩,
  ⟨0x1EBD, 0x1EBD, .valid, []⟩,
  ⟨0x1EBE, 0x1EBE, .mapped, [0x1EBF]⟩,
  ⟨0x1EBF, 0x1EBF, .valid, []⟩,
  ⟨0x1EC0, 0x1EC0, .mapped, [0x1EC1]⟩,
  ⟨0x1EC1, 0x1EC1, .valid, []⟩,
  ⟨0x1EC2, 0x1EC2, .mapped, [0x1EC3]⟩,
  ⟨0x1EC3, 0x1EC3, .valid, []⟩,
  ⟨0x1EC4, 0x1EC4, .mapped, [0x1EC5]⟩,
  ⟨0x1EC5, 0x1EC5, .valid, []⟩,
  ⟨0x1EC6, 0x1EC6, .mapped, [0x1EC7]⟩,
  ⟨0x1EC7, 0x1EC7, .valid, []⟩,
  ⟨0x1EC8, 0x1EC8, .mapped, [0x1EC9]⟩,
  ⟨0x1EC9, 0x1EC9, .valid, []⟩,
  ⟨0x1ECA, 0x1ECA, .mapped, [0x1ECB]⟩,
  ⟨0x1ECB, 0x1ECB, .valid, []⟩,
  ⟨0x1ECC, 0x1ECC, .mapped, [0x1ECD]⟩,
  ⟨0x1ECD, 0x1ECD, .valid, []⟩,
  ⟨0x1ECE, 0x1ECE, .mapped, [0x1ECF]⟩,
  ⟨0x1ECF, 0x1ECF, .valid, []⟩,
  ⟨0x1ED0, 0x1ED0, .mapped, [0x1ED1]⟩,
  ⟨0x1ED1, 0x1ED1, .valid, []⟩,
  ⟨0x1ED2, 0x1ED2, .mapped, [0x1ED3]⟩,
  ⟨0x1ED3, 0x1ED3, .valid, []⟩,
  ⟨0x1ED4, 0x1ED4, .mapped, [0x1ED5]⟩,
  ⟨0x1ED5, 0x1ED5, .valid, []⟩,
  ⟨0x1ED6, 0x1ED6, .mapped, [0x1ED7]⟩,
  ⟨0x1ED7, 0x1ED7, .valid, []⟩,
  ⟨0x1ED8, 0x1ED8, .mapped, [0x1ED9]⟩,
  ⟨0x1ED9, 0x1ED9, .valid, []⟩,
  ⟨0x1EDA, 0x1EDA, .mapped, [0x1EDB]⟩,
  ⟨0x1EDB, 0x1EDB, .valid, []⟩,
  ⟨0x1EDC, 0x1EDC, .mapped, [0x1EDD]⟩,
  ⟨0x1EDD, 0x1EDD, .valid, []⟩,
  ⟨0x1EDE, 0x1EDE, .mapped, [0x1EDF]⟩,
  ⟨0x1EDF, 0x1EDF, .valid, []⟩,
  ⟨0x1EE0, 0x1EE0, .mapped, [0x1EE1]⟩,
  ⟨0x1EE1, 0x1EE1, .valid, []⟩,
  ⟨0x1EE2, 0x1EE2, .mapped, [0x1EE3]⟩,
  ⟨0x1EE3, 0x1EE3, .valid, []⟩,
  ⟨0x1EE4, 0x1EE4, .mapped, [0x1EE5]⟩,
  ⟨0x1EE5, 0x1EE5, .valid, []⟩,
  ⟨0x1EE6, 0x1EE6, .mapped, [0x1EE7]⟩,
  ⟨0x1EE7, 0x1EE7, .valid, []⟩,
  ⟨0x1EE8, 0x1EE8, .mapped, [0x1EE9]⟩,
  ⟨0x1EE9, 0x1EE9, .valid, []⟩,
  ⟨0x1EEA, 0x1EEA, .mapped, [0x1EEB]⟩,
  ⟨0x1EEB, 0x1EEB, .valid, []⟩,
  ⟨0x1EEC, 0x1EEC, .mapped, [0x1EED]⟩,
  ⟨0x1EED, 0x1EED, .valid, []⟩,
  ⟨0x1EEE, 0x1EEE, .mapped, [0x1EEF]⟩,
  ⟨0x1EEF, 0x1EEF, .valid, []⟩,
  ⟨0x1EF0, 0x1EF0, .mapped, [0x1EF1]⟩,
  ⟨0x1EF1, 0x1EF1, .valid, []⟩,
  ⟨0x1EF2, 0x1EF2, .mapped, [0x1EF3]⟩,
  ⟨0x1EF3, 0x1EF3, .valid, []⟩,
  ⟨0x1EF4, 0x1EF4, .mapped, [0x1EF5]⟩,
  ⟨0x1EF5, 0x1EF5, .valid, []⟩,
  ⟨0x1EF6, 0x1EF6, .mapped, [0x1EF7]⟩,
  ⟨0x1EF7, 0x1EF7, .valid, []⟩,
  ⟨0x1EF8, 0x1EF8, .mapped, [0x1EF9]⟩,
  ⟨0x1EF9, 0x1EF9, .valid, []⟩,
  ⟨0x1EFA, 0x1EFA, .mapped, [0x1EFB]⟩,
  ⟨0x1EFB, 0x1EFB, .valid, []⟩,
  ⟨0x1EFC, 0x1EFC, .mapped, [0x1EFD]⟩,
  ⟨0x1EFD, 0x1EFD, .valid, []⟩,
  ⟨0x1EFE, 0x1EFE, .mapped, [0x1EFF]⟩,
  ⟨0x1EFF, 0x1EFF, .valid, []⟩,
  ⟨0x1F00, 0x1F07, .valid, []⟩,
  ⟨0x1F08, 0x1F08, .mapped, [0x1F00]⟩,
  ⟨0x1F09, 0x1F09, .mapped, [0x1F01]⟩,
  ⟨0x1F0A, 0x1F0A, .mapped, [0x1F02]⟩,
  ⟨0x1F0B, 0x1F0B, .mapped, [0x1F03]⟩,
  ⟨0x1F0C, 0x1F0C, .mapped, [0x1F04]⟩,
  ⟨0x1F0D, 0x1F0D, .mapped, [0x1F05]⟩,
  ⟨0x1F0E, 0x1F0E, .mapped, [0x1F06]⟩,
  ⟨0x1F0F, 0x1F0F, .mapped, [0x1F07]⟩,
  ⟨0x1F10, 0x1F15, .valid, []⟩,
  ⟨0x1F16, 0x1F17, .disallowed, []⟩,
  ⟨0x1F18, 0x1F18, .mapped, [0x1F10]⟩,
  ⟨0x1F19, 0x1F19, .mapped, [0x1F11]⟩,
  ⟨0x1F1A, 0x1F1A, .mapped, [0x1F12]⟩,
  ⟨0x1F1B, 0x1F1B, .mapped, [0x1F13]⟩,
  ⟨0x1F1C, 0x1F1C, .mapped, [0x1F14]⟩,
  ⟨0x1F1D, 0x1F1D, .mapped, [0x1F15]⟩,
  ⟨0x1F1E, 0x1F1F, .disallowed, []⟩,
  ⟨0x1F20, 0x1F27, .valid, []⟩,
  ⟨0x1F28, 0x1F28, .mapped, [0x1F20]⟩,
  ⟨0x1F29, 0x1F29, .mapped, [0x1F21]⟩,
  ⟨0x1F2A, 0x1F2A, .mapped, [0x1F22]⟩,
  ⟨0x1F2B, 0x1F2B, .mapped, [0x1F23]⟩,
  ⟨0x1F2C, 0x1F2C, .mapped, [0x1F24]⟩,
  ⟨0x1F2D, 0x1F2D, .mapped, [0x1F25]⟩,
  ⟨0x1F2E, 0x1F2E, .mapped, [0x1F26]⟩,
  ⟨0x1F2F, 0x1F2F, .mapped, [0x1F27]⟩,
  ⟨0x1F30, 0x1F37, .valid, []⟩,
  ⟨0x1F38, 0x1F38, .mapped, [0x1F30]⟩,
  ⟨0x1F39, 0x1F39, .mapped, [0x1F31]⟩,
  ⟨0x1F3A, 0x1F3A, .mapped, [0x1F32]⟩,
  ⟨0x1F3B, 0x1F3B, .mapped, [0x1F33]⟩,
  ⟨0x1F3C, 0x1F3C, .mapped, [0x1F34]⟩,
  ⟨0x1F3D, 0x1F3D, .mapped, [0x1F35]⟩,
  ⟨0x1F3E, 0x1F3E, .mapped, [0x1F36]⟩,
  ⟨0x1F3F, 0x1F3F, .mapped, [0x1F37]⟩,
  ⟨0x1F40, 0x1F45, .valid, []⟩,
  ⟨0x1F46, 0x1F47, .disallowed, []⟩,
  ⟨0x1F48, 0x1F48, .mapped, [0x1F40]⟩,
  ⟨0x1F49, 0x1F49, .mapped, [0x1F41]⟩,
  ⟨0x1F4A, 0x1F4A, .mapped, [0x1F42]⟩,
  ⟨0x1F4B, 0x1F4B, .mapped, [0x1F43]⟩,
  ⟨0x1F4C, 0x1F4C, .mapped, [0x1F44]⟩,
  ⟨0x1F4D, 0x1F4D, .mapped, [0x1F45]⟩,
  ⟨0x1F4E, 0x1F4F, .disallowed, []⟩,
  ⟨0x1F50, 0x1F57, .valid, []⟩,
  ⟨0x1F58, 0x1F58, .disallowed, []⟩,
  ⟨0x1F59, 0x1F59, .mapped, [0x1F51]⟩,
  ⟨0x1F5A, 0x1F5A, .disallowed, []⟩,
  ⟨0x1F5B, 0x1F5B, .mapped, [0x1F53]⟩,
  ⟨0x1F5C, 0x1F5C, .disallowed, []⟩,
  ⟨0x1F5D, 0x1F5D, .mapped, [0x1F55]⟩,
  ⟨0x1F5E, 0x1F5E, .disallowed, []⟩,
  ⟨0x1F5F, 0x1F5F, .mapped, [0x1F57]⟩,
  ⟨0x1F60, 0x1F67, .valid, []⟩,
  ⟨0x1F68, 0x1F68, .mapped, [0x1F60]⟩,
  ⟨0x1F69, 0x1F69, .mapped, [0x1F61]⟩,
  ⟨0x1F6A, 0x1F6A, .mapped, [0x1F62]⟩,
  ⟨0x1F6B, 0x1F6B, .mapped, [0x1F63]⟩,
  ⟨0x1F6C, 0x1F6C, .mapped, [0x1F64]⟩,
  ⟨0x1F6D, 0x1F6D, .mapped, [0x1F65]⟩,
  ⟨0x1F6E, 0x1F6E, .mapped, [0x1F66]⟩,
  ⟨0x1F6F, 0x1F6F, .mapped, [0x1F67]⟩,
  ⟨0x1F70, 0x1F70, .valid, []⟩,
  ⟨0x1F71, 0x1F71, .mapped, [0x3AC]⟩,
  ⟨0x1F72, 0x1F72, .valid, []⟩,
  ⟨0x1F73, 0x1F73, .mapped, [0x3AD]⟩,
  ⟨0x1F74, 0x1F74, .valid, []⟩,
  ⟨0x1F75, 0x1F75, .mapped, [0x3AE]⟩,
  ⟨0x1F76, 0x1F76, .valid, []⟩,
  ⟨0x1F77, 0x1F77, .mapped, [0x3AF]⟩,
  ⟨0x1F78, 0x1F78, .valid, []⟩,
  ⟨0x1F79, 0x1F79, .mapped, [0x3CC]⟩,
  ⟨0x1F7A, 0x1F7A, .valid, []⟩,
  ⟨0x1F7B, 0x1F7B, .mapped, [0x3CD]⟩,
  ⟨0x1F7C, 0x1F7C, .valid, []⟩,
  ⟨0x1F7D, 0x1F7D, .mapped, [0x3CE]⟩,
  ⟨0x1F7E, 0x1F7F, .disallowed, []⟩,
  ⟨0x1F80, 0x1F80, .mapped, [0x1F00, 0x3B9]⟩,
  ⟨0x1F81, 0x1F81, .mapped, [0x1F01, 0x3B9]⟩,
  ⟨0x1F82, 0x1F82, .mapped, [0x1F02, 0x3B9]⟩,
  ⟨0x1F83, 0x1F83, .mapped, [0x1F03, 0x3B9]⟩,
  ⟨0x1F84, 0x1F84, .mapped, [0x1F04, 0x3B9]⟩,
  ⟨0x1F85, 0x1F85, .mapped, [0x1F05, 0x3B9]⟩,
  ⟨0x1F86, 0x1F86, .mapped, [0x1F06, 0x3B9]⟩,
  ⟨0x1F87, 0x1F87, .mapped, [0x1F07, 0x3B9]⟩,
  ⟨0x1F88, 0x1F88, .mapped, [0x1F00, 0x3B9]⟩,
  ⟨0x1F89, 0x1F89, .mapped, [0x1F01, 0x3B9]⟩,
  ⟨0x1F8A, 0x1F8A, .mapped, [0x1F02, 0x3B9]⟩,
  ⟨0x1F8B, 0x1F8B, .mapped, [0x1F03, 0x3B9]⟩,
  ⟨0x1F8C, 0x1F8C, .mapped, [0x1F04, 0x3B9]⟩,
  ⟨0x1F8D, 0x1F8D, .mapped, [0x1F05, 0x3B9]⟩,
  ⟨0x1F8E, 0x1F8E, .mapped, [0x1F06, 0x3B9]⟩,
  ⟨0x1F8F, 0x1F8F, .mapped, [0x1F07, 0x3B9]⟩,
  ⟨0x1F90, 0x1F90, .mapped, [0x1F20, 0x3B9]⟩,
  ⟨0x1F91, 0x1F91, .mapped, [0x1F21, 0x3B9]⟩,
  ⟨0x1F92, 0x1F92, .mapped, [0x1F22, 0x3B9]⟩,
  ⟨0x1F93, 0x1F93, .mapped, [0x1F23, 0x3B9]⟩,
  ⟨0x1F94, 0x1F94, .mapped, [0x1F24, 0x3B9]⟩,
  ⟨0x1F95, 0x1F95, .mapped, [0x1F25, 0x3B9]⟩,
  ⟨0x1F96, 0x1F96, .mapped, [0x1F26, 0x3B9]⟩,
  ⟨0x1F97, 0x1F97, .mapped, [0x1F27, 0x3B9]⟩,
  ⟨0x1F98, 0x1F98, .mapped, [0x1F20, 0x3B9]⟩,
  ⟨0x1F99, 0x1F99, .mapped, [0x1F21, 0x3B9]⟩,
  ⟨0x1F9A, 0x1F9A, .mapped, [0x1F22, 0x3B9]⟩,
  ⟨0x1F9B, 0x1F9B, .mapped, [0x1F23, 0x3B9]⟩,
  ⟨0x1F9C, 0x1F9C, .mapped, [0x1F24, 0x3B9]⟩,
  ⟨0x1F9D, 0x1F9D, .mapped, [0x1F25, 0x3B9]⟩,
  ⟨0x1F9E, 0x1F9E, .mapped, [0x1F26, 0x3B9]⟩,
  ⟨0x1F9F, 0x1F9F, .mapped, [0x1F27, 0x3B9]⟩,
  ⟨0x1FA0, 0x1FA0, .mapped, [0x1F60, 0x3B9]⟩,
  ⟨0x1FA1, 0x1FA1, .mapped, [0x1F61, 0x3B9]⟩,
  ⟨0x1FA2, 0x1FA2, .mapped, [0x1F62, 0x3B9]⟩,
  ⟨0x1FA3, 0x1FA3, .mapped, [0x1F63, 0x3B9]⟩,
  ⟨0x1FA4, 0x1FA4, .mapped, [0x1F64, 0x3B9]⟩,
  ⟨0x1FA5, 0x1FA5, .mapped, [0x1F65, 0x3B9]⟩,
  ⟨0x1FA6, 0x1FA6, .mapped, [0x1F66, 0x3B9]⟩,
  ⟨0x1FA7, 0x1FA7, .mapped, [0x1F67, 0x3B9]⟩,
  ⟨0x1FA8, 0x1FA8, .mapped, [0x1F60, 0x3B9]⟩,
  ⟨0x1FA9, 0x1FA9, .mapped, [0x1F61, 0x3B9]⟩,
  ⟨0x1FAA, 0x1FAA, .mapped, [0x1F62, 0x3B9]⟩,
  ⟨0x1FAB, 0x1FAB, .mapped, [0x1F63, 0x3B9]⟩,
  ⟨0x1FAC, 0x1FAC, .mapped, [0x1F64, 0x3B9]⟩,
  ⟨0x1FAD, 0x1FAD, .mapped, [0x1F65, 0x3B9]⟩,
  ⟨0x1FAE, 0x1FAE, .mapped, [0x1F66, 0x3B9]⟩,
  ⟨0x1FAF, 0x1FAF, .mapped, [0x1F67, 0x3B9]⟩,
  ⟨0x1FB0, 0x1FB1, .valid, []⟩,
  ⟨0x1FB2, 0x1FB2, .mapped, [0x1F70, 0x3B9]⟩,
  ⟨0x1FB3, 0x1FB3, .mapped, [0x3B1, 0x3B9]⟩,
  ⟨0x1FB4, 0x1FB4, .mapped, [0x3AC, 0x3B9]⟩,
  ⟨0x1FB5, 0x1FB5, .disallowed, []⟩,
  ⟨0x1FB6, 0x1FB6, .valid, []⟩]

def map9 : List MapRow := [
  ⟨0x1FB7, 0x1FB7, .mapped, [0x1FB6, 0x3B9]⟩,
  ⟨0x1FB8, 0x1FB8, .mapped, [0x1FB0]⟩,
  ⟨0x1FB9, 0x1FB9, .mapped, [0x1FB1]⟩,
  ⟨0x1FBA, 0x1FBA, .mapped, [0x1F70]⟩,
  ⟨0x1FBB, 0x1FBB, .mapped, [0x3AC]⟩,
  ⟨0x1FBC, 0x1FBC, .mapped, [0x3B1, 0x3B9]⟩,
  ⟨0x1FBD, 0x1FBD, .std3Mapped, [0x20, 0x313]⟩,
  ⟨0x1FBE, 0x1FBE, .mapped, [0x3B9]⟩,
  ⟨0x1FBF, 0x1FBF, .std3Mapped, [0x20, 0x313]⟩,
  ⟨0x1FC0, 0x1FC0, .std3Mapped, [0x20, 0x342]⟩,
  ⟨0x1FC1, 0x1FC1, .std3Mapped, [0x20, 0x308, 0x342]⟩,
  ⟨0x1FC2, 0x1FC2, .mapped, [0x1F74, 0x3B9]⟩,
  ⟨0x1FC3, 0x1FC3, .mapped, [0x3B7, 0x3B9]⟩,
  ⟨0x1FC4, 0x1FC4, .mapped, [0x3AE, 0x3B9]⟩,
  ⟨0x1FC5, 0x1FC5, .disallowed, []⟩,
  ⟨0x1FC6, 0x1FC6, .valid, []⟩,
  ⟨0x1FC7, 0x1FC7, .mapped, [0x1FC6, 0x3B9]⟩,
  ⟨0x1FC8, 0x1FC8, .mapped, [0x1F72]⟩,
  ⟨0x1FC9, 0x1FC9, .mapped, [0x3AD]⟩,
  ⟨0x1FCA, 0x1FCA, .mapped, [0x1F74]⟩,
  ⟨0x1FCB, 0x1FCB, .mapped, [0x3AE]⟩,
  ⟨0x1FCC, 0x1FCC, .mapped, [0x3B7, 0x3B9]⟩,
  ⟨0x1FCD, 0x1FCD, .std3Mapped, [0x20, 0x313, 0x300]⟩,
  ⟨0x1FCE, 0x1FCE, .std3Mapped, [0x20, 0x313, 0x301]⟩,
  ⟨0x1FCF, 0x1FCF, .std3Mapped, [0x20, 0x313, 0x342]⟩,
  ⟨0x1FD0, 0x1FD2, .valid, []⟩,
  ⟨0x1FD3, 0x1FD3, .mapped, [0x390]⟩,
  ⟨0x1FD4, 0x1FD5, .disallowed, []⟩,
  ⟨0x1FD6, 0x1FD7, .valid, []⟩,
  ⟨0x1FD8, 0x1FD8, .mapped, [0x1FD0]⟩,
  ⟨0x1FD9, 0x1FD9, .mapped, [0x1FD1]⟩,
  ⟨0x1FDA, 0x1FDA, .mapped, [0x1F76]⟩,
  ⟨0x1FDB, 0x1FDB, .mapped, [0x3AF]⟩,
  ⟨0x1FDC, 0x1FDC, .disallowed, []⟩,
  ⟨0x1FDD, 0x1FDD, .std3Mapped, [0x20, 0x314, 0x300]⟩,
  ⟨0x1FDE, 0x1FDE, .std3Mapped, [0x20, 0x314, 0x301]⟩,
  ⟨0x1FDF, 0x1FDF, .std3Mapped, [0x20, 0x314, 0x342]⟩,
  ⟨0x1FE0, 0x1FE2, .valid, []⟩,
  ⟨0x1FE3, 0x1FE3, .mapped, [0x3B0]⟩,
  ⟨0x1FE4, 0x1FE7, .valid, []⟩,
  ⟨0x1FE8, 0x1FE8, .mapped, [0x1FE0]⟩,
  ⟨0x1FE9, 0x1FE9, .mapped, [0x1FE1]⟩,
  ⟨0x1FEA, 0x1FEA, .mapped, [0x1F7A]⟩,
  ⟨0x1FEB, 0x1FEB, .mapped, [0x3CD]⟩,
  ⟨0x1FEC, 0x1FEC, .mapped, [0x1FE5]⟩,
  ⟨0x1FED, 0x1FED, .std3Mapped, [0x20, 0x308, 0x300]⟩,
  ⟨0x1FEE, 0x1FEE, .std3Mapped, [0x20, 0x308, 0x301]⟩,
  ⟨0x1FEF, 0x1FEF, .std3Mapped, [0x60]⟩,
  ⟨0x1FF0, 0x1FF1, .disallowed, []⟩,
  ⟨0x1FF2, 0x1FF2, .mapped, [0x1F7C, 0x3B9]⟩,
  ⟨0x1FF3, 0x1FF3, .mapped, [0x3C9, 0x3B9]⟩,
  ⟨0x1FF4, 0x1FF4, .mapped, [0x3CE, 0x3B9]⟩,
  ⟨0x1FF5, 0x1FF5, .disallowed, []⟩,
  ⟨0x1FF6, 0x1FF6, .valid, []⟩,
  ⟨0x1FF7, 0x1FF7, .mapped, [0x1FF6, 0x3B9]⟩,
  ⟨0x1FF8, 0x1FF8, .mapped, [0x1F78]⟩,
  ⟨0x1FF9, 0x1FF9, .mapped, [0x3CC]⟩,
  ⟨0x1FFA, 0x1FFA, .mapped, [0x1F7C]⟩,
  ⟨0x1FFB, 0x1FFB, .mapped, [0x3CE]⟩,
  ⟨0x1FFC, 0x1FFC, .mapped, [0x3C9, 0x3B9]⟩,
  ⟨0x1FFD, 0x1FFD, .std3Mapped, [0x20, 0x301]⟩,
  ⟨0x1FFE, 0x1FFE, .std3Mapped, [0x20, 0x314]⟩,
  ⟨0x1FFF, 0x1FFF, .disallowed, []⟩,
  ⟨0x2000, 0x200A, .std3Mapped, [0x20]⟩,
  ⟨0x200B, 0x200B, .ignored, []⟩,
  ⟨0x200C, 0x200D, .deviation, []⟩,
  ⟨0x200E, 0x200F, .disallowed, []⟩,
  ⟨0x2010, 0x2010, .valid, []⟩,
  ⟨0x2011, 0x2011, .mapped, [0x2010]⟩,
  ⟨0x2012, 0x2016, .valid, []⟩,
  ⟨0x2017, 0x2017, .std3Mapped, [0x20, 0x333]⟩,
  ⟨0x2018, 0x2023, .valid, []⟩,
  ⟨0x2024, 0x2026, .disallowed, []⟩,
  ⟨0x2027, 0x2027, .valid, []⟩,
  ⟨0x2028, 0x202E, .disallowed, []⟩,
  ⟨0x202F, 0x202F, .std3Mapped, [0x20]⟩,
  ⟨0x2030, 0x2032, .valid, []⟩,
  ⟨0x2033, 0x2033, .mapped, [0x2032, 0x2032]⟩,
  ⟨0x2034, 0x2034, .mapped, [0x2032, 0x2032, 0x2032]⟩,
  ⟨0x2035, 0x2035, .valid, []⟩,
  ⟨0x2036, 0x2036, .mapped, [0x2035, 0x2035]⟩,
  ⟨0x2037, 0x2037, .mapped, [0x2035, 0x2035, 0x2035]⟩,
  ⟨0x2038, 0x203B, .valid, []⟩,
  ⟨0x203C, 0x203C, .std3Mapped, [0x21, 0x21]⟩,
  ⟨0x203D, 0x203D, .valid, []⟩,
  ⟨0x203E, 0x203E, .std3Mapped, [0x20, 0x305]⟩,
  ⟨0x203F, 0x2046, .valid, []⟩,
  ⟨0x2047, 0x2047, .std3Mapped, [0x3F, 0x3F]⟩,
  ⟨0x2048, 0x2048, .std3Mapped, [0x3F, 0x21]⟩,
  ⟨0x2049, 0x2049, .std3Mapped, [0x21, 0x3F]⟩,
  ⟨0x204A, 0x204D, .valid, []⟩,
  ⟨0x204E, 0x2052, .valid, []⟩,
  ⟨0x2053, 0x2054, .valid, []⟩,
  ⟨0x2055, 0x2056, .valid, []⟩,
  ⟨0x2057, 0x2057, .mapped, [0x2032, 0x2032, 0x2032, 0x2032]⟩,
  ⟨0x2058, 0x205E, .valid, []⟩,
  ⟨0x205F, 0x205F, .std3Mapped, [0x20]⟩,
  ⟨0x2060, 0x2060, .ignored, []⟩,
  ⟨0x2061, 0x2063, .disallowed, []⟩,
  ⟨0x2064, 0x2064, .ignored, []⟩,
  ⟨0x2065, 0x2065, .disallowed, []⟩,
  ⟨0x2066, 0x2069, .disallowed, []⟩,
  ⟨0x206A, 0x206F, .disallowed, []⟩,
  ⟨0x2070, 0x2070, .mapped, [0x30]⟩,
  ⟨0x2071, 0x2071, .mapped, [0x69]⟩,
  ⟨0x2072, 0x2073, .disallowed, []⟩,
  ⟨0x2074, 0x2074, .mapped, [0x34]⟩,
  ⟨0x2075, 0x2075, .mapped, [0x35]⟩,
  ⟨0x2076, 0x2076, .mapped, [0x36]⟩,
  ⟨0x2077, 0x2077, .mapped, [0x37]⟩,
  ⟨0x2078, 0x2078, .mapped, [0x38]⟩,
  ⟨0x2079, 0x2079, .mapped, [0x39]⟩,
  ⟨0x207A, 0x207A, .std3Mapped, [0x2B]⟩,
  ⟨0x207B, 0x207B, .mapped, [0x2212]⟩,
  ⟨0x207C, 0x207C, .std3Mapped, [0x3D]⟩,
  ⟨0x207D, 0x207D, .std3Mapped, [0x28]⟩,
  ⟨0x207E, 0x207E, .std3Mapped, [0x29]⟩,
  ⟨0x207F, 0x207F, .mapped, [0x6E]⟩,
  ⟨0x2080, 0x2080, .mapped, [0x30]⟩,
  ⟨0x2081, 0x2081, .mapped, [0x31]⟩,
  ⟨0x2082, 0x2082, .mapped, [0x32]⟩,
  ⟨0x2083, 0x2083, .mapped, [0x33]⟩,
  ⟨0x2084, 0x2084, .mapped, [0x34]⟩,
  ⟨0x2085, 0x2085, .mapped, [0x35]⟩,
  ⟨0x2086, 0x2086, .mapped, [0x36]⟩,
  ⟨0x2087, 0x2087, .mapped, [0x37]⟩,
  ⟨0x2088, 0x2088, .mapped, [0x38]⟩,
  ⟨0x2089, 0x2089, .mapped, [0x39]⟩,
  ⟨0x208A, 0x208A, .std3Mapped, [0x2B]⟩,
  ⟨0x208B, 0x208B, .mapped, [0x2212]⟩,
  ⟨0x208C, 0x208C, .std3Mapped, [0x3D]⟩,
  ⟨0x208D, 0x208D, .std3Mapped, [0x28]⟩,
  ⟨0x208E, 0x208E, .std3Mapped, [0x29]⟩,
  ⟨0x208F, 0x208F, .disallowed, []⟩,
  ⟨0x2090, 0x2090, .mapped, [0x61]⟩,
  ⟨0x2091, 0x2091, .mapped, [0x65]⟩,
  ⟨0x2092, 0x2092, .mapped, [0x6F]⟩,
  ⟨0x2093, 0x2093, .mapped, [0x78]⟩,
  ⟨0x2094, 0x2094, .mapped, [0x259]⟩,
  ⟨0x2095, 0x2095, .mapped, [0x68]⟩,
  ⟨0x2096, 0x2096, .mapped, [0x6B]⟩,
  ⟨0x2097, 0x2097, .mapped, [0x6C]⟩,
  ⟨0x2098, 0x2098, .mapped, [0x6D]⟩,
  ⟨0x2099, 0x2099, .mapped, [0x6E]⟩,
  ⟨0x209A, 0x209A, .mapped, [0x70]⟩,
  ⟨0x209B, 0x209B, .mapped, [0x73]⟩,
  ⟨0x209C, 0x209C, .mapped, [0x74]⟩,
  ⟨0x209D, 0x209F, .disallowed, []⟩,
  ⟨0x20A0, 0x20A7, .valid, []⟩,
  ⟨0x20A8, 0x20A8, .mapped, [0x72, 0x73]⟩,
  ⟨0x20A9, 0x20AA, .valid, []⟩,
  ⟨0x20AB, 0x20AB, .valid, []⟩,
  ⟨0x20AC, 0x20AC, .valid, []⟩,
  ⟨0x20AD, 0x20AF, .valid, []⟩,
  ⟨0x20B0, 0x20B1, .valid, []⟩,
  ⟨0x20B2, 0x20B5, .valid, []⟩,
  ⟨0x20B6, 0x20B8, .valid, []⟩,
  ⟨0x20B9, 0x20B9, .valid, []⟩,
  ⟨0x20BA, 0x20BA, .valid, []⟩,
  ⟨0x20BB, 0x20BD, .valid, []⟩,
  ⟨0x20BE, 0x20BE, .valid, []⟩,
  ⟨0x20BF, 0x20BF, .valid, []⟩,
  ⟨0x20C0, 0x20CF, .disallowed, []⟩,
  ⟨0x20D0, 0x20E1, .valid, []⟩,
  ⟨0x20E2, 0x20E3, .valid, []⟩,
  ⟨0x20E4, 0x20EA, .valid, []⟩,
  ⟨0x20EB, 0x20EB, .valid, []⟩,
  ⟨0x20EC, 0x20EF, .valid, []⟩,
  ⟨0x20F0, 0x20F0, .valid, []⟩,
  ⟨0x20F1, 0x20FF, .disallowed, []⟩,
  ⟨0x2100, 0x2100, .std3Mapped, [0x61, 0x2F, 0x63]⟩,
  ⟨0x2101, 0x2101, .std3Mapped, [0x61, 0x2F, 0x73]⟩,
  ⟨0x2102, 0x2102, .mapped, [0x63]⟩,
  ⟨0x2103, 0x2103, .mapped, [0xB0, 0x63]⟩,
  ⟨0x2104, 0x2104, .valid, []⟩,
  ⟨0x2105, 0x2105, .std3Mapped, [0x63, 0x2F, 0x6F]⟩,
  ⟨0x2106, 0x2106, .std3Mapped, [0x63, 0x2F, 0x75]⟩,
  ⟨0x2107, 0x2107, .mapped, [0x25B]⟩,
  ⟨0x2108, 0x2108, .valid, []⟩,
  ⟨0x2109, 0x2109, .mapped, [0xB0, 0x66]⟩,
  ⟨0x210A, 0x210A, .mapped, [0x67]⟩,
  ⟨0x210B, 0x210E, .mapped, [0x68]⟩,
  ⟨0x210F, 0x210F, .mapped, [0x127]⟩,
  ⟨0x2110, 0x2111, .mapped, [0x69]⟩,
  ⟨0x2112, 0x2113, .mapped, [0x6C]⟩,
  ⟨0x2114, 0x2114, .valid, []⟩,
  ⟨0x2115, 0x2115, .mapped, [0x6E]⟩,
  ⟨0x2116, 0x2116, .mapped, [0x6E, 0x6F]⟩,
  ⟨0x2117, 0x2118, .valid, []⟩,
  ⟨0x2119, 0x2119, .mapped, [0x70]⟩,
  ⟨0x211A, 0x211A, .mapped, [0x71]⟩,
  ⟨0x211B, 0x211D, .mapped, [0x72]⟩,
  ⟨0x211E, 0x211F, .valid, []⟩,
  ⟨0x2120, 0x2120, .mapped, [0x73, 0x6D]⟩,
  ⟨0x2121, 0x2121, .mapped, [0x74, 0x65, 0x6C]⟩,
  ⟨0x2122, 0x2122, .mapped, [0x74, 0x6D]⟩,
  ⟨0x2123, 0x2123, .valid, []⟩,
  ⟨0x2124, 0x2124, .mapped, [0x7A]⟩,
  ⟨0x2125, 0x2125, .valid, []⟩,
  ⟨0x2126, 0x2126, .mapped, [0x3C9]⟩,
  ⟨0x2127, 0x2127, .valid, []⟩,
  ⟨0x2128, 0x2128, .mapped, [0x7A]⟩,
  ⟨0x2129, 0x2129, .valid, []⟩,
  ⟨0x212A, 0x212A, .mapped, [0x6B]⟩,
  ⟨0x212B, 0x212B, .mapped, [0xE5]⟩,
  ⟨0x212C, 0x212C, .mapped, [0x62]⟩,
  ⟨0x212D, 0x212D, .mapped, [0x63]⟩,
  ⟨0x212E, 0x212E, .valid, []⟩,
  ⟨0x212F, 0x2130, .mapped, [0x65]⟩,
  ⟨0x2131, 0x2131, .mapped, [0x66]⟩,
  ⟨0x2132, 0x2132, .disallowed, []⟩,
  ⟨0x2133, 0x2133, .mapped, [0x6D]⟩,
  ⟨0x2134, 0x2134, .mapped, [0x6F]⟩,
  ⟨0x2135, 0x2135, .mapped, [0x5D0]⟩,
  ⟨0x2136, 0x2136, .mapped, [0x5D1]⟩,
  ⟨0x2137, 0x2137, .mapped, [0x5D2]⟩,
  ⟨0x2138, 0x2138, .mapped, [0x5D3]⟩,
  ⟨0x2139, 0x2139, .mapped, [0x69]⟩,
  ⟨0x213A, 0x213A, .valid, []⟩,
  ⟨0x213B, 0x213B, .mapped, [0x66, 0x61, 0x78]⟩,
  ⟨0x213C, 0x213C, .mapped, [0x3C0]⟩,
  ⟨0x213D, 0x213E, .mapped, [0x3B3]⟩,
  ⟨0x213F, 0x213F, .mapped, [0x3C0]⟩,
  ⟨0x2140, 0x2140, .mapped, [0x2211]⟩,
  ⟨0x2141, 0x2144, .valid, []⟩,
  ⟨0x2145, 0x2146, .mapped, [0x64]⟩,
  ⟨0x2147, 0x2147, .mapped, [0x65]⟩,
  ⟨0x2148, 0x2148, .mapped, [0x69]⟩,
  ⟨0x2149, 0x2149, .mapped, [0x6A]⟩,
  ⟨0x214A, 0x214B, .valid, []⟩,
  ⟨0x214C, 0x214C, .valid, []⟩,
  ⟨0x214D, 0x214D, .valid, []⟩,
  ⟨0x214E, 0x214E, .valid, []⟩,
  ⟨0x214F, 0x214F, .valid, []⟩,
  ⟨0x2150, 0x2150, .mapped, [0x31, 0x2044, 0x37]⟩,
  ⟨0x2151, 0x2151, .mapped, [0x31, 0x2044, 0x39]⟩,
  ⟨0x2152, 0x2152, .mapped, [0x31, 0x2044, 0x31, 0x30]⟩,
  ⟨0x2153, 0x2153, .mapped, [0x31, 0x2044, 0x33]⟩,
  ⟨0x2154, 0x2154, .mapped, [0x32, 0x2044, 0x33]⟩,
  ⟨0x2155, 0x2155, .mapped, [0x31, 0x2044, 0x35]⟩,
  ⟨0x2156, 0x2156, .mapped, [0x32, 0x2044, 0x35]⟩,
  ⟨0x2157, 0x2157, .mapped, [0x33, 0x2044, 0x35]⟩,
  ⟨0x2158, 0x2158, .mapped, [0x34, 0x2044, 0x35]⟩,
  ⟨0x2159, 0x2159, .mapped, [0x31, 0x2044, 0x36]⟩,
  ⟨0x215A, 0x215A, .mapped, [0x35, 0x2044, 0x36]⟩,
  ⟨0x215B, 0x215B, .mapped, [0x31, 0x2044, 0x38]⟩,
  ⟨0x215C, 0x215C, .mapped, [0x33, 0x2044, 0x38]⟩,
  ⟨0x215D, 0x215D, .mapped, [0x35, 0x2044, 0x38]⟩,
  ⟨0x215E, 0x215E, .mapped, [0x37, 0x2044, 0x38]⟩,
  ⟨0x215F, 0x215F, .mapped, [0x31, 0x2044]⟩]

def map10 : List MapRow := [
  ⟨0x2160, 0x2160, .mapped, [0x69]⟩,
  ⟨0x2161, 0x2161, .mapped, [0x69, 0x69]⟩,
  ⟨0x2162, 0x2162, .mapped, [0x69, 0x69, 0x69]⟩,
  ⟨0x2163, 0x2163, .mapped, [0x69, 0x76]⟩,
  ⟨0x2164, 0x2164, .mapped, [0x76]⟩,
  ⟨0x2165, 0x2165, .mapped, [0x76, 0x69]⟩,
  ⟨0x2166, 0x2166, .mapped, [0x76, 0x69, 0x69]⟩,
  ⟨0x2167, 0x2167, .mapped, [0x76, 0x69, 0x69, 0x69]⟩,
  ⟨0x2168, 0x2168, .mapped, [0x69, 0x78]⟩,
  ⟨0x2169, 0x2169, .mapped, [0x78]⟩,
  ⟨0x216A, 0x216A, .mapped, [0x78, 0x69]⟩,
  ⟨0x216B, 0x216B, .mapped, [0x78, 0x69, 0x69]⟩,
  ⟨0x216C, 0x216C, .mapped, [0x6C]⟩,
  ⟨0x216D, 0x216D, .mapped, [0x63]⟩,
  ⟨0x216E, 0x216E, .mapped, [0x64]⟩,
  ⟨0x216F, 0x216F, .mapped, [0x6D]⟩,
  ⟨0x2170, 0x2170, .mapped, [0x69]⟩,
  ⟨0x2171, 0x2171, .mapped, [0x69, 0x69]⟩,
  ⟨0x2172, 0x2172, .mapped, [0x69, 0x69, 0x69]⟩,
  ⟨0x2173, 0x2173, .mapped, [0x69, 0x76]⟩,
  ⟨0x2174, 0x2174, .mapped, [0x76]⟩,
  ⟨0x2175, 0x2175, .mapped, [0x76, 0x69]⟩,
  ⟨0x2176, 0x2176, .mapped, [0x76, 0x69, 0x69]⟩,
  ⟨0x2177, 0x2177, .mapped, [0x76, 0x69, 0x69, 0x69]⟩,
  ⟨0x2178, 0x2178, .mapped, [0x69, 0x78]⟩,
  ⟨0x2179, 0x2179, .mapped, [0x78]⟩,
  ⟨0x217A, 0x217A, .mapped, [0x78, 0x69]⟩,
  ⟨0x217B, 0x217B, .mapped, [0x78, 0x69, 0x69]⟩,
  ⟨0x217C, 0x217C, .mapped, [0x6C]⟩,
  ⟨0x217D, 0x217D, .mapped, [0x63]⟩,
  ⟨0x217E, 0x217E, .mapped, [0x64]⟩,
  ⟨0x217F, 0x217F, .mapped, [0x6D]⟩,
  ⟨0x2180, 0x2182, .valid, []⟩,
  ⟨0x2183, 0x2183, .disallowed, []⟩,
  ⟨0x2184, 0x2184, .valid, []⟩,
  ⟨0x2185, 0x2188, .valid, []⟩,
  ⟨0x2189, 0x2189, .mapped, [0x30, 0x2044, 0x33]⟩,
  ⟨0x218A, 0x218B, .valid, []⟩,
  ⟨0x218C, 0x218F, .disallowed, []⟩,
  ⟨0x2190, 0x21EA, .valid, []⟩,
  ⟨0x21EB, 0x21F3, .valid, []⟩,
  ⟨0x21F4, 0x21FF, .valid, []⟩,
  ⟨0x2200, 0x222B, .valid, []⟩,
  ⟨0x222C, 0x222C, .mapped, [0x222B, 0x222B]⟩,
  ⟨0x222D, 0x222D, .mapped, [0x222B, 0x222B, 0x222B]⟩,
  ⟨0x222E, 0x222E, .valid, []⟩,
  ⟨0x222F, 0x222F, .mapped, [0x222E, 0x222E]⟩,
  ⟨0x2230, 0x2230, .mapped, [0x222E, 0x222E, 0x222E]⟩,
  ⟨0x2231, 0x225F, .valid, []⟩,
  ⟨0x2260, 0x2260, .std3Valid, []⟩,
  ⟨0x2261, 0x226D, .valid, []⟩,
  ⟨0x226E, 0x226F, .std3Valid, []⟩,
  ⟨0x2270, 0x22F1, .valid, []⟩,
  ⟨0x22F2, 0x22FF, .valid, []⟩,
  ⟨0x2300, 0x2300, .valid, []⟩,
  ⟨0x2301, 0x2301, .valid, []⟩,
  ⟨0x2302, 0x2328, .valid, []⟩,
  ⟨0x2329, 0x2329, .mapped, [0x3008]⟩,
  ⟨0x232A, 0x232A, .mapped, [0x3009]⟩,
  ⟨0x232B, 0x237A, .valid, []⟩,
  ⟨0x237B, 0x237B, .valid, []⟩,
  ⟨0x237C, 0x237C, .valid, []⟩,
  ⟨0x237D, 0x239A, .valid, []⟩,
  ⟨0x239B, 0x23CE, .valid, []⟩,
  ⟨0x23CF, 0x23D0, .valid, []⟩,
  ⟨0x23D1, 0x23DB, .valid, []⟩,
  ⟨0x23DC, 0x23E7, .valid, []⟩,
  ⟨0x23E8, 0x23E8, .valid, []⟩,
  ⟨0x23E9, 0x23F3, .valid, []⟩,
  ⟨0x23F4, 0x23FA, .valid, []⟩,
  ⟨0x23FB, 0x23FE, .valid, []⟩,
  ⟨0x23FF, 0x23FF, .valid, []⟩,
  ⟨0x2400, 0x2424, .valid, []⟩,
  ⟨0x2425, 0x2426, .valid, []⟩,
  ⟨0x2427, 0x243F, .disallowed, []⟩,
  ⟨0x2440, 0x244A, .valid, []⟩,
  ⟨0x244B, 0x245F, .disallowed, []⟩,
  ⟨0x2460, 0x2460, .mapped, [0x31]⟩,
  ⟨0x2461, 0x2461, .mapped, [0x32]⟩,
  ⟨0x2462, 0x2462, .mapped, [0x33]⟩,
  ⟨0x2463, 0x2463, .mapped, [0x34]⟩,
  ⟨0x2464, 0x2464, .mapped, [0x35]⟩,
  ⟨0x2465, 0x2465, .mapped, [0x36]⟩,
  ⟨0x2466, 0x2466, .mapped, [0x37]⟩,
  ⟨0x2467, 0x2467, .mapped, [0x38]⟩,
  ⟨0x2468, 0x2468, .mapped, [0x39]⟩,
  ⟨0x2469, 0x2469, .mapped, [0x31, 0x30]⟩,
  ⟨0x246A, 0x246A, .mapped, [0x31, 0x31]⟩,
  ⟨0x246B, 0x246B, .mapped, [0x31, 0x32]⟩,
  ⟨0x246C, 0x246C, .mapped, [0x31, 0x33]⟩,
  ⟨0x246D, 0x246D, .mapped, [0x31, 0x34]⟩,
  ⟨0x246E, 0x246E, .mapped, [0x31, 0x35]⟩,
  ⟨0x246F, 0x246F, .mapped, [0x31, 0x36]⟩,
  ⟨0x2470, 0x2470, .mapped, [0x31, 0x37]⟩,
  ⟨0x2471, 0x2471, .mapped, [0x31, 0x38]⟩,
  ⟨0x2472, 0x2472, .mapped, [0x31, 0x39]⟩,
  ⟨0x2473, 0x2473, .mapped, [0x32, 0x30]⟩,
  ⟨0x2474, 0x2474, .std3Mapped, [0x28, 0x31, 0x29]⟩,
  ⟨0x2475, 0x2475, .std3Mapped, [0x28, 0x32, 0x29]⟩,
  ⟨0x2476, 0x2476, .std3Mapped, [0x28, 0x33, 0x29]⟩,
  ⟨0x2477, 0x2477, .std3Mapped, [0x28, 0x34, 0x29]⟩,
  ⟨0x2478, 0x2478, .std3Mapped, [0x28, 0x35, 0x29]⟩,
  ⟨0x2479, 0x2479, .std3Mapped, [0x28, 0x36, 0x29]⟩,
  ⟨0x247A, 0x247A, .std3Mapped, [0x28, 0x37, 0x29]⟩,
  ⟨0x247B, 0x247B, .std3Mapped, [0x28, 0x38, 0x29]⟩,
  ⟨0x247C, 0x247C, .std3Mapped, [0x28, 0x39, 0x29]⟩,
  ⟨0x247D, 0x247D, .std3Mapped, [0x28, 0x31, 0x30, 0x29]⟩,
  ⟨0x247E, 0x247E, .std3Mapped, [0x28, 0x31, 0x31, 0x29]⟩,
  ⟨0x247F, 0x247F, .std3Mapped, [0x28, 0x31, 0x32, 0x29]⟩,
  ⟨0x2480, 0x2480, .std3Mapped, [0x28, 0x31, 0x33, 0x29]⟩,
  ⟨0x2481, 0x2481, .std3Mapped, [0x28, 0x31, 0x34, 0x29]⟩,
  ⟨0x2482, 0x2482, .std3Mapped, [0x28, 0x31, 0x35, 0x29]⟩,
  ⟨0x2483, 0x2483, .std3Mapped, [0x28, 0x31, 0x36, 0x29]⟩,
  ⟨0x2484, 0x2484, .std3Mapped, [0x28, 0x31, 0x37, 0x29]⟩,
  ⟨0x2485, 0x2485, .std3Mapped, [0x28, 0x31, 0x38, 0x29]⟩,
  ⟨0x2486, 0x2486, .std3Mapped, [0x28, 0x31, 0x39, 0x29]⟩,
  ⟨0x2487, 0x2487, .std3Mapped, [0x28, 0x32, 0x30, 0x29]⟩,
  ⟨0x2488, 0x249B, .disallowed, []⟩,
  ⟨0x249C, 0x249C, .std3Mapped, [0x28, 0x61, 0x29]⟩,
  ⟨0x249D, 0x249D, .std3Mapped, [0x28, 0x62, 0x29]⟩,
  ⟨0x249E, 0x249E, .std3Mapped, [0x28, 0x63, 0x29]⟩,
  ⟨0x249F, 0x249F, .std3Mapped, [0x28, 0x64, 0x29]⟩,
  ⟨0x24A0, 0x24A0, .std3Mapped, [0x28, 0x65, 0x29]⟩,
  ⟨0x24A1, 0x24A1, .std3Mapped, [0x28, 0x66, 0x29]⟩,
  ⟨0x24A2, 0x24A2, .std3Mapped, [0x28, 0x67, 0x29]⟩,
  ⟨0x24A3, 0x24A3, .std3Mapped, [0x28, 0x68, 0x29]⟩,
  ⟨0x24A4, 0x24A4, .std3Mapped, [0x28, 0x69, 0x29]⟩,
  ⟨0x24A5, 0x24A5, .std3Mapped, [0x28, 0x6A, 0x29]⟩,
  ⟨0x24A6, 0x24A6, .std3Mapped, [0x28, 0x6B, 0x29]⟩,
  ⟨0x24A7, 0x24A7, .std3Mapped, [0x28, 0x6C, 0x29]⟩,
  ⟨0x24A8, 0x24A8, .std3Mapped, [0x28, 0x6D, 0x29]⟩,
  ⟨0x24A9, 0x24A9, .std3Mapped, [0x28, 0x6E, 0x29]⟩,
  ⟨0x24AA, 0x24AA, .std3Mapped, [0x28, 0x6F, 0x29]⟩,
  ⟨0x24AB, 0x24AB, .std3Mapped, [0x28, 0x70, 0x29]⟩,
  ⟨0x24AC, 0x24AC, .std3Mapped, [0x28, 0x71, 0x29]⟩,
  ⟨0x24AD, 0x24AD, .std3Mapped, [0x28, 0x72, 0x29]⟩,
  ⟨0x24AE, 0x24AE, .std3Mapped, [0x28, 0x73, 0x29]⟩,
  ⟨0x24AF, 0x24AF, .std3Mapped, [0x28, 0x74, 0x29]⟩,
  ⟨0x24B0, 0x24B0, .std3Mapped, [0x28, 0x75, 0x29]⟩,
  ⟨0x24B1, 0x24B1, .std3Mapped, [0x28, 0x76, 0x29]⟩,
  ⟨0x24B2, 0x24B2, .std3Mapped, [0x28, 0x77, 0x29]⟩,
  ⟨0x24B3, 0x24B3, .std3Mapped, [0x28, 0x78, 0x29]⟩,
  ⟨0x24B4, 0x24B4, .std3Mapped, [0x28, 0x79, 0x29]⟩,
  ⟨0x24B5, 0x24B5, .std3Mapped, [0x28, 0x7A, 0x29]⟩,
  ⟨0x24B6, 0x24B6, .mapped, [0x61]⟩,
  ⟨0x24B7, 0x24B7, .mapped, [0x62]⟩,
  ⟨0x24B8, 0x24B8, .mapped, [0x63]⟩,
  ⟨0x24B9, 0x24B9, .mapped, [0x64]⟩,
  ⟨0x24BA, 0x24BA, .mapped, [0x65]⟩,
  ⟨0x24BB, 0x24BB, .mapped, [0x66]⟩,
  ⟨0x24BC, 0x24BC, .mapped, [0x67]⟩,
  ⟨0x24BD, 0x24BD, .mapped, [0x68]⟩,
  ⟨0x24BE, 0x24BE, .mapped, [0x69]⟩,
  ⟨0x24BF, 0x24BF, .mapped, [0x6A]⟩,
  ⟨0x24C0, 0x24C0, .mapped, [0x6B]⟩,
  ⟨0x24C1, 0x24C1, .mapped, [0x6C]⟩,
  ⟨0x24C2, 0x24C2, .mapped, [0x6D]⟩,
  ⟨0x24C3, 0x24C3, .mapped, [0x6E]⟩,
  ⟨0x24C4, 0x24C4, .mapped, [0x6F]⟩,
  ⟨0x24C5, 0x24C5, .mapped, [0x70]⟩,
  ⟨0x24C6, 0x24C6, .mapped, [0x71]⟩,
  ⟨0x24C7, 0x24C7, .mapped, [0x72]⟩,
  ⟨0x24C8, 0x24C8, .mapped, [0x73]⟩,
  ⟨0x24C9, 0x24C9, .mapped, [0x74]⟩,
  ⟨0x24CA, 0x24CA, .mapped, [0x75]⟩,
  ⟨0x24CB, 0x24CB, .mapped, [0x76]⟩,
  ⟨0x24CC, 0x24CC, .mapped, [0x77]⟩,
  ⟨0x24CD, 0x24CD, .mapped, [0x78]⟩,
  ⟨0x24CE, 0x24CE, .mapped, [0x79]⟩,
  ⟨0x24CF, 0x24CF, .mapped, [0x7A]⟩,
  ⟨0x24D0, 0x24D0, .mapped, [0x61]⟩,
  ⟨0x24D1, 0x24D1, .mapped, [0x62]⟩,
  ⟨0x24D2, 0x24D2, .mapped, [0x63]⟩,
  ⟨0x24D3, 0x24D3, .mapped, [0x64]⟩,
  ⟨0x24D4, 0x24D4, .mapped, [0x65]⟩,
  ⟨0x24D5, 0x24D5, .mapped, [0x66]⟩,
  ⟨0x24D6, 0x24D6, .mapped, [0x67]⟩,
  ⟨0x24D7, 0x24D7, .mapped, [0x68]⟩,
  ⟨0x24D8, 0x24D8, .mapped, [0x69]⟩,
  ⟨0x24D9, 0x24D9, .mapped, [0x6A]⟩,
  ⟨0x24DA, 0x24DA, .mapped, [0x6B]⟩,
  ⟨0x24DB, 0x24DB, .mapped, [0x6C]⟩,
  ⟨0x24DC, 0x24DC, .mapped, [0x6D]⟩,
  ⟨0x24DD, 0x24DD, .mapped, [0x6E]⟩,
  ⟨0x24DE, 0x24DE, .mapped, [0x6F]⟩,
  ⟨0x24DF, 0x24DF, .mapped, [0x70]⟩,
  ⟨0x24E0, 0x24E0, .mapped, [0x71]⟩,
  ⟨0x24E1, 0x24E1, .mapped, [0x72]⟩,
  ⟨0x24E2, 0x24E2, .mapped, [0x73]⟩,
  ⟨0x24E3, 0x24E3, .mapped, [0x74]⟩,
  ⟨0x24E4, 0x24E4, .mapped, [0x75]⟩,
  ⟨0x24E5, 0x24E5, .mapped, [0x76]⟩,
  ⟨0x24E6, 0x24E6, .mapped, [0x77]⟩,
  ⟨0x24E7, 0x24E7, .mapped, [0x78]⟩,
  ⟨0x24E8, 0x24E8, .mapped, [0x79]⟩,
  ⟨0x24E9, 0x24E9, .mapped, [0x7A]⟩,
  ⟨0x24EA, 0x24EA, .mapped, [0x30]⟩,
  ⟨0x24EB, 0x24FE, .valid, []⟩,
  ⟨0x24FF, 0x24FF, .valid, []⟩,
  ⟨0x2500, 0x2595, .valid, []⟩,
  ⟨0x2596, 0x259F, .valid, []⟩,
  ⟨0x25A0, 0x25EF, .valid, []⟩,
  ⟨0x25F0, 0x25F7, .valid, []⟩,
  ⟨0x25F8, 0x25FF, .valid, []⟩,
  ⟨0x2600, 0x2613, .valid, []⟩,
  ⟨0x2614, 0x2615, .valid, []⟩,
  ⟨0x2616, 0x2617, .valid, []⟩,
  ⟨0x2618, 0x2618, .valid, []⟩,
  ⟨0x2619, 0x2619, .valid, []⟩,
  ⟨0x261A, 0x266F, .valid, []⟩,
  ⟨0x2670, 0x2671, .valid, []⟩,
  ⟨0x2672, 0x267D, .valid, []⟩,
  ⟨0x267E, 0x267F, .valid, []⟩,
  ⟨0x2680, 0x2689, .valid, []⟩,
  ⟨0x268A, 0x2691, .valid, []⟩,
  ⟨0x2692, 0x269C, .valid, []⟩,
  ⟨0x269D, 0x269D, .valid, []⟩,
  ⟨0x269E, 0x269F, .valid, []⟩,
  ⟨0x26A0, 0x26A1, .valid, []⟩,
  ⟨0x26A2, 0x26B1, .valid, []⟩,
  ⟨0x26B2, 0x26B2, .valid, []⟩,
  ⟨0x26B3, 0x26BC, .valid, []⟩,
  ⟨0x26BD, 0x26BF, .valid, []⟩,
  ⟨0x26C0, 0x26C3, .valid, []⟩,
  ⟨0x26C4, 0x26CD, .valid, []⟩,
  ⟨0x26CE, 0x26CE, .valid, []⟩,
  ⟨0x26CF, 0x26E1, .valid, []⟩,
  ⟨0x26E2, 0x26E2, .valid, []⟩,
  ⟨0x26E3, 0x26E3, .valid, []⟩,
  ⟨0x26E4, 0x26E7, .valid, []⟩,
  ⟨0x26E8, 0x26FF, .valid, []⟩,
  ⟨0x2700, 0x2700, .valid, []⟩,
  ⟨0x2701, 0x2704, .valid, []⟩,
  ⟨0x2705, 0x2705, .valid, []⟩,
  ⟨0x2706, 0x2709, .valid, []⟩,
  ⟨0x270A, 0x270B, .valid, []⟩,
  ⟨0x270C, 0x2727, .valid, []⟩,
  ⟨0x2728, 0x2728, .valid, []⟩,
  ⟨0x2729, 0x274B, .valid, []⟩,
  ⟨0x274C, 0x274C, .valid, []⟩,
  ⟨0x274D, 0x274D, .valid, []⟩,
  ⟨0x274E, 0x274E, .valid, []⟩,
  ⟨0x274F, 0x2752, .valid, []⟩,
  ⟨0x2753, 0x2755, .valid, []⟩,
  ⟨0x2756, 0x2756, .valid, []⟩,
  ⟨0x2757, 0x2757, .valid, []⟩,
  ⟨0x2758, 0x275E, .valid, []⟩,
  ⟨0x275F, 0x2760, .valid, []⟩,
  ⟨0x2761, 0x2767, .valid, []⟩,
  ⟨0x2768, 0x2775, .valid, []⟩]

def map11 : List MapRow := [
  ⟨0x2776, 0x2794, .valid, []⟩,
  ⟨0x2795, 0x2797, .valid, []⟩,
  ⟨0x2798, 0x27AF, .valid, []⟩,
  ⟨0x27B0, 0x27B0, .valid, []⟩,
  ⟨0x27B1, 0x27BE, .valid, []⟩,
  ⟨0x27BF, 0x27BF, .valid, []⟩,
  ⟨0x27C0, 0x27C6, .valid, []⟩,
  ⟨0x27C7, 0x27CA, .valid, []⟩,
  ⟨0x27CB, 0x27CB, .valid, []⟩,
  ⟨0x27CC, 0x27CC, .valid, []⟩,
  ⟨0x27CD, 0x27CD, .valid, []⟩,
  ⟨0x27CE, 0x27CF, .valid, []⟩,
  ⟨0x27D0, 0x27EB, .valid, []⟩,
  ⟨0x27EC, 0x27EF, .valid, []⟩,
  ⟨0x27F0, 0x27FF, .valid, []⟩,
  ⟨0x2800, 0x28FF, .valid, []⟩,
  ⟨0x2900, 0x2A0B, .valid, []⟩,
  ⟨0x2A0C, 0x2A0C, .mapped, [0x222B, 0x222B, 0x222B, 0x222B]⟩,
  ⟨0x2A0D, 0x2A73, .valid, []⟩,
  ⟨0x2A74, 0x2A74, .std3Mapped, [0x3A, 0x3A, 0x3D]⟩,
  ⟨0x2A75, 0x2A75, .std3Mapped, [0x3D, 0x3D]⟩,
  ⟨0x2A76, 0x2A76, .std3Mapped, [0x3D, 0x3D, 0x3D]⟩,
  ⟨0x2A77, 0x2ADB, .valid, []⟩,
  ⟨0x2ADC, 0x2ADC, .mapped, [0x2ADD, 0x338]⟩,
  ⟨0x2ADD, 0x2AFF, .valid, []⟩,
  ⟨0x2B00, 0x2B0D, .valid, []⟩,
  ⟨0x2B0E, 0x2B13, .valid, []⟩,
  ⟨0x2B14, 0x2B1A, .valid, []⟩,
  ⟨0x2B1B, 0x2B1F, .valid, []⟩,
  ⟨0x2B20, 0x2B23, .valid, []⟩,
  ⟨0x2B24, 0x2B4C, .valid, []⟩,
  ⟨0x2B4D, 0x2B4F, .valid, []⟩,
  ⟨0x2B50, 0x2B54, .valid, []⟩,
  ⟨0x2B55, 0x2B59, .valid, []⟩,
  ⟨0x2B5A, 0x2B73, .valid, []⟩,
  ⟨0x2B74, 0x2B75, .disallowed, []⟩,
  ⟨0x2B76, 0x2B95, .valid, []⟩,
  ⟨0x2B96, 0x2B96, .disallowed, []⟩,
  ⟨0x2B97, 0x2B97, .valid, []⟩,
  ⟨0x2B98, 0x2BB9, .valid, []⟩,
  ⟨0x2BBA, 0x2BBC, .valid, []⟩,
  ⟨0x2BBD, 0x2BC8, .valid, []⟩,
  ⟨0x2BC9, 0x2BC9, .valid, []⟩,
  ⟨0x2BCA, 0x2BD1, .valid, []⟩,
  ⟨0x2BD2, 0x2BD2, .valid, []⟩,
  ⟨0x2BD3, 0x2BEB, .valid, []⟩,
  ⟨0x2BEC, 0x2BEF, .valid, []⟩,
  ⟨0x2BF0, 0x2BFE, .valid, []⟩,
  ⟨0x2BFF, 0x2BFF, .valid, []⟩,
  ⟨0x2C00, 0x2C00, .mapped, [0x2C30]⟩,
  ⟨0x2C01, 0x2C01, .mapped, [0x2C31]⟩,
  ⟨0x2C02, 0x2C02, .mapped, [0x2C32]⟩,
  ⟨0x2C03, 0x2C03, .mapped, [0x2C33]⟩,
  ⟨0x2C04, 0x2C04, .mapped, [0x2C34]⟩,
  ⟨0x2C05, 0x2C05, .mapped, [0x2C35]⟩,
  ⟨0x2C06, 0x2C06, .mapped, [0x2C36]⟩,
  ⟨0x2C07, 0x2C07, .mapped, [0x2C37]⟩,
  ⟨0x2C08, 0x2C08, .mapped, [0x2C38]⟩,
  ⟨0x2C09, 0x2C09, .mapped, [0x2C39]⟩,
  ⟨0x2C0A, 0x2C0A, .mapped, [0x2C3A]⟩,
  ⟨0x2C0B, 0x2C0B, .mapped, [0x2C3B]⟩,
  ⟨0x2C0C, 0x2C0C, .mapped, [0x2C3C]⟩,
  ⟨0x2C0D, 0x2C0D, .mapped, [0x2C3D]⟩,
  ⟨0x2C0E, 0x2C0E, .mapped, [0x2C3E]⟩,
  ⟨0x2C0F, 0x2C0F, .mapped, [0x2C3F]⟩,
  ⟨0x2C10, 0x2C10, .mapped, [0x2C40]⟩,
  ⟨0x2C11, 0x2C11, .mapped, [0x2C41]⟩,
  ⟨0x2C12, 0x2C12, .mapped, [0x2C42]⟩,
  ⟨0x2C13, 0x2C13, .mapped, [0x2C43]⟩,
  ⟨0x2C14, 0x2C14, .mapped, [0x2C44]⟩,
  ⟨0x2C15, 0x2C15, .mapped, [0x2C45]⟩,
  ⟨0x2C16, 0x2C16, .mapped, [0x2C46]⟩,
  ⟨0x2C17, 0x2C17, .mapped, [0x2C47]⟩,
  ⟨0x2C18, 0x2C18, .mapped, [0x2C48]⟩,
  ⟨0x2C19, 0x2C19, .mapped, [0x2C49]⟩,
  ⟨0x2C1A, 0x2C1A, .mapped, [0x2C4A]⟩,
  ⟨0x2C1B, 0x2C1B, .mapped, [0x2C4B]⟩,
  ⟨0x2C1C, 0x2C1C, .mapped, [0x2C4C]⟩,
  ⟨0x2C1D, 0x2C1D, .mapped, [0x2C4D]⟩,
  ⟨0x2C1E, 0x2C1E, .mapped, [0x2C4E]⟩,
  ⟨0x2C1F, 0x2C1F, .mapped, [0x2C4F]⟩,
  ⟨0x2C20, 0x2C20, .mapped, [0x2C50]⟩,
  ⟨0x2C21, 0x2C21, .mapped, [0x2C51]⟩,
  ⟨0x2C22, 0x2C22, .mapped, [0x2C52]⟩,
  ⟨0x2C23, 0x2C23, .mapped, [0x2C53]⟩,
  ⟨0x2C24, 0x2C24, .mapped, [0x2C54]⟩,
  ⟨0x2C25, 0x2C25, .mapped, [0x2C55]⟩,
  ⟨0x2C26, 0x2C26, .mapped, [0x2C56]⟩,
  ⟨0x2C27, 0x2C27, .mapped, [0x2C57]⟩,
  ⟨0x2C28, 0x2C28, .mapped, [0x2C58]⟩,
  ⟨0x2C29, 0x2C29, .mapped, [0x2C59]⟩,
  ⟨0x2C2A, 0x2C2A, .mapped, [0x2C5A]⟩,
  ⟨0x2C2B, 0x2C2B, .mapped, [0x2C5B]⟩,
  ⟨0x2C2C, 0x2C2C, .mapped, [0x2C5C]⟩,
  ⟨0x2C2D, 0x2C2D, .mapped, [0x2C5D]⟩,
  ⟨0x2C2E, 0x2C2E, .mapped, [0x2C5E]⟩,
  ⟨0x2C2F, 0x2C2F, .disallowed, []⟩,
  ⟨0x2C30, 0x2C5E, .valid, []⟩,
  ⟨0x2C5F, 0x2C5F, .disallowed, []⟩,
  ⟨0x2C60, 0x2C60, .mapped, [0x2C61]⟩,
  ⟨0x2C61, 0x2C61, .valid, []⟩,
  ⟨0x2C62, 0x2C62, .mapped, [0x26B]⟩,
  ⟨0x2C63, 0x2C63, .mapped, [0x1D7D]⟩,
  ⟨0x2C64, 0x2C64, .mapped, [0x27D]⟩,
  ⟨0x2C65, 0x2C66, .valid, []⟩,
  ⟨0x2C67, 0x2C67, .mapped, [0x2C68]⟩,
  ⟨0x2C68, 0x2C68, .valid, []⟩,
  ⟨0x2C69, 0x2C69, .mapped, [0x2C6A]⟩,
  ⟨0x2C6A, 0x2C6A, .valid, []⟩,
  ⟨0x2C6B, 0x2C6B, .mapped, [0x2C6C]⟩,
  ⟨0x2C6C, 0x2C6C, .valid, []⟩,
  ⟨0x2C6D, 0x2C6D, .mapped, [0x251]⟩,
  ⟨0x2C6E, 0x2C6E, .mapped, [0x271]⟩,
  ⟨0x2C6F, 0x2C6F, .mapped, [0x250]⟩,
  ⟨0x2C70, 0x2C70, .mapped, [0x252]⟩,
  ⟨0x2C71, 0x2C71, .valid, []⟩,
  ⟨0x2C72, 0x2C72, .mapped, [0x2C73]⟩,
  ⟨0x2C73, 0x2C73, .valid, []⟩,
  ⟨0x2C74, 0x2C74, .valid, []⟩,
  ⟨0x2C75, 0x2C75, .mapped, [0x2C76]⟩,
  ⟨0x2C76, 0x2C77, .valid, []⟩,
  ⟨0x2C78, 0x2C7B, .valid, []⟩,
  ⟨0x2C7C, 0x2C7C, .mapped, [0x6A]⟩,
  ⟨0x2C7D, 0x2C7D, .mapped, [0x76]⟩,
  ⟨0x2C7E, 0x2C7E, .mapped, [0x23F]⟩,
  ⟨0x2C7F, 0x2C7F, .mapped, [0x240]⟩,
  ⟨0x2C80, 0x2C80, .mapped, [0x2C81]⟩,
  ⟨0x2C81, 0x2C81, .valid, []⟩,
  ⟨0x2C82, 0x2C82, .mapped, [0x2C83]⟩,
  ⟨0x2C83, 0x2C83, .valid, []⟩,
  ⟨0x2C84, 0x2C84, .mapped, [0x2C85]⟩,
  ⟨0x2C85, 0x2C85, .valid, []⟩,
  ⟨0x2C86, 0x2C86, .mapped, [0x2C87]⟩,
  ⟨0x2C87, 0x2C87, .valid, []⟩,
  ⟨0x2C88, 0x2C88, .mapped, [0x2C89]⟩,
  ⟨0x2C89, 0x2C89, .valid, []⟩,
  ⟨0x2C8A, 0x2C8A, .mapped, [0x2C8B]⟩,
  ⟨0x2C8B, 0x2C8B, .valid, []⟩,
  ⟨0x2C8C, 0x2C8C, .mapped, [0x2C8D]⟩,
  ⟨0x2C8D, 0x2C8D, .valid, []⟩,
  ⟨0x2C8E, 0x2C8E, .mapped, [0x2C8F]⟩,
  ⟨0x2C8F, 0x2C8F, .valid, []⟩,
  ⟨0x2C90, 0x2C90, .mapped, [0x2C91]⟩,
  ⟨0x2C91, 0x2C91, .valid, []⟩,
  ⟨0x2C92, 0x2C92, .mapped, [0x2C93]⟩,
  ⟨0x2C93, 0x2C93, .valid, []⟩,
  ⟨0x2C94, 0x2C94, .mapped, [0x2C95]⟩,
  ⟨0x2C95, 0x2C95, .valid, []⟩,
  ⟨0x2C96, 0x2C96, .mapped, [0x2C97]⟩,
  ⟨0x2C97, 0x2C97, .valid, []⟩,
  ⟨0x2C98, 0x2C98, .mapped, [0x2C99]⟩,
  ⟨0x2C99, 0x2C99, .valid, []⟩,
  ⟨0x2C9A, 0x2C9A, .mapped, [0x2C9B]⟩,
  ⟨0x2C9B, 0x2C9B, .valid, []⟩,
  ⟨0x2C9C, 0x2C9C, .mapped, [0x2C9D]⟩,
  ⟨0x2C9D, 0x2C9D, .valid, []⟩,
  ⟨0x2C9E, 0x2C9E, .mapped, [0x2C9F]⟩,
  ⟨0x2C9F, 0x2C9F, .valid, []⟩,
  ⟨0x2CA0, 0x2CA0, .mapped, [0x2CA1]⟩,
  ⟨0x2CA1, 0x2CA1, .valid, []⟩,
  ⟨0x2CA2, 0x2CA2, .mapped, [0x2CA3]⟩,
  ⟨0x2CA3, 0x2CA3, .valid, []⟩,
  ⟨0x2CA4, 0x2CA4, .mapped, [0x2CA5]⟩,
  ⟨0x2CA5, 0x2CA5, .valid, []⟩,
  ⟨0x2CA6, 0x2CA6, .mapped, [0x2CA7]⟩,
  ⟨0x2CA7, 0x2CA7, .valid, []⟩,
  ⟨0x2CA8, 0x2CA8, .mapped, [0x2CA9]⟩,
  ⟨0x2CA9, 0x2CA9, .valid, []⟩,
  ⟨0x2CAA, 0x2CAA, .mapped, [0x2CAB]⟩,
  ⟨0x2CAB, 0x2CAB, .valid, []⟩,
  ⟨0x2CAC, 0x2CAC, .mapped, [0x2CAD]⟩,
  ⟨0x2CAD, 0x2CAD, .valid, []⟩,
  ⟨0x2CAE, 0x2CAE, .mapped, [0x2CAF]⟩,
  ⟨0x2CAF, 0x2CAF, .valid, []⟩,
  ⟨0x2CB0, 0x2CB0, .mapped, [0x2CB1]⟩,
  ⟨0x2CB1, 0x2CB1, .valid, []⟩,
  ⟨0x2CB2, 0x2CB2, .mapped, [0x2CB3]⟩,
  ⟨0x2CB3, 0x2CB3, .valid, []⟩,
  ⟨0x2CB4, 0x2CB4, .mapped, [0x2CB5]⟩,
  ⟨0x2CB5, 0x2CB5, .valid, []⟩,
  ⟨0x2CB6, 0x2CB6, .mapped, [0x2CB7]⟩,
  ⟨0x2CB7, 0x2CB7, .valid, []⟩,
  ⟨0x2CB8, 0x2CB8, .mapped, [0x2CB9]⟩,
  ⟨0x2CB9, 0x2CB9, .valid, []⟩,
  ⟨0x2CBA, 0x2CBA, .mapped, [0x2CBB]⟩,
  ⟨0x2CBB, 0x2CBB, .valid, []⟩,
  ⟨0x2CBC, 0x2CBC, .mapped, [0x2CBD]⟩,
  ⟨0x2CBD, 0x2CBD, .valid, []⟩,
  ⟨0x2CBE, 0x2CBE, .mapped, [0x2CBF]⟩,
  ⟨0x2CBF, 0x2CBF, .valid, []⟩,
  ⟨0x2CC0, 0x2CC0, .mapped, [0x2CC1]⟩,
  ⟨0x2CC1, 0x2CC1, .valid, []⟩,
  ⟨0x2CC2, 0x2CC2, .mapped, [0x2CC3]⟩,
  ⟨0x2CC3, 0x2CC3, .valid, []⟩,
  ⟨0x2CC4, 0x2CC4, .mapped, [0x2CC5]⟩,
  ⟨0x2CC5, 0x2CC5, .valid, []⟩,
  ⟨0x2CC6, 0x2CC6, .mapped, [0x2CC7]⟩,
  ⟨0x2CC7, 0x2CC7, .valid, []⟩,
  ⟨0x2CC8, 0x2CC8, .mapped, [0x2CC9]⟩,
  ⟨0x2CC9, 0x2CC9, .valid, []⟩,
  ⟨0x2CCA, 0x2CCA, .mapped, [0x2CCB]⟩,
  ⟨0x2CCB, 0x2CCB, .valid, []⟩,
  ⟨0x2CCC, 0x2CCC, .mapped, [0x2CCD]⟩,
  ⟨0x2CCD, 0x2CCD, .valid, []⟩,
  ⟨0x2CCE, 0x2CCE, .mapped, [0x2CCF]⟩,
  ⟨0x2CCF, 0x2CCF, .valid, []⟩,
  ⟨0x2CD0, 0x2CD0, .mapped, [0x2CD1]⟩,
  ⟨0x2CD1, 0x2CD1, .valid, []⟩,
  ⟨0x2CD2, 0x2CD2, .mapped, [0x2CD3]⟩,
  ⟨0x2CD3, 0x2CD3, .valid, []⟩,
  ⟨0x2CD4, 0x2CD4, .mapped, [0x2CD5]⟩,
  ⟨0x2CD5, 0x2CD5, .valid, []⟩,
  ⟨0x2CD6, 0x2CD6, .mapped, [0x2CD7]⟩,
  ⟨0x2CD7, 0x2CD7, .valid, []⟩,
  ⟨0x2CD8, 0x2CD8, .mapped, [0x2CD9]⟩,
  ⟨0x2CD9, 0x2CD9, .valid, []⟩,
  ⟨0x2CDA, 0x2CDA, .mapped, [0x2CDB]⟩,
  ⟨0x2CDB, 0x2CDB, .valid, []⟩,
  ⟨0x2CDC, 0x2CDC, .mapped, [0x2CDD]⟩,
  ⟨0x2CDD, 0x2CDD, .valid, []⟩,
  ⟨0x2CDE, 0x2CDE, .mapped, [0x2CDF]⟩,
  ⟨0x2CDF, 0x2CDF, .valid, []⟩,
  ⟨0x2CE0, 0x2CE0, .mapped, [0x2CE1]⟩,
  ⟨0x2CE1, 0x2CE1, .valid, []⟩,
  ⟨0x2CE2, 0x2CE2, .mapped, [0x2CE3]⟩,
  ⟨0x2CE3, 0x2CE4, .valid, []⟩,
  ⟨0x2CE5, 0x2CEA, .valid, []⟩,
  ⟨0x2CEB, 0x2CEB, .mapped, [0x2CEC]⟩,
  ⟨0x2CEC, 0x2CEC, .valid, []⟩,
  ⟨0x2CED, 0x2CED, .mapped, [0x2CEE]⟩,
  ⟨0x2CEE, 0x2CF1, .valid, []⟩,
  ⟨0x2CF2, 0x2CF2, .mapped, [0x2CF3]⟩,
  ⟨0x2CF3, 0x2CF3, .valid, []⟩,
  ⟨0x2CF4, 0x2CF8, .disallowed, []⟩,
  ⟨0x2CF9, 0x2CFF, .valid, []⟩,
  ⟨0x2D00, 0x2D25, .valid, []⟩,
  ⟨0x2D26, 0x2D26, .disallowed, []⟩,
  ⟨0x2D27, 0x2D27, .valid, []⟩,
  ⟨0x2D28, 0x2D2C, .disallowed, []⟩,
  ⟨0x2D2D, 0x2D2D, .valid, []⟩,
  ⟨0x2D2E, 0x2D2F, .disallowed, []⟩,
  ⟨0x2D30, 0x2D65, .valid, []⟩,
  ⟨0x2D66, 0x2D67, .valid, []⟩,
  ⟨0x2D68, 0x2D6E, .disallowed, []⟩,
  ⟨0x2D6F, 0x2D6F, .mapped, [0x2D61]⟩,
  ⟨0x2D70, 0x2D70, .valid, []⟩,
  ⟨0x2D71, 0x2D7E, .disallowed, []⟩,
  ⟨0x2D7F, 0x2D7F, .valid, []⟩,
  ⟨0x2D80, 0x2D96, .valid, []⟩,
  ⟨0x2D97, 0x2D9F, .disallowed, []⟩]

def map12 : List MapRow := [
  ⟨0x2DA0, 0x2DA6, .valid, []⟩,
  ⟨0x2DA7, 0x2DA7, .disallowed, []⟩,
  ⟨0x2DA8, 0x2DAE, .valid, []⟩,
  ⟨0x2DAF, 0x2DAF, .disallowed, []⟩,
  ⟨0x2DB0, 0x2DB6, .valid, []⟩,
  ⟨0x2DB7, 0x2DB7, .disallowed, []⟩,
  ⟨0x2DB8, 0x2DBE, .valid, []⟩,
  ⟨0x2DBF, 0x2DBF, .disallowed, []⟩,
  ⟨0x2DC0, 0x2DC6, .valid, []⟩,
  ⟨0x2DC7, 0x2DC7, .disallowed, []⟩,
  ⟨0x2DC8, 0x2DCE, .valid, []⟩,
  ⟨0x2DCF, 0x2DCF, .disallowed, []⟩,
  ⟨0x2DD0, 0x2DD6, .valid, []⟩,
  ⟨0x2DD7, 0x2DD7, .disallowed, []⟩,
  ⟨0x2DD8, 0x2DDE, .valid, []⟩,
  ⟨0x2DDF, 0x2DDF, .disallowed, []⟩,
  ⟨0x2DE0, 0x2DFF, .valid, []⟩,
  ⟨0x2E00, 0x2E17, .valid, []⟩,
  ⟨0x2E18, 0x2E1B, .valid, []⟩,
  ⟨0x2E1C, 0x2E1D, .valid, []⟩,
  ⟨0x2E1E, 0x2E2E, .valid, []⟩,
  ⟨0x2E2F, 0x2E2F, .valid, []⟩,
  ⟨0x2E30, 0x2E30, .valid, []⟩,
  ⟨0x2E31, 0x2E31, .valid, []⟩,
  ⟨0x2E32, 0x2E3B, .valid, []⟩,
  ⟨0x2E3C, 0x2E42, .valid, []⟩,
  ⟨0x2E43, 0x2E44, .valid, []⟩,
  ⟨0x2E45, 0x2E49, .valid, []⟩,
  ⟨0x2E4A, 0x2E4E, .valid, []⟩,
  ⟨0x2E4F, 0x2E4F, .valid, []⟩,
  ⟨0x2E50, 0x2E52, .valid, []⟩,
  ⟨0x2E53, 0x2E7F, .disallowed, []⟩,
  ⟨0x2E80, 0x2E99, .valid, []⟩,
  ⟨0x2E9A, 0x2E9A, .disallowed, []⟩,
  ⟨0x2E9B, 0x2E9E, .valid, []⟩,
  ⟨0x2E9F, 0x2E9F, .mapped, [0x6BCD]⟩,
  ⟨0x2EA0, 0x2EF2, .valid, []⟩,
  ⟨0x2EF3, 0x2EF3, .mapped, [0x9F9F]⟩,
  ⟨0x2EF4, 0x2EFF, .disallowed, []⟩,
  ⟨0x2F00, 0x2F00, .mapped, [0x4E00]⟩,
  ⟨0x2F01, 0x2F01, .mapped, [0x4E28]⟩,
  ⟨0x2F02, 0x2F02, .mapped, [0x4E36]⟩,
  ⟨0x2F03, 0x2F03, .mapped, [0x4E3F]⟩,
  ⟨0x2F04, 0x2F04, .mapped, [0x4E59]⟩,
  ⟨0x2F05, 0x2F05, .mapped, [0x4E85]⟩,
  ⟨0x2F06, 0x2F06, .mapped, [0x4E8C]⟩,
  ⟨0x2F07, 0x2F07, .mapped, [0x4EA0]⟩,
  ⟨0x2F08, 0x2F08, .mapped, [0x4EBA]⟩,
  ⟨0x2F09, 0x2F09, .mapped, [0x513F]⟩,
  ⟨0x2F0A, 0x2F0A, .mapped, [0x5165]⟩,
  ⟨0x2F0B, 0x2F0B, .mapped, [0x516B]⟩,
  ⟨0x2F0C, 0x2F0C, .mapped, [0x5182]⟩,
  ⟨0x2F0D, 0x2F0D, .mapped, [0x5196]⟩,
  ⟨0x2F0E, 0x2F0E, .mapped, [0x51AB]⟩,
  ⟨0x2F0F, 0x2F0F, .mapped, [0x51E0]⟩,
  ⟨0x2F10, 0x2F10, .mapped, [0x51F5]⟩,
  ⟨0x2F11, 0x2F11, .mapped, [0x5200]⟩,
  ⟨0x2F12, 0x2F12, .mapped, [0x529B]⟩,
  ⟨0x2F13, 0x2F13, .mapped, [0x52F9]⟩,
  ⟨0x2F14, 0x2F14, .mapped, [0x5315]⟩,
  ⟨0x2F15, 0x2F15, .mapped, [0x531A]⟩,
  ⟨0x2F16, 0x2F16, .mapped, [0x5338]⟩,
  ⟨0x2F17, 0x2F17, .mapped, [0x5341]⟩,
  ⟨0x2F18, 0x2F18, .mapped, [0x535C]⟩,
  ⟨0x2F19, 0x2F19, .mapped, [0x5369]⟩,
  ⟨0x2F1A, 0x2F1A, .mapped, [0x5382]⟩,
  ⟨0x2F1B, 0x2F1B, .mapped, [0x53B6]⟩,
  ⟨0x2F1C, 0x2F1C, .mapped, [0x53C8]⟩,
  ⟨0x2F1D, 0x2F1D, .mapped, [0x53E3]⟩,
  ⟨0x2F1E, 0x2F1E, .mapped, [0x56D7]⟩,
  ⟨0x2F1F, 0x2F1F, .mapped, [0x571F]⟩,
  ⟨0x2F20, 0x2F20, .mapped, [0x58EB]⟩,
  ⟨0x2F21, 0x2F21, .mapped, [0x5902]⟩,
  ⟨0x2F22, 0x2F22, .mapped, [0x590A]⟩,
  ⟨0x2F23, 0x2F23, .mapped, [0x5915]⟩,
  ⟨0x2F24, 0x2F24, .mapped, [0x5927]⟩,
  ⟨0x2F25, 0x2F25, .mapped, [0x5973]⟩,
  ⟨0x2F26, 0x2F26, .mapped, [0x5B50]⟩,
  ⟨0x2F27, 0x2F27, .mapped, [0x5B80]⟩,
  ⟨0x2F28, 0x2F28, .mapped, [0x5BF8]⟩,
  ⟨0x2F29, 0x2F29, .mapped, [0x5C0F]⟩,
  ⟨0x2F2A, 0x2F2A, .mapped, [0x5C22]⟩,
  ⟨0x2F2B, 0x2F2B, .mapped, [0x5C38]⟩,
  ⟨0x2F2C, 0x2F2C, .mapped, [0x5C6E]⟩,
  ⟨0x2F2D, 0x2F2D, .mapped, [0x5C71]⟩,
  ⟨0x2F2E, 0x2F2E, .mapped, [0x5DDB]⟩,
  ⟨0x2F2F, 0x2F2F, .mapped, [0x5DE5]⟩,
  ⟨0x2F30, 0x2F30, .mapped, [0x5DF1]⟩,
  ⟨0x2F31, 0x2F31, .mapped, [0x5DFE]⟩,
  ⟨0x2F32, 0x2F32, .mapped, [0x5E72]⟩,
  ⟨0x2F33, 0x2F33, .mapped, [0x5E7A]⟩,
  ⟨0x2F34, 0x2F34, .mapped, [0x5E7F]⟩,
  ⟨0x2F35, 0x2F35, .mapped, [0x5EF4]⟩,
  ⟨0x2F36, 0x2F36, .mapped, [0x5EFE]⟩,
  ⟨0x2F37, 0x2F37, .mapped, [0x5F0B]⟩,
  ⟨0x2F38, 0x2F38, .mapped, [0x5F13]⟩,
  ⟨0x2F39, 0x2F39, .mapped, [0x5F50]⟩,
  ⟨0x2F3A, 0x2F3A, .mapped, [0x5F61]⟩,
  ⟨0x2F3B, 0x2F3B, .mapped, [0x5F73]⟩,
  ⟨0x2F3C, 0x2F3C, .mapped, [0x5FC3]⟩,
  ⟨0x2F3D, 0x2F3D, .mapped, [0x6208]⟩,
  ⟨0x2F3E, 0x2F3E, .mapped, [0x6236]⟩,
  ⟨0x2F3F, 0x2F3F, .mapped, [0x624B]⟩,
  ⟨0x2F40, 0x2F40, .mapped, [0x652F]⟩,
  ⟨0x2F41, 0x2F41, .mapped, [0x6534]⟩,
  ⟨0x2F42, 0x2F42, .mapped, [0x6587]⟩,
  ⟨0x2F43, 0x2F43, .mapped, [0x6597]⟩,
  ⟨0x2F44, 0x2F44, .mapped, [0x65A4]⟩,
  ⟨0x2F45, 0x2F45, .mapped, [0x65B9]⟩,
  ⟨0x2F46, 0x2F46, .mapped, [0x65E0]⟩,
  ⟨0x2F47, 0x2F47, .mapped, [0x65E5]⟩,
  ⟨0x2F48, 0x2F48, .mapped, [0x66F0]⟩,
  ⟨0x2F49, 0x2F49, .mapped, [0x6708]⟩,
  ⟨0x2F4A, 0x2F4A, .mapped, [0x6728]⟩,
  ⟨0x2F4B, 0x2F4B, .mapped, [0x6B20]⟩,
  ⟨0x2F4C, 0x2F4C, .mapped, [0x6B62]⟩,
  ⟨0x2F4D, 0x2F4D, .mapped, [0x6B79]⟩,
  ⟨0x2F4E, 0x2F4E, .mapped, [0x6BB3]⟩,
  ⟨0x2F4F, 0x2F4F, .mapped, [0x6BCB]⟩,
  ⟨0x2F50, 0x2F50, .mapped, [0x6BD4]⟩,
  ⟨0x2F51, 0x2F51, .mapped, [0x6BDB]⟩,
  ⟨0x2F52, 0x2F52, .mapped, [0x6C0F]⟩,
  ⟨0x2F53, 0x2F53, .mapped, [0x6C14]⟩,
  ⟨0x2F54, 0x2F54, .mapped, [0x6C34]⟩,
  ⟨0x2F55, 0x2F55, .mapped, [0x706B]⟩,
  ⟨0x2F56, 0x2F56, .mapped, [0x722A]⟩,
  ⟨0x2F57, 0x2F57, .mapped, [0x7236]⟩,
  ⟨0x2F58, 0x2F58, .mapped, [0x723B]⟩,
  ⟨0x2F59, 0x2F59, .mapped, [0x723F]⟩,
  ⟨0x2F5A, 0x2F5A, .mapped, [0x7247]⟩,
  ⟨0x2F5B, 0x2F5B, .mapped, [0x7259]⟩,
  ⟨0x2F5C, 0x2F5C, .mapped, [0x725B]⟩,
  ⟨0x2F5D, 0x2F5D, .mapped, [0x72AC]⟩,
  ⟨0x2F5E, 0x2F5E, .mapped, [0x7384]⟩,
  ⟨0x2F5F, 0x2F5F, .mapped, [0x7389]⟩,
  ⟨0x2F60, 0x2F60, .mapped, [0x74DC]⟩,
  ⟨0x2F61, 0x2F61, .mapped, [0x74E6]⟩,
  ⟨0x2F62, 0x2F62, .mapped, [0x7518]⟩,
  ⟨0x2F63, 0x2F63, .mapped, [0x751F]⟩,
  ⟨0x2F64, 0x2F64, .mapped, [0x7528]⟩,
  ⟨0x2F65, 0x2F65, .mapped, [0x7530]⟩,
  ⟨0x2F66, 0x2F66, .mapped, [0x758B]⟩,
  ⟨0x2F67, 0x2F67, .mapped, [0x7592]⟩,
  ⟨0x2F68, 0x2F68, .mapped, [0x7676]⟩,
  ⟨0x2F69, 0x2F69, .mapped, [0x767D]⟩,
  ⟨0x2F6A, 0x2F6A, .mapped, [0x76AE]⟩,
  ⟨0x2F6B, 0x2F6B, .mapped, [0x76BF]⟩,
  ⟨0x2F6C, 0x2F6C, .mapped, [0x76EE]⟩,
  ⟨0x2F6D, 0x2F6D, .mapped, [0x77DB]⟩,
  ⟨0x2F6E, 0x2F6E, .mapped, [0x77E2]⟩,
  ⟨0x2F6F, 0x2F6F, .mapped, [0x77F3]⟩,
  ⟨0x2F70, 0x2F70, .mapped, [0x793A]⟩,
  ⟨0x2F71, 0x2F71, .mapped, [0x79B8]⟩,
  ⟨0x2F72, 0x2F72, .mapped, [0x79BE]⟩,
  ⟨0x2F73, 0x2F73, .mapped, [0x7A74]⟩,
  ⟨0x2F74, 0x2F74, .mapped, [0x7ACB]⟩,
  ⟨0x2F75, 0x2F75, .mapped, [0x7AF9]⟩,
  ⟨0x2F76, 0x2F76, .mapped, [0x7C73]⟩,
  ⟨0x2F77, 0x2F77, .mapped, [0x7CF8]⟩,
  ⟨0x2F78, 0x2F78, .mapped, [0x7F36]⟩,
  ⟨0x2F79, 0x2F79, .mapped, [0x7F51]⟩,
  ⟨0x2F7A, 0x2F7A, .mapped, [0x7F8A]⟩,
  ⟨0x2F7B, 0x2F7B, .mapped, [0x7FBD]⟩,
  ⟨0x2F7C, 0x2F7C, .mapped, [0x8001]⟩,
  ⟨0x2F7D, 0x2F7D, .mapped, [0x800C]⟩,
  ⟨0x2F7E, 0x2F7E, .mapped, [0x8012]⟩,
  ⟨0x2F7F, 0x2F7F, .mapped, [0x8033]⟩,
  ⟨0x2F80, 0x2F80, .mapped, [0x807F]⟩,
  ⟨0x2F81, 0x2F81, .mapped, [0x8089]⟩,
  ⟨0x2F82, 0x2F82, .mapped, [0x81E3]⟩,
  ⟨0x2F83, 0x2F83, .mapped, [0x81EA]⟩,
  ⟨0x2F84, 0x2F84, .mapped, [0x81F3]⟩,
  ⟨0x2F85, 0x2F85, .mapped, [0x81FC]⟩,
  ⟨0x2F86, 0x2F86, .mapped, [0x820C]⟩,
  ⟨0x2F87, 0x2F87, .mapped, [0x821B]⟩,
  ⟨0x2F88, 0x2F88, .mapped, [0x821F]⟩,
  ⟨0x2F89, 0x2F89, .mapped, [0x826E]⟩,
  ⟨0x2F8A, 0x2F8A, .mapped, [0x8272]⟩,
  ⟨0x2F8B, 0x2F8B, .mapped, [0x8278]⟩,
  ⟨0x2F8C, 0x2F8C, .mapped, [0x864D]⟩,
  ⟨0x2F8D, 0x2F8D, .mapped, [0x866B]⟩,
  ⟨0x2F8E, 0x2F8E, .mapped, [0x8840]⟩,
  ⟨0x2F8F, 0x2F8F, .mapped, [0x884C]⟩,
  ⟨0x2F90, 0x2F90, .mapped, [0x8863]⟩,
  ⟨0x2F91, 0x2F91, .mapped, [0x897E]⟩,
  ⟨0x2F92, 0x2F92, .mapped, [0x898B]⟩,
  ⟨0x2F93, 0x2F93, .mapped, [0x89D2]⟩,
  ⟨0x2F94, 0x2F94, .mapped, [0x8A00]⟩,
  ⟨0x2F95, 0x2F95, .mapped, [0x8C37]⟩,
  ⟨0x2F96, 0x2F96, .mapped, [0x8C46]⟩,
  ⟨0x2F97, 0x2F97, .mapped, [0x8C55]⟩,
  ⟨0x2F98, 0x2F98, .mapped, [0x8C78]⟩,
  ⟨0x2F99, 0x2F99, .mapped, [0x8C9D]⟩,
  ⟨0x2F9A, 0x2F9A, .mapped, [0x8D64]⟩,
  ⟨0x2F9B, 0x2F9B, .mapped, [0x8D70]⟩,
  ⟨0x2F9C, 0x2F9C, .mapped, [0x8DB3]⟩,
  ⟨0x2F9D, 0x2F9D, .mapped, [0x8EAB]⟩,
  ⟨0x2F9E, 0x2F9E, .mapped, [0x8ECA]⟩,
  ⟨0x2F9F, 0x2F9F, .mapped, [0x8F9B]⟩,
  ⟨0x2FA0, 0x2FA0, .mapped, [0x8FB0]⟩,
  ⟨0x2FA1, 0x2FA1, .mapped, [0x8FB5]⟩,
  ⟨0x2FA2, 0x2FA2, .mapped, [0x9091]⟩,
  ⟨0x2FA3, 0x2FA3, .mapped, [0x9149]⟩,
  ⟨0x2FA4, 0x2FA4, .mapped, [0x91C6]⟩,
  ⟨0x2FA5, 0x2FA5, .mapped, [0x91CC]⟩,
  ⟨0x2FA6, 0x2FA6, .mapped, [0x91D1]⟩,
  ⟨0x2FA7, 0x2FA7, .mapped, [0x9577]⟩,
  ⟨0x2FA8, 0x2FA8, .mapped, [0x9580]⟩,
  ⟨0x2FA9, 0x2FA9, .mapped, [0x961C]⟩,
  ⟨0x2FAA, 0x2FAA, .mapped, [0x96B6]⟩,
  ⟨0x2FAB, 0x2FAB, .mapped, [0x96B9]⟩,
  ⟨0x2FAC, 0x2FAC, .mapped, [0x96E8]⟩,
  ⟨0x2FAD, 0x2FAD, .mapped, [0x9751]⟩,
  ⟨0x2FAE, 0x2FAE, .mapped, [0x975E]⟩,
  ⟨0x2FAF, 0x2FAF, .mapped, [0x9762]⟩,
  ⟨0x2FB0, 0x2FB0, .mapped, [0x9769]⟩,
  ⟨0x2FB1, 0x2FB1, .mapped, [0x97CB]⟩,
  ⟨0x2FB2, 0x2FB2, .mapped, [0x97ED]⟩,
  ⟨0x2FB3, 0x2FB3, .mapped, [0x97F3]⟩,
  ⟨0x2FB4, 0x2FB4, .mapped, [0x9801]⟩,
  ⟨0x2FB5, 0x2FB5, .mapped, [0x98A8]⟩,
  ⟨0x2FB6, 0x2FB6, .mapped, [0x98DB]⟩,
  ⟨0x2FB7, 0x2FB7, .mapped, [0x98DF]⟩,
  ⟨0x2FB8, 0x2FB8, .mapped, [0x9996]⟩,
  ⟨0x2FB9, 0x2FB9, .mapped, [0x9999]⟩,
  ⟨0x2FBA, 0x2FBA, .mapped, [0x99AC]⟩,
  ⟨0x2FBB, 0x2FBB, .mapped, [0x9AA8]⟩,
  ⟨0x2FBC, 0x2FBC, .mapped, [0x9AD8]⟩,
  ⟨0x2FBD, 0x2FBD, .mapped, [0x9ADF]⟩,
  ⟨0x2FBE, 0x2FBE, .mapped, [0x9B25]⟩,
  ⟨0x2FBF, 0x2FBF, .mapped, [0x9B2F]⟩,
  ⟨0x2FC0, 0x2FC0, .mapped, [0x9B32]⟩,
  ⟨0x2FC1, 0x2FC1, .mapped, [0x9B3C]⟩,
  ⟨0x2FC2, 0x2FC2, .mapped, [0x9B5A]⟩,
  ⟨0x2FC3, 0x2FC3, .mapped, [0x9CE5]⟩,
  ⟨0x2FC4, 0x2FC4, .mapped, [0x9E75]⟩,
  ⟨0x2FC5, 0x2FC5, .mapped, [0x9E7F]⟩,
  ⟨0x2FC6, 0x2FC6, .mapped, [0x9EA5]⟩,
  ⟨0x2FC7, 0x2FC7, .mapped, [0x9EBB]⟩,
  ⟨0x2FC8, 0x2FC8, .mapped, [0x9EC3]⟩,
  ⟨0x2FC9, 0x2FC9, .mapped, [0x9ECD]⟩,
  ⟨0x2FCA, 0x2FCA, .mapped, [0x9ED1]⟩,
  ⟨0x2FCB, 0x2FCB, .mapped, [0x9EF9]⟩,
  ⟨0x2FCC, 0x2FCC, .mapped, [0x9EFD]⟩,
  ⟨0x2FCD, 0x2FCD, .mapped, [0x9F0E]⟩,
  ⟨0x2FCE, 0x2FCE, .mapped, [0x9F13]⟩,
  ⟨0x2FCF, 0x2FCF, .mapped, [0x9F20]⟩,
  ⟨0x2FD0, 0x2FD0, .mapped, [0x9F3B]⟩,
  ⟨0x2FD1, 0x2FD1, .mapped, [0x9F4A]⟩,
  ⟨0x2FD2, 0x2FD2, .mapped, [0x9F52]⟩]

def map13 : List MapRow := [
  ⟨0x2FD3, 0x2FD3, .mapped, [0x9F8D]⟩,
  ⟨0x2FD4, 0x2FD4, .mapped, [0x9F9C]⟩,
  ⟨0x2FD5, 0x2FD5, .mapped, [0x9FA0]⟩,
  ⟨0x2FD6, 0x2FEF, .disallowed, []⟩,
  ⟨0x2FF0, 0x2FFB, .disallowed, []⟩,
  ⟨0x2FFC, 0x2FFF, .disallowed, []⟩,
  ⟨0x3000, 0x3000, .std3Mapped, [0x20]⟩,
  ⟨0x3001, 0x3001, .valid, []⟩,
  ⟨0x3002, 0x3002, .mapped, [0x2E]⟩,
  ⟨0x3003, 0x3004, .valid, []⟩,
  ⟨0x3005, 0x3007, .valid, []⟩,
  ⟨0x3008, 0x3029, .valid, []⟩,
  ⟨0x302A, 0x302D, .valid, []⟩,
  ⟨0x302E, 0x3035, .valid, []⟩,
  ⟨0x3036, 0x3036, .mapped, [0x3012]⟩,
  ⟨0x3037, 0x3037, .valid, []⟩,
  ⟨0x3038, 0x3038, .mapped, [0x5341]⟩,
  ⟨0x3039, 0x3039, .mapped, [0x5344]⟩,
  ⟨0x303A, 0x303A, .mapped, [0x5345]⟩,
  ⟨0x303B, 0x303B, .valid, []⟩,
  ⟨0x303C, 0x303C, .valid, []⟩,
  ⟨0x303D, 0x303D, .valid, []⟩,
  ⟨0x303E, 0x303E, .valid, []⟩,
  ⟨0x303F, 0x303F, .valid, []⟩,
  ⟨0x3040, 0x3040, .disallowed, []⟩,
  ⟨0x3041, 0x3094, .valid, []⟩,
  ⟨0x3095, 0x3096, .valid, []⟩,
  ⟨0x3097, 0x3098, .disallowed, []⟩,
  ⟨0x3099, 0x309A, .valid, []⟩,
  ⟨0x309B, 0x309B, .std3Mapped, [0x20, 0x3099]⟩,
  ⟨0x309C, 0x309C, .std3Mapped, [0x20, 0x309A]⟩,
  ⟨0x309D, 0x309E, .valid, []⟩,
  ⟨0x309F, 0x309F, .mapped, [0x3088, 0x308A]⟩,
  ⟨0x30A0, 0x30A0, .valid, []⟩,
  ⟨0x30A1, 0x30FE, .valid, []⟩,
  ⟨0x30FF, 0x30FF, .mapped, [0x30B3, 0x30C8]⟩,
  ⟨0x3100, 0x3104, .disallowed, []⟩,
  ⟨0x3105, 0x312C, .valid, []⟩,
  ⟨0x312D, 0x312D, .valid, []⟩,
  ⟨0x312E, 0x312E, .valid, []⟩,
  ⟨0x312F, 0x312F, .valid, []⟩,
  ⟨0x3130, 0x3130, .disallowed, []⟩,
  ⟨0x3131, 0x3131, .mapped, [0x1100]⟩,
  ⟨0x3132, 0x3132, .mapped, [0x1101]⟩,
  ⟨0x3133, 0x3133, .mapped, [0x11AA]⟩,
  ⟨0x3134, 0x3134, .mapped, [0x1102]⟩,
  ⟨0x3135, 0x3135, .mapped, [0x11AC]⟩,
  ⟨0x3136, 0x3136, .mapped, [0x11AD]⟩,
  ⟨0x3137, 0x3137, .mapped, [0x1103]⟩,
  ⟨0x3138, 0x3138, .mapped, [0x1104]⟩,
  ⟨0x3139, 0x3139, .mapped, [0x1105]⟩,
  ⟨0x313A, 0x313A, .mapped, [0x11B0]⟩,
  ⟨0x313B, 0x313B, .mapped, [0x11B1]⟩,
  ⟨0x313C, 0x313C, .mapped, [0x11B2]⟩,
  ⟨0x313D, 0x313D, .mapped, [0x11B3]⟩,
  ⟨0x313E, 0x313E, .mapped, [0x11B4]⟩,
  ⟨0x313F, 0x313F, .mapped, [0x11B5]⟩,
  ⟨0x3140, 0x3140, .mapped, [0x111A]⟩,
  ⟨0x3141, 0x3141, .mapped, [0x1106]⟩,
  ⟨0x3142, 0x3142, .mapped, [0x1107]⟩,
  ⟨0x3143, 0x3143, .mapped, [0x1108]⟩,
  ⟨0x3144, 0x3144, .mapped, [0x1121]⟩,
  ⟨0x3145, 0x3145, .mapped, [0x1109]⟩,
  ⟨0x3146, 0x3146, .mapped, [0x110A]⟩,
  ⟨0x3147, 0x3147, .mapped, [0x110B]⟩,
  ⟨0x3148, 0x3148, .mapped, [0x110C]⟩,
  ⟨0x3149, 0x3149, .mapped, [0x110D]⟩,
  ⟨0x314A, 0x314A, .mapped, [0x110E]⟩,
  ⟨0x314B, 0x314B, .mapped, [0x110F]⟩,
  ⟨0x314C, 0x314C, .mapped, [0x1110]⟩,
  ⟨0x314D, 0x314D, .mapped, [0x1111]⟩,
  ⟨0x314E, 0x314E, .mapped, [0x1112]⟩,
  ⟨0x314F, 0x314F, .mapped, [0x1161]⟩,
  ⟨0x3150, 0x3150, .mapped, [0x1162]⟩,
  ⟨0x3151, 0x3151, .mapped, [0x1163]⟩,
  ⟨0x3152, 0x3152, .mapped, [0x1164]⟩,
  ⟨0x3153, 0x3153, .mapped, [0x1165]⟩,
  ⟨0x3154, 0x3154, .mapped, [0x1166]⟩,
  ⟨0x3155, 0x3155, .mapped, [0x1167]⟩,
  ⟨0x3156, 0x3156, .mapped, [0x1168]⟩,
  ⟨0x3157, 0x3157, .mapped, [0x1169]⟩,
  ⟨0x3158, 0x3158, .mapped, [0x116A]⟩,
  ⟨0x3159, 0x3159, .mapped, [0x116B]⟩,
  ⟨0x315A, 0x315A, .mapped, [0x116C]⟩,
  ⟨0x315B, 0x315B, .mapped, [0x116D]⟩,
  ⟨0x315C, 0x315C, .mapped, [0x116E]⟩,
  ⟨0x315D, 0x315D, .mapped, [0x116F]⟩,
  ⟨0x315E, 0x315E, .mapped, [0x1170]⟩,
  ⟨0x315F, 0x315F, .mapped, [0x1171]⟩,
  ⟨0x3160, 0x3160, .mapped, [0x1172]⟩,
  ⟨0x3161, 0x3161, .mapped, [0x1173]⟩,
  ⟨0x3162, 0x3162, .mapped, [0x1174]⟩,
  ⟨0x3163, 0x3163, .mapped, [0x1175]⟩,
  ⟨0x3164, 0x3164, .disallowed, []⟩,
  ⟨0x3165, 0x3165, .mapped, [0x1114]⟩,
  ⟨0x3166, 0x3166, .mapped, [0x1115]⟩,
  ⟨0x3167, 0x3167, .mapped, [0x11C7]⟩,
  ⟨0x3168, 0x3168, .mapped, [0x11C8]⟩,
  ⟨0x3169, 0x3169, .mapped, [0x11CC]⟩,
  ⟨0x316A, 0x316A, .mapped, [0x11CE]⟩,
  ⟨0x316B, 0x316B, .mapped, [0x11D3]⟩,
  ⟨0x316C, 0x316C, .mapped, [0x11D7]⟩,
  ⟨0x316D, 0x316D, .mapped, [0x11D9]⟩,
  ⟨0x316E, 0x316E, .mapped, [0x111C]⟩,
  ⟨0x316F, 0x316F, .mapped, [0x11DD]⟩,
  ⟨0x3170, 0x3170, .mapped, [0x11DF]⟩,
  ⟨0x3171, 0x3171, .mapped, [0x111D]⟩,
  ⟨0x3172, 0x3172, .mapped, [0x111E]⟩,
  ⟨0x3173, 0x3173, .mapped, [0x1120]⟩,
  ⟨0x3174, 0x3174, .mapped, [0x1122]⟩,
  ⟨0x3175, 0x3175, .mapped, [0x1123]⟩,
  ⟨0x3176, 0x3176, .mapped, [0x1127]⟩,
  ⟨0x3177, 0x3177, .mapped, [0x1129]⟩,
  ⟨0x3178, 0x3178, .mapped, [0x112B]⟩,
  ⟨0x3179, 0x3179, .mapped, [0x112C]⟩,
  ⟨0x317A, 0x317A, .mapped, [0x112D]⟩,
  ⟨0x317B, 0x317B, .mapped, [0x112E]⟩,
  ⟨0x317C, 0x317C, .mapped, [0x112F]⟩,
  ⟨0x317D, 0x317D, .mapped, [0x1132]⟩,
  ⟨0x317E, 0x317E, .mapped, [0x1136]⟩,
  ⟨0x317F, 0x317F, .mapped, [0x1140]⟩,
  ⟨0x3180, 0x3180, .mapped, [0x1147]⟩,
  ⟨0x3181, 0x3181, .mapped, [0x114C]⟩,
  ⟨0x3182, 0x3182, .mapped, [0x11F1]⟩,
  ⟨0x3183, 0x3183, .mapped, [0x11F2]⟩,
  ⟨0x3184, 0x3184, .mapped, [0x1157]⟩,
  ⟨0x3185, 0x3185, .mapped, [0x1158]⟩,
  ⟨0x3186, 0x3186, .mapped, [0x1159]⟩,
  ⟨0x3187, 0x3187, .mapped, [0x1184]⟩,
  ⟨0x3188, 0x3188, .mapped, [0x1185]⟩,
  ⟨0x3189, 0x3189, .mapped, [0x1188]⟩,
  ⟨0x318A, 0x318A, .mapped, [0x1191]⟩,
  ⟨0x318B, 0x318B, .mapped, [0x1192]⟩,
  ⟨0x318C, 0x318C, .mapped, [0x1194]⟩,
  ⟨0x318D, 0x318D, .mapped, [0x119E]⟩,
  ⟨0x318E, 0x318E, .mapped, [0x11A1]⟩,
  ⟨0x318F, 0x318F, .disallowed, []⟩,
  ⟨0x3190, 0x3191, .valid, []⟩,
  ⟨0x3192, 0x3192, .mapped, [0x4E00]⟩,
  ⟨0x3193, 0x3193, .mapped, [0x4E8C]⟩,
  ⟨0x3194, 0x3194, .mapped, [0x4E09]⟩,
  ⟨0x3195, 0x3195, .mapped, [0x56DB]⟩,
  ⟨0x3196, 0x3196, .mapped, [0x4E0A]⟩,
  ⟨0x3197, 0x3197, .mapped, [0x4E2D]⟩,
  ⟨0x3198, 0x3198, .mapped, [0x4E0B]⟩,
  ⟨0x3199, 0x3199, .mapped, [0x7532]⟩,
  ⟨0x319A, 0x319A, .mapped, [0x4E59]⟩,
  ⟨0x319B, 0x319B, .mapped, [0x4E19]⟩,
  ⟨0x319C, 0x319C, .mapped, [0x4E01]⟩,
  ⟨0x319D, 0x319D, .mapped, [0x5929]⟩,
  ⟨0x319E, 0x319E, .mapped, [0x5730]⟩,
  ⟨0x319F, 0x319F, .mapped, [0x4EBA]⟩,
  ⟨0x31A0, 0x31B7, .valid, []⟩,
  ⟨0x31B8, 0x31BA, .valid, []⟩,
  ⟨0x31BB, 0x31BF, .valid, []⟩,
  ⟨0x31C0, 0x31CF, .valid, []⟩,
  ⟨0x31D0, 0x31E3, .valid, []⟩,
  ⟨0x31E4, 0x31EF, .disallowed, []⟩,
  ⟨0x31F0, 0x31FF, .valid, []⟩,
  ⟨0x3200, 0x3200, .std3Mapped, [0x28, 0x1100, 0x29]⟩,
  ⟨0x3201, 0x3201, .std3Mapped, [0x28, 0x1102, 0x29]⟩,
  ⟨0x3202, 0x3202, .std3Mapped, [0x28, 0x1103, 0x29]⟩,
  ⟨0x3203, 0x3203, .std3Mapped, [0x28, 0x1105, 0x29]⟩,
  ⟨0x3204, 0x3204, .std3Mapped, [0x28, 0x1106, 0x29]⟩,
  ⟨0x3205, 0x3205, .std3Mapped, [0x28, 0x1107, 0x29]⟩,
  ⟨0x3206, 0x3206, .std3Mapped, [0x28, 0x1109, 0x29]⟩,
  ⟨0x3207, 0x3207, .std3Mapped, [0x28, 0x110B, 0x29]⟩,
  ⟨0x3208, 0x3208, .std3Mapped, [0x28, 0x110C, 0x29]⟩,
  ⟨0x3209, 0x3209, .std3Mapped, [0x28, 0x110E, 0x29]⟩,
  ⟨0x320A, 0x320A, .std3Mapped, [0x28, 0x110F, 0x29]⟩,
  ⟨0x320B, 0x320B, .std3Mapped, [0x28, 0x1110, 0x29]⟩,
  ⟨0x320C, 0x320C, .std3Mapped, [0x28, 0x1111, 0x29]⟩,
  ⟨0x320D, 0x320D, .std3Mapped, [0x28, 0x1112, 0x29]⟩,
  ⟨0x320E, 0x320E, .std3Mapped, [0x28, 0xAC00, 0x29]⟩,
  ⟨0x320F, 0x320F, .std3Mapped, [0x28, 0xB098, 0x29]⟩,
  ⟨0x3210, 0x3210, .std3Mapped, [0x28, 0xB2E4, 0x29]⟩,
  ⟨0x3211, 0x3211, .std3Mapped, [0x28, 0xB77C, 0x29]⟩,
  ⟨0x3212, 0x3212, .std3Mapped, [0x28, 0xB9C8, 0x29]⟩,
  ⟨0x3213, 0x3213, .std3Mapped, [0x28, 0xBC14, 0x29]⟩,
  ⟨0x3214, 0x3214, .std3Mapped, [0x28, 0xC0AC, 0x29]⟩,
  ⟨0x3215, 0x3215, .std3Mapped, [0x28, 0xC544, 0x29]⟩,
  ⟨0x3216, 0x3216, .std3Mapped, [0x28, 0xC790, 0x29]⟩,
  ⟨0x3217, 0x3217, .std3Mapped, [0x28, 0xCC28, 0x29]⟩,
  ⟨0x3218, 0x3218, .std3Mapped, [0x28, 0xCE74, 0x29]⟩,
  ⟨0x3219, 0x3219, .std3Mapped, [0x28, 0xD0C0, 0x29]⟩,
  ⟨0x321A, 0x321A, .std3Mapped, [0x28, 0xD30C, 0x29]⟩,
  ⟨0x321B, 0x321B, .std3Mapped, [0x28, 0xD558, 0x29]⟩,
  ⟨0x321C, 0x321C, .std3Mapped, [0x28, 0xC8FC, 0x29]⟩,
  ⟨0x321D, 0x321D, .std3Mapped, [0x28, 0xC624, 0xC804, 0x29]⟩,
  ⟨0x321E, 0x321E, .std3Mapped, [0x28, 0xC624, 0xD6C4, 0x29]⟩,
  ⟨0x321F, 0x321F, .disallowed, []⟩,
  ⟨0x3220, 0x3220, .std3Mapped, [0x28, 0x4E00, 0x29]⟩,
  ⟨0x3221, 0x3221, .std3Mapped, [0x28, 0x4E8C, 0x29]⟩,
  ⟨0x3222, 0x3222, .std3Mapped, [0x28, 0x4E09, 0x29]⟩,
  ⟨0x3223, 0x3223, .std3Mapped, [0x28, 0x56DB, 0x29]⟩,
  ⟨0x3224, 0x3224, .std3Mapped, [0x28, 0x4E94, 0x29]⟩,
  ⟨0x3225, 0x3225, .std3Mapped, [0x28, 0x516D, 0x29]⟩,
  ⟨0x3226, 0x3226, .std3Mapped, [0x28, 0x4E03, 0x29]⟩,
  ⟨0x3227, 0x3227, .std3Mapped, [0x28, 0x516B, 0x29]⟩,
  ⟨0x3228, 0x3228, .std3Mapped, [0x28, 0x4E5D, 0x29]⟩,
  ⟨0x3229, 0x3229, .std3Mapped, [0x28, 0x5341, 0x29]⟩,
  ⟨0x322A, 0x322A, .std3Mapped, [0x28, 0x6708, 0x29]⟩,
  ⟨0x322B, 0x322B, .std3Mapped, [0x28, 0x706B, 0x29]⟩,
  ⟨0x322C, 0x322C, .std3Mapped, [0x28, 0x6C34, 0x29]⟩,
  ⟨0x322D, 0x322D, .std3Mapped, [0x28, 0x6728, 0x29]⟩,
  ⟨0x322E, 0x322E, .std3Mapped, [0x28, 0x91D1, 0x29]⟩,
  ⟨0x322F, 0x322F, .std3Mapped, [0x28, 0x571F, 0x29]⟩,
  ⟨0x3230, 0x3230, .std3Mapped, [0x28, 0x65E5, 0x29]⟩,
  ⟨0x3231, 0x3231, .std3Mapped, [0x28, 0x682A, 0x29]⟩,
  ⟨0x3232, 0x3232, .std3Mapped, [0x28, 0x6709, 0x29]⟩,
  ⟨0x3233, 0x3233, .std3Mapped, [0x28, 0x793E, 0x29]⟩,
  ⟨0x3234, 0x3234, .std3Mapped, [0x28, 0x540D, 0x29]⟩,
  ⟨0x3235, 0x3235, .std3Mapped, [0x28, 0x7279, 0x29]⟩,
  ⟨0x3236, 0x3236, .std3Mapped, [0x28, 0x8CA1, 0x29]⟩,
  ⟨0x3237, 0x3237, .std3Mapped, [0x28, 0x795D, 0x29]⟩,
  ⟨0x3238, 0x3238, .std3Mapped, [0x28, 0x52B4, 0x29]⟩,
  ⟨0x3239, 0x3239, .std3Mapped, [0x28, 0x4EE3, 0x29]⟩,
  ⟨0x323A, 0x323A, .std3Mapped, [0x28, 0x547C, 0x29]⟩,
  ⟨0x323B, 0x323B, .std3Mapped, [0x28, 0x5B66, 0x29]⟩,
  ⟨0x323C, 0x323C, .std3Mapped, [0x28, 0x76E3, 0x29]⟩,
  ⟨0x323D, 0x323D, .std3Mapped, [0x28, 0x4F01, 0x29]⟩,
  ⟨0x323E, 0x323E, .std3Mapped, [0x28, 0x8CC7, 0x29]⟩,
  ⟨0x323F, 0x323F, .std3Mapped, [0x28, 0x5354, 0x29]⟩,
  ⟨0x3240, 0x3240, .std3Mapped, [0x28, 0x796D, 0x29]⟩,
  ⟨0x3241, 0x3241, .std3Mapped, [0x28, 0x4F11, 0x29]⟩,
  ⟨0x3242, 0x3242, .std3Mapped, [0x28, 0x81EA, 0x29]⟩,
  ⟨0x3243, 0x3243, .std3Mapped, [0x28, 0x81F3, 0x29]⟩,
  ⟨0x3244, 0x3244, .mapped, [0x554F]⟩,
  ⟨0x3245, 0x3245, .mapped, [0x5E7C]⟩,
  ⟨0x3246, 0x3246, .mapped, [0x6587]⟩,
  ⟨0x3247, 0x3247, .mapped, [0x7B8F]⟩,
  ⟨0x3248, 0x324F, .valid, []⟩,
  ⟨0x3250, 0x3250, .mapped, [0x70, 0x74, 0x65]⟩,
  ⟨0x3251, 0x3251, .mapped, [0x32, 0x31]⟩,
  ⟨0x3252, 0x3252, .mapped, [0x32, 0x32]⟩,
  ⟨0x3253, 0x3253, .mapped, [0x32, 0x33]⟩,
  ⟨0x3254, 0x3254, .mapped, [0x32, 0x34]⟩,
  ⟨0x3255, 0x3255, .mapped, [0x32, 0x35]⟩,
  ⟨0x3256, 0x3256, .mapped, [0x32, 0x36]⟩,
  ⟨0x3257, 0x3257, .mapped, [0x32, 0x37]⟩,
  ⟨0x3258, 0x3258, .mapped, [0x32, 0x38]⟩,
  ⟨0x3259, 0x3259, .mapped, [0x32, 0x39]⟩,
  ⟨0x325A, 0x325A, .mapped, [0x33, 0x30]⟩,
  ⟨0x325B, 0x325B, .mapped, [0x33, 0x31]⟩,
  ⟨0x325C, 0x325C, .mapped, [0x33, 0x32]⟩,
  ⟨0x325D, 0x325D, .mapped, [0x33, 0x33]⟩,
  ⟨0x325E, 0x325E, .mapped, [0x33, 0x34]⟩,
  ⟨0x325F, 0x325F, .mapped, [0x33, 0x35]⟩,
  ⟨0x3260, 0x3260, .mapped, [0x1100]⟩,
  ⟨0x3261, 0x3261, .mapped, [0x1102]⟩]

def map14 : List MapRow := [
  ⟨0x3262, 0x3262, .mapped, [0x1103]⟩,
  ⟨0x3263, 0x3263, .mapped, [0x1105]⟩,
  ⟨0x3264, 0x3264, .mapped, [0x1106]⟩,
  ⟨0x3265, 0x3265, .mapped, [0x1107]⟩,
  ⟨0x3266, 0x3266, .mapped, [0x1109]⟩,
  ⟨0x3267, 0x3267, .mapped, [0x110B]⟩,
  ⟨0x3268, 0x3268, .mapped, [0x110C]⟩,
  ⟨0x3269, 0x3269, .mapped, [0x110E]⟩,
  ⟨0x326A, 0x326A, .mapped, [0x110F]⟩,
  ⟨0x326B, 0x326B, .mapped, [0x1110]⟩,
  ⟨0x326C, 0x326C, .mapped, [0x1111]⟩,
  ⟨0x326D, 0x326D, .mapped, [0x1112]⟩,
  ⟨0x326E, 0x326E, .mapped, [0xAC00]⟩,
  ⟨0x326F, 0x326F, .mapped, [0xB098]⟩,
  ⟨0x3270, 0x3270, .mapped, [0xB2E4]⟩,
  ⟨0x3271, 0x3271, .mapped, [0xB77C]⟩,
  ⟨0x3272, 0x3272, .mapped, [0xB9C8]⟩,
  ⟨0x3273, 0x3273, .mapped, [0xBC14]⟩,
  ⟨0x3274, 0x3274, .mapped, [0xC0AC]⟩,
  ⟨0x3275, 0x3275, .mapped, [0xC544]⟩,
  ⟨0x3276, 0x3276, .mapped, [0xC790]⟩,
  ⟨0x3277, 0x3277, .mapped, [0xCC28]⟩,
  ⟨0x3278, 0x3278, .mapped, [0xCE74]⟩,
  ⟨0x3279, 0x3279, .mapped, [0xD0C0]⟩,
  ⟨0x327A, 0x327A, .mapped, [0xD30C]⟩,
  ⟨0x327B, 0x327B, .mapped, [0xD558]⟩,
  ⟨0x327C, 0x327C, .mapped, [0xCC38, 0xACE0]⟩,
  ⟨0x327D, 0x327D, .mapped, [0xC8FC, 0xC758]⟩,
  ⟨0x327E, 0x327E, .mapped, [0xC6B0]⟩,
  ⟨0x327F, 0x327F, .valid, []⟩,
  ⟨0x3280, 0x3280, .mapped, [0x4E00]⟩,
  ⟨0x3281, 0x3281, .mapped, [0x4E8C]⟩,
  ⟨0x3282, 0x3282, .mapped, [0x4E09]⟩,
  ⟨0x3283, 0x3283, .mapped, [0x56DB]⟩,
  ⟨0x3284, 0x3284, .mapped, [0x4E94]⟩,
  ⟨0x3285, 0x3285, .mapped, [0x516D]⟩,
  ⟨0x3286, 0x3286, .mapped, [0x4E03]⟩,
  ⟨0x3287, 0x3287, .mapped, [0x516B]⟩,
  ⟨0x3288, 0x3288, .mapped, [0x4E5D]⟩,
  ⟨0x3289, 0x3289, .mapped, [0x5341]⟩,
  ⟨0x328A, 0x328A, .mapped, [0x6708]⟩,
  ⟨0x328B, 0x328B, .mapped, [0x706B]⟩,
  ⟨0x328C, 0x328C, .mapped, [0x6C34]⟩,
  ⟨0x328D, 0x328D, .mapped, [0x6728]⟩,
  ⟨0x328E, 0x328E, .mapped, [0x91D1]⟩,
  ⟨0x328F, 0x328F, .mapped, [0x571F]⟩,
  ⟨0x3290, 0x3290, .mapped, [0x65E5]⟩,
  ⟨0x3291, 0x3291, .mapped, [0x682A]⟩,
  ⟨0x3292, 0x3292, .mapped, [0x6709]⟩,
  ⟨0x3293, 0x3293, .mapped, [0x793E]⟩,
  ⟨0x3294, 0x3294, .mapped, [0x540D]⟩,
  ⟨0x3295, 0x3295, .mapped, [0x7279]⟩,
  ⟨0x3296, 0x3296, .mapped, [0x8CA1]⟩,
  ⟨0x3297, 0x3297, .mapped, [0x795D]⟩,
  ⟨0x3298, 0x3298, .mapped, [0x52B4]⟩,
  ⟨0x3299, 0x3299, .mapped, [0x79D8]⟩,
  ⟨0x329A, 0x329A, .mapped, [0x7537]⟩,
  ⟨0x329B, 0x329B, .mapped, [0x5973]⟩,
  ⟨0x329C, 0x329C, .mapped, [0x9069]⟩,
  ⟨0x329D, 0x329D, .mapped, [0x512A]⟩,
  ⟨0x329E, 0x329E, .mapped, [0x5370]⟩,
  ⟨0x329F, 0x329F, .mapped, [0x6CE8]⟩,
  ⟨0x32A0, 0x32A0, .mapped, [0x9805]⟩,
  ⟨0x32A1, 0x32A1, .mapped, [0x4F11]⟩,
  ⟨0x32A2, 0x32A2, .mapped, [0x5199]⟩,
  ⟨0x32A3, 0x32A3, .mapped, [0x6B63]⟩,
  ⟨0x32A4, 0x32A4, .mapped, [0x4E0A]⟩,
  ⟨0x32A5, 0x32A5, .mapped, [0x4E2D]⟩,
  ⟨0x32A6, 0x32A6, .mapped, [0x4E0B]⟩,
  ⟨0x32A7, 0x32A7, .mapped, [0x5DE6]⟩,
  ⟨0x32A8, 0x32A8, .mapped, [0x53F3]⟩,
  ⟨0x32A9, 0x32A9, .mapped, [0x533B]⟩,
  ⟨0x32AA, 0x32AA, .mapped, [0x5B97]⟩,
  ⟨0x32AB, 0x32AB, .mapped, [0x5B66]⟩,
  ⟨0x32AC, 0x32AC, .mapped, [0x76E3]⟩,
  ⟨0x32AD, 0x32AD, .mapped, [0x4F01]⟩,
  ⟨0x32AE, 0x32AE, .mapped, [0x8CC7]⟩,
  ⟨0x32AF, 0x32AF, .mapped, [0x5354]⟩,
  ⟨0x32B0, 0x32B0, .mapped, [0x591C]⟩,
  ⟨0x32B1, 0x32B1, .mapped, [0x33, 0x36]⟩,
  ⟨0x32B2, 0x32B2, .mapped, [0x33, 0x37]⟩,
  ⟨0x32B3, 0x32B3, .mapped, [0x33, 0x38]⟩,
  ⟨0x32B4, 0x32B4, .mapped, [0x33, 0x39]⟩,
  ⟨0x32B5, 0x32B5, .mapped, [0x34, 0x30]⟩,
  ⟨0x32B6, 0x32B6, .mapped, [0x34, 0x31]⟩,
  ⟨0x32B7, 0x32B7, .mapped, [0x34, 0x32]⟩,
  ⟨0x32B8, 0x32B8, .mapped, [0x34, 0x33]⟩,
  ⟨0x32B9, 0x32B9, .mapped, [0x34, 0x34]⟩,
  ⟨0x32BA, 0x32BA, .mapped, [0x34, 0x35]⟩,
  ⟨0x32BB, 0x32BB, .mapped, [0x34, 0x36]⟩,
  ⟨0x32BC, 0x32BC, .mapped, [0x34, 0x37]⟩,
  ⟨0x32BD, 0x32BD, .mapped, [0x34, 0x38]⟩,
  ⟨0x32BE, 0x32BE, .mapped, [0x34, 0x39]⟩,
  ⟨0x32BF, 0x32BF, .mapped, [0x35, 0x30]⟩,
  ⟨0x32C0, 0x32C0, .mapped, [0x31, 0x6708]⟩,
  ⟨0x32C1, 0x32C1, .mapped, [0x32, 0x6708]⟩,
  ⟨0x32C2, 0x32C2, .mapped, [0x33, 0x6708]⟩,
  ⟨0x32C3, 0x32C3, .mapped, [0x34, 0x6708]⟩,
  ⟨0x32C4, 0x32C4, .mapped, [0x35, 0x6708]⟩,
  ⟨0x32C5, 0x32C5, .mapped, [0x36, 0x6708]⟩,
  ⟨0x32C6, 0x32C6, .mapped, [0x37, 0x6708]⟩,
  ⟨0x32C7, 0x32C7, .mapped, [0x38, 0x6708]⟩,
  ⟨0x32C8, 0x32C8, .mapped, [0x39, 0x6708]⟩,
  ⟨0x32C9, 0x32C9, .mapped, [0x31, 0x30, 0x6708]⟩,
  ⟨0x32CA, 0x32CA, .mapped, [0x31, 0x31, 0x6708]⟩,
  ⟨0x32CB, 0x32CB, .mapped, [0x31, 0x32, 0x6708]⟩,
  ⟨0x32CC, 0x32CC, .mapped, [0x68, 0x67]⟩,
  ⟨0x32CD, 0x32CD, .mapped, [0x65, 0x72, 0x67]⟩,
  ⟨0x32CE, 0x32CE, .mapped, [0x65, 0x76]⟩,
  ⟨0x32CF, 0x32CF, .mapped, [0x6C, 0x74, 0x64]⟩,
  ⟨0x32D0, 0x32D0, .mapped, [0x30A2]⟩,
  ⟨0x32D1, 0x32D1, .mapped, [0x30A4]⟩,
  ⟨0x32D2, 0x32D2, .mapped, [0x30A6]⟩,
  ⟨0x32D3, 0x32D3, .mapped, [0x30A8]⟩,
  ⟨0x32D4, 0x32D4, .mapped, [0x30AA]⟩,
  ⟨0x32D5, 0x32D5, .mapped, [0x30AB]⟩,
  ⟨0x32D6, 0x32D6, .mapped, [0x30AD]⟩,
  ⟨0x32D7, 0x32D7, .mapped, [0x30AF]⟩,
  ⟨0x32D8, 0x32D8, .mapped, [0x30B1]⟩,
  ⟨0x32D9, 0x32D9, .mapped, [0x30B3]⟩,
  ⟨0x32DA, 0x32DA, .mapped, [0x30B5]⟩,
  ⟨0x32DB, 0x32DB, .mapped, [0x30B7]⟩,
  ⟨0x32DC, 0x32DC, .mapped, [0x30B9]⟩,
  ⟨0x32DD, 0x32DD, .mapped, [0x30BB]⟩,
  ⟨0x32DE, 0x32DE, .mapped, [0x30BD]⟩,
  ⟨0x32DF, 0x32DF, .mapped, [0x30BF]⟩,
  ⟨0x32E0, 0x32E0, .mapped, [0x30C1]⟩,
  ⟨0x32E1, 0x32E1, .mapped, [0x30C4]⟩,
  ⟨0x32E2, 0x32E2, .mapped, [0x30C6]⟩,
  ⟨0x32E3, 0x32E3, .mapped, [0x30C8]⟩,
  ⟨0x32E4, 0x32E4, .mapped, [0x30CA]⟩,
  ⟨0x32E5, 0x32E5, .mapped, [0x30CB]⟩,
  ⟨0x32E6, 0x32E6, .mapped, [0x30CC]⟩,
  ⟨0x32E7, 0x32E7, .mapped, [0x30CD]⟩,
  ⟨0x32E8, 0x32E8, .mapped, [0x30CE]⟩,
  ⟨0x32E9, 0x32E9, .mapped, [0x30CF]⟩,
  ⟨0x32EA, 0x32EA, .mapped, [0x30D2]⟩,
  ⟨0x32EB, 0x32EB, .mapped, [0x30D5]⟩,
  ⟨0x32EC, 0x32EC, .mapped, [0x30D8]⟩,
  ⟨0x32ED, 0x32ED, .mapped, [0x30DB]⟩,
  ⟨0x32EE, 0x32EE, .mapped, [0x30DE]⟩,
  ⟨0x32EF, 0x32EF, .mapped, [0x30DF]⟩,
  ⟨0x32F0, 0x32F0, .mapped, [0x30E0]⟩,
  ⟨0x32F1, 0x32F1, .mapped, [0x30E1]⟩,
  ⟨0x32F2, 0x32F2, .mapped, [0x30E2]⟩,
  ⟨0x32F3, 0x32F3, .mapped, [0x30E4]⟩,
  ⟨0x32F4, 0x32F4, .mapped, [0x30E6]⟩,
  ⟨0x32F5, 0x32F5, .mapped, [0x30E8]⟩,
  ⟨0x32F6, 0x32F6, .mapped, [0x30E9]⟩,
  ⟨0x32F7, 0x32F7, .mapped, [0x30EA]⟩,
  ⟨0x32F8, 0x32F8, .mapped, [0x30EB]⟩,
  ⟨0x32F9, 0x32F9, .mapped, [0x30EC]⟩,
  ⟨0x32FA, 0x32FA, .mapped, [0x30ED]⟩,
  ⟨0x32FB, 0x32FB, .mapped, [0x30EF]⟩,
  ⟨0x32FC, 0x32FC, .mapped, [0x30F0]⟩,
  ⟨0x32FD, 0x32FD, .mapped, [0x30F1]⟩,
  ⟨0x32FE, 0x32FE, .mapped, [0x30F2]⟩,
  ⟨0x32FF, 0x32FF, .mapped, [0x4EE4, 0x548C]⟩,
  ⟨0x3300, 0x3300, .mapped, [0x30A2, 0x30D1, 0x30FC, 0x30C8]⟩,
  ⟨0x3301, 0x3301, .mapped, [0x30A2, 0x30EB, 0x30D5, 0x30A1]⟩,
  ⟨0x3302, 0x3302, .mapped, [0x30A2, 0x30F3, 0x30DA, 0x30A2]⟩,
  ⟨0x3303, 0x3303, .mapped, [0x30A2, 0x30FC, 0x30EB]⟩,
  ⟨0x3304, 0x3304, .mapped, [0x30A4, 0x30CB, 0x30F3, 0x30B0]⟩,
  ⟨0x3305, 0x3305, .mapped, [0x30A4, 0x30F3, 0x30C1]⟩,
  ⟨0x3306, 0x3306, .mapped, [0x30A6, 0x30A9, 0x30F3]⟩,
  ⟨0x3307, 0x3307, .mapped, [0x30A8, 0x30B9, 0x30AF, 0x30FC, 0x30C9]⟩,
  ⟨0x3308, 0x3308, .mapped, [0x30A8, 0x30FC, 0x30AB, 0x30FC]⟩,
  ⟨0x3309, 0x3309, .mapped, [0x30AA, 0x30F3, 0x30B9]⟩,
  ⟨0x330A, 0x330A, .mapped, [0x30AA, 0x30FC, 0x30E0]⟩,
  ⟨0x330B, 0x330B, .mapped, [0x30AB, 0x30A4, 0x30EA]⟩,
  ⟨0x330C, 0x330C, .mapped, [0x30AB, 0x30E9, 0x30C3, 0x30C8]⟩,
  ⟨0x330D, 0x330D, .mapped, [0x30AB, 0x30ED, 0x30EA, 0x30FC]⟩,
  ⟨0x330E, 0x330E, .mapped, [0x30AC, 0x30ED, 0x30F3]⟩,
  ⟨0x330F, 0x330F, .mapped, [0x30AC, 0x30F3, 0x30DE]⟩,
  ⟨0x3310, 0x3310, .mapped, [0x30AE, 0x30AC]⟩,
  ⟨0x3311, 0x3311, .mapped, [0x30AE, 0x30CB, 0x30FC]⟩,
  ⟨0x3312, 0x3312, .mapped, [0x30AD, 0x30E5, 0x30EA, 0x30FC]⟩,
  ⟨0x3313, 0x3313, .mapped, [0x30AE, 0x30EB, 0x30C0, 0x30FC]⟩,
  ⟨0x3314, 0x3314, .mapped, [0x30AD, 0x30ED]⟩,
  ⟨0x3315, 0x3315, .mapped, [0x30AD, 0x30ED, 0x30B0, 0x30E9, 0x30E0]⟩,
  ⟨0x3316, 0x3316, .mapped, [0x30AD, 0x30ED, 0x30E1, 0x30FC, 0x30C8, 0x30EB]⟩,
  ⟨0x3317, 0x3317, .mapped, [0x30AD, 0x30ED, 0x30EF, 0x30C3, 0x30C8]⟩,
  ⟨0x3318, 0x3318, .mapped, [0x30B0, 0x30E9, 0x30E0]⟩,
  ⟨0x3319, 0x3319, .mapped, [0x30B0, 0x30E9, 0x30E0, 0x30C8, 0x30F3]⟩,
  ⟨0x331A, 0x331A, .mapped, [0x30AF, 0x30EB, 0x30BC, 0x30A4, 0x30ED]⟩,
  ⟨0x331B, 0x331B, .mapped, [0x30AF, 0x30ED, 0x30FC, 0x30CD]⟩,
  ⟨0x331C, 0x331C, .mapped, [0x30B1, 0x30FC, 0x30B9]⟩,
  ⟨0x331D, 0x331D, .mapped, [0x30B3, 0x30EB, 0x30CA]⟩,
  ⟨0x331E, 0x331E, .mapped, [0x30B3, 0x30FC, 0x30DD]⟩,
  ⟨0x331F, 0x331F, .mapped, [0x30B5, 0x30A4, 0x30AF, 0x30EB]⟩,
  ⟨0x3320, 0x3320, .mapped, [0x30B5, 0x30F3, 0x30C1, 0x30FC, 0x30E0]⟩,
  ⟨0x3321, 0x3321, .mapped, [0x30B7, 0x30EA, 0x30F3, 0x30B0]⟩,
  ⟨0x3322, 0x3322, .mapped, [0x30BB, 0x30F3, 0x30C1]⟩,
  ⟨0x3323, 0x3323, .mapped, [0x30BB, 0x30F3, 0x30C8]⟩,
  ⟨0x3324, 0x3324, .mapped, [0x30C0, 0x30FC, 0x30B9]⟩,
  ⟨0x3325, 0x3325, .mapped, [0x30C7, 0x30B7]⟩,
  ⟨0x3326, 0x3326, .mapped, [0x30C9, 0x30EB]⟩,
  ⟨0x3327, 0x3327, .mapped, [0x30C8, 0x30F3]⟩,
  ⟨0x3328, 0x3328, .mapped, [0x30CA, 0x30CE]⟩,
  ⟨0x3329, 0x3329, .mapped, [0x30CE, 0x30C3, 0x30C8]⟩,
  ⟨0x332A, 0x332A, .mapped, [0x30CF, 0x30A4, 0x30C4]⟩,
  ⟨0x332B, 0x332B, .mapped, [0x30D1, 0x30FC, 0x30BB, 0x30F3, 0x30C8]⟩,
  ⟨0x332C, 0x332C, .mapped, [0x30D1, 0x30FC, 0x30C4]⟩,
  ⟨0x332D, 0x332D, .mapped, [0x30D0, 0x30FC, 0x30EC, 0x30EB]⟩,
  ⟨0x332E, 0x332E, .mapped, [0x30D4, 0x30A2, 0x30B9, 0x30C8, 0x30EB]⟩,
  ⟨0x332F, 0x332F, .mapped, [0x30D4, 0x30AF, 0x30EB]⟩,
  ⟨0x3330, 0x3330, .mapped, [0x30D4, 0x30B3]⟩,
  ⟨0x3331, 0x3331, .mapped, [0x30D3, 0x30EB]⟩,
  ⟨0x3332, 0x3332, .mapped, [0x30D5, 0x30A1, 0x30E9, 0x30C3, 0x30C9]⟩,
  ⟨0x3333, 0x3333, .mapped, [0x30D5, 0x30A3, 0x30FC, 0x30C8]⟩,
  ⟨0x3334, 0x3334, .mapped, [0x30D6, 0x30C3, 0x30B7, 0x30A7, 0x30EB]⟩,
  ⟨0x3335, 0x3335, .mapped, [0x30D5, 0x30E9, 0x30F3]⟩,
  ⟨0x3336, 0x3336, .mapped, [0x30D8, 0x30AF, 0x30BF, 0x30FC, 0x30EB]⟩,
  ⟨0x3337, 0x3337, .mapped, [0x30DA, 0x30BD]⟩,
  ⟨0x3338, 0x3338, .mapped, [0x30DA, 0x30CB, 0x30D2]⟩,
  ⟨0x3339, 0x3339, .mapped, [0x30D8, 0x30EB, 0x30C4]⟩,
  ⟨0x333A, 0x333A, .mapped, [0x30DA, 0x30F3, 0x30B9]⟩,
  ⟨0x333B, 0x333B, .mapped, [0x30DA, 0x30FC, 0x30B8]⟩,
  ⟨0x333C, 0x333C, .mapped, [0x30D9, 0x30FC, 0x30BF]⟩,
  ⟨0x333D, 0x333D, .mapped, [0x30DD, 0x30A4, 0x30F3, 0x30C8]⟩,
  ⟨0x333E, 0x333E, .mapped, [0x30DC, 0x30EB, 0x30C8]⟩,
  ⟨0x333F, 0x333F, .mapped, [0x30DB, 0x30F3]⟩,
  ⟨0x3340, 0x3340, .mapped, [0x30DD, 0x30F3, 0x30C9]⟩,
  ⟨0x3341, 0x3341, .mapped, [0x30DB, 0x30FC, 0x30EB]⟩,
  ⟨0x3342, 0x3342, .mapped, [0x30DB, 0x30FC, 0x30F3]⟩,
  ⟨0x3343, 0x3343, .mapped, [0x30DE, 0x30A4, 0x30AF, 0x30ED]⟩,
  ⟨0x3344, 0x3344, .mapped, [0x30DE, 0x30A4, 0x30EB]⟩,
  ⟨0x3345, 0x3345, .mapped, [0x30DE, 0x30C3, 0x30CF]⟩,
  ⟨0x3346, 0x3346, .mapped, [0x30DE, 0x30EB, 0x30AF]⟩,
  ⟨0x3347, 0x3347, .mapped, [0x30DE, 0x30F3, 0x30B7, 0x30E7, 0x30F3]⟩,
  ⟨0x3348, 0x3348, .mapped, [0x30DF, 0x30AF, 0x30ED, 0x30F3]⟩,
  ⟨0x3349, 0x3349, .mapped, [0x30DF, 0x30EA]⟩,
  ⟨0x334A, 0x334A, .mapped, [0x30DF, 0x30EA, 0x30D0, 0x30FC, 0x30EB]⟩,
  ⟨0x334B, 0x334B, .mapped, [0x30E1, 0x30AC]⟩,
  ⟨0x334C, 0x334C, .mapped, [0x30E1, 0x30AC, 0x30C8, 0x30F3]⟩,
  ⟨0x334D, 0x334D, .mapped, [0x30E1, 0x30FC, 0x30C8, 0x30EB]⟩,
  ⟨0x334E, 0x334E, .mapped, [0x30E4, 0x30FC, 0x30C9]⟩,
  ⟨0x334F, 0x334F, .mapped, [0x30E4, 0x30FC, 0x30EB]⟩,
  ⟨0x3350, 0x3350, .mapped, [0x30E6, 0x30A2, 0x30F3]⟩,
  ⟨0x3351, 0x3351, .mapped, [0x30EA, 0x30C3, 0x30C8, 0x30EB]⟩,
  ⟨0x3352, 0x3352, .mapped, [0x30EA, 0x30E9]⟩,
  ⟨0x3353, 0x3353, .mapped, [0x30EB, 0x30D4, 0x30FC]⟩,
  ⟨0x3354, 0x3354, .mapped, [0x30EB, 0x30FC, 0x30D6, 0x30EB]⟩,
  ⟨0x3355, 0x3355, .mapped, [0x30EC, 0x30E0]⟩,
  ⟨0x3356, 0x3356, .mapped, [0x30EC, 0x30F3, 0x30C8, 0x30B2, 0x30F3]⟩,
  ⟨0x3357, 0x3357, .mapped, [0x30EF, 0x30C3, 0x30C8]⟩,
  ⟨0x3358, 0x3358, .mapped, [0x30, 0x70B9]⟩,
  ⟨0x3359, 0x3359, .mapped, [0x31, 0x70B9]⟩,
  ⟨0x335A, 0x335A, .mapped, [0x32, 0x70B9]⟩,
  ⟨0x335B, 0x335B, .mapped, [0x33, 0x70B9]⟩]

def map15 : List MapRow := [
  ⟨0x335C, 0x335C, .mapped, [0x34, 0x70B9]⟩,
  ⟨0x335D, 0x335D, .mapped, [0x35, 0x70B9]⟩,
  ⟨0x335E, 0x335E, .mapped, [0x36, 0x70B9]⟩,
  ⟨0x335F, 0x335F, .mapped, [0x37, 0x70B9]⟩,
  ⟨0x3360, 0x3360, .mapped, [0x38, 0x70B9]⟩,
  ⟨0x3361, 0x3361, .mapped, [0x39, 0x70B9]⟩,
  ⟨0x3362, 0x3362, .mapped, [0x31, 0x30, 0x70B9]⟩,
  ⟨0x3363, 0x3363, .mapped, [0x31, 0x31, 0x70B9]⟩,
  ⟨0x3364, 0x3364, .mapped, [0x31, 0x32, 0x70B9]⟩,
  ⟨0x3365, 0x3365, .mapped, [0x31, 0x33, 0x70B9]⟩,
  ⟨0x3366, 0x3366, .mapped, [0x31, 0x34, 0x70B9]⟩,
  ⟨0x3367, 0x3367, .mapped, [0x31, 0x35, 0x70B9]⟩,
  ⟨0x3368, 0x3368, .mapped, [0x31, 0x36, 0x70B9]⟩,
  ⟨0x3369, 0x3369, .mapped, [0x31, 0x37, 0x70B9]⟩,
  ⟨0x336A, 0x336A, .mapped, [0x31, 0x38, 0x70B9]⟩,
  ⟨0x336B, 0x336B, .mapped, [0x31, 0x39, 0x70B9]⟩,
  ⟨0x336C, 0x336C, .mapped, [0x32, 0x30, 0x70B9]⟩,
  ⟨0x336D, 0x336D, .mapped, [0x32, 0x31, 0x70B9]⟩,
  ⟨0x336E, 0x336E, .mapped, [0x32, 0x32, 0x70B9]⟩,
  ⟨0x336F, 0x336F, .mapped, [0x32, 0x33, 0x70B9]⟩,
  ⟨0x3370, 0x3370, .mapped, [0x32, 0x34, 0x70B9]⟩,
  ⟨0x3371, 0x3371, .mapped, [0x68, 0x70, 0x61]⟩,
  ⟨0x3372, 0x3372, .mapped, [0x64, 0x61]⟩,
  ⟨0x3373, 0x3373, .mapped, [0x61, 0x75]⟩,
  ⟨0x3374, 0x3374, .mapped, [0x62, 0x61, 0x72]⟩,
  ⟨0x3375, 0x3375, .mapped, [0x6F, 0x76]⟩,
  ⟨0x3376, 0x3376, .mapped, [0x70, 0x63]⟩,
  ⟨0x3377, 0x3377, .mapped, [0x64, 0x6D]⟩,
  ⟨0x3378, 0x3378, .mapped, [0x64, 0x6D, 0x32]⟩,
  ⟨0x3379, 0x3379, .mapped, [0x64, 0x6D, 0x33]⟩,
  ⟨0x337A, 0x337A, .mapped, [0x69, 0x75]⟩,
  ⟨0x337B, 0x337B, .mapped, [0x5E73, 0x6210]⟩,
  ⟨0x337C, 0x337C, .mapped, [0x662D, 0x548C]⟩,
  ⟨0x337D, 0x337D, .mapped, [0x5927, 0x6B63]⟩,
  ⟨0x337E, 0x337E, .mapped, [0x660E, 0x6CBB]⟩,
  ⟨0x337F, 0x337F, .mapped, [0x682A, 0x5F0F, 0x4F1A, 0x793E]⟩,
  ⟨0x3380, 0x3380, .mapped, [0x70, 0x61]⟩,
  ⟨0x3381, 0x3381, .mapped, [0x6E, 0x61]⟩,
  ⟨0x3382, 0x3382, .mapped, [0x3BC, 0x61]⟩,
  ⟨0x3383, 0x3383, .mapped, [0x6D, 0x61]⟩,
  ⟨0x3384, 0x3384, .mapped, [0x6B, 0x61]⟩,
  ⟨0x3385, 0x3385, .mapped, [0x6B, 0x62]⟩,
  ⟨0x3386, 0x3386, .mapped, [0x6D, 0x62]⟩,
  ⟨0x3387, 0x3387, .mapped, [0x67, 0x62]⟩,
  ⟨0x3388, 0x3388, .mapped, [0x63, 0x61, 0x6C]⟩,
  ⟨0x3389, 0x3389, .mapped, [0x6B, 0x63, 0x61, 0x6C]⟩,
  ⟨0x338A, 0x338A, .mapped, [0x70, 0x66]⟩,
  ⟨0x338B, 0x338B, .mapped, [0x6E, 0x66]⟩,
  ⟨0x338C, 0x338C, .mapped, [0x3BC, 0x66]⟩,
  ⟨0x338D, 0x338D, .mapped, [0x3BC, 0x67]⟩,
  ⟨0x338E, 0x338E, .mapped, [0x6D, 0x67]⟩,
  ⟨0x338F, 0x338F, .mapped, [0x6B, 0x67]⟩,
  ⟨0x3390, 0x3390, .mapped, [0x68, 0x7A]⟩,
  ⟨0x3391, 0x3391, .mapped, [0x6B, 0x68, 0x7A]⟩,
  ⟨0x3392, 0x3392, .mapped, [0x6D, 0x68, 0x7A]⟩,
  ⟨0x3393, 0x3393, .mapped, [0x67, 0x68, 0x7A]⟩,
  ⟨0x3394, 0x3394, .mapped, [0x74, 0x68, 0x7A]⟩,
  ⟨0x3395, 0x3395, .mapped, [0x3BC, 0x6C]⟩,
  ⟨0x3396, 0x3396, .mapped, [0x6D, 0x6C]⟩,
  ⟨0x3397, 0x3397, .mapped, [0x64, 0x6C]⟩,
  ⟨0x3398, 0x3398, .mapped, [0x6B, 0x6C]⟩,
  ⟨0x3399, 0x3399, .mapped, [0x66, 0x6D]⟩,
  ⟨0x339A, 0x339A, .mapped, [0x6E, 0x6D]⟩,
  ⟨0x339B, 0x339B, .mapped, [0x3BC, 0x6D]⟩,
  ⟨0x339C, 0x339C, .mapped, [0x6D, 0x6D]⟩,
  ⟨0x339D, 0x339D, .mapped, [0x63, 0x6D]⟩,
  ⟨0x339E, 0x339E, .mapped, [0x6B, 0x6D]⟩,
  ⟨0x339F, 0x339F, .mapped, [0x6D, 0x6D, 0x32]⟩,
  ⟨0x33A0, 0x33A0, .mapped, [0x63, 0x6D, 0x32]⟩,
  ⟨0x33A1, 0x33A1, .mapped, [0x6D, 0x32]⟩,
  ⟨0x33A2, 0x33A2, .mapped, [0x6B, 0x6D, 0x32]⟩,
  ⟨0x33A3, 0x33A3, .mapped, [0x6D, 0x6D, 0x33]⟩,
  ⟨0x33A4, 0x33A4, .mapped, [0x63, 0x6D, 0x33]⟩,
  ⟨0x33A5, 0x33A5, .mapped, [0x6D, 0x33]⟩,
  ⟨0x33A6, 0x33A6, .mapped, [0x6B, 0x6D, 0x33]⟩,
  ⟨0x33A7, 0x33A7, .mapped, [0x6D, 0x2215, 0x73]⟩,
  ⟨0x33A8, 0x33A8, .mapped, [0x6D, 0x2215, 0x73, 0x32]⟩,
  ⟨0x33A9, 0x33A9, .mapped, [0x70, 0x61]⟩,
  ⟨0x33AA, 0x33AA, .mapped, [0x6B, 0x70, 0x61]⟩,
  ⟨0x33AB, 0x33AB, .mapped, [0x6D, 0x70, 0x61]⟩,
  ⟨0x33AC, 0x33AC, .mapped, [0x67, 0x70, 0x61]⟩,
  ⟨0x33AD, 0x33AD, .mapped, [0x72, 0x61, 0x64]⟩,
  ⟨0x33AE, 0x33AE, .mapped, [0x72, 0x61, 0x64, 0x2215, 0x73]⟩,
  ⟨0x33AF, 0x33AF, .mapped, [0x72, 0x61, 0x64, 0x2215, 0x73, 0x32]⟩,
  ⟨0x33B0, 0x33B0, .mapped, [0x70, 0x73]⟩,
  ⟨0x33B1, 0x33B1, .mapped, [0x6E, 0x73]⟩,
  ⟨0x33B2, 0x33B2, .mapped, [0x3BC, 0x73]⟩,
  ⟨0x33B3, 0x33B3, .mapped, [0x6D, 0x73]⟩,
  ⟨0x33B4, 0x33B4, .mapped, [0x70, 0x76]⟩,
  ⟨0x33B5, 0x33B5, .mapped, [0x6E, 0x76]⟩,
  ⟨0x33B6, 0x33B6, .mapped, [0x3BC, 0x76]⟩,
  ⟨0x33B7, 0x33B7, .mapped, [0x6D, 0x76]⟩,
  ⟨0x33B8, 0x33B8, .mapped, [0x6B, 0x76]⟩,
  ⟨0x33B9, 0x33B9, .mapped, [0x6D, 0x76]⟩,
  ⟨0x33BA, 0x33BA, .mapped, [0x70, 0x77]⟩,
  ⟨0x33BB, 0x33BB, .mapped, [0x6E, 0x77]⟩,
  ⟨0x33BC, 0x33BC, .mapped, [0x3BC, 0x77]⟩,
  ⟨0x33BD, 0x33BD, .mapped, [0x6D, 0x77]⟩,
  ⟨0x33BE, 0x33BE, .mapped, [0x6B, 0x77]⟩,
  ⟨0x33BF, 0x33BF, .mapped, [0x6D, 0x77]⟩,
  ⟨0x33C0, 0x33C0, .mapped, [0x6B, 0x3C9]⟩,
  ⟨0x33C1, 0x33C1, .mapped, [0x6D, 0x3C9]⟩,
  ⟨0x33C2, 0x33C2, .disallowed, []⟩,
  ⟨0x33C3, 0x33C3, .mapped, [0x62, 0x71]⟩,
  ⟨0x33C4, 0x33C4, .mapped, [0x63, 0x63]⟩,
  ⟨0x33C5, 0x33C5, .mapped, [0x63, 0x64]⟩,
  ⟨0x33C6, 0x33C6, .mapped, [0x63, 0x2215, 0x6B, 0x67]⟩,
  ⟨0x33C7, 0x33C7, .disallowed, []⟩,
  ⟨0x33C8, 0x33C8, .mapped, [0x64, 0x62]⟩,
  ⟨0x33C9, 0x33C9, .mapped, [0x67, 0x79]⟩,
  ⟨0x33CA, 0x33CA, .mapped, [0x68, 0x61]⟩,
  ⟨0x33CB, 0x33CB, .mapped, [0x68, 0x70]⟩,
  ⟨0x33CC, 0x33CC, .mapped, [0x69, 0x6E]⟩,
  ⟨0x33CD, 0x33CD, .mapped, [0x6B, 0x6B]⟩,
  ⟨0x33CE, 0x33CE, .mapped, [0x6B, 0x6D]⟩,
  ⟨0x33CF, 0x33CF, .mapped, [0x6B, 0x74]⟩,
  ⟨0x33D0, 0x33D0, .mapped, [0x6C, 0x6D]⟩,
  ⟨0x33D1, 0x33D1, .mapped, [0x6C, 0x6E]⟩,
  ⟨0x33D2, 0x33D2, .mapped, [0x6C, 0x6F, 0x67]⟩,
  ⟨0x33D3, 0x33D3, .mapped, [0x6C, 0x78]⟩,
  ⟨0x33D4, 0x33D4, .mapped, [0x6D, 0x62]⟩,
  ⟨0x33D5, 0x33D5, .mapped, [0x6D, 0x69, 0x6C]⟩,
  ⟨0x33D6, 0x33D6, .mapped, [0x6D, 0x6F, 0x6C]⟩,
  ⟨0x33D7, 0x33D7, .mapped, [0x70, 0x68]⟩,
  ⟨0x33D8, 0x33D8, .disallowed, []⟩,
  ⟨0x33D9, 0x33D9, .mapped, [0x70, 0x70, 0x6D]⟩,
  ⟨0x33DA, 0x33DA, .mapped, [0x70, 0x72]⟩,
  ⟨0x33DB, 0x33DB, .mapped, [0x73, 0x72]⟩,
  ⟨0x33DC, 0x33DC, .mapped, [0x73, 0x76]⟩,
  ⟨0x33DD, 0x33DD, .mapped, [0x77, 0x62]⟩,
  ⟨0x33DE, 0x33DE, .mapped, [0x76, 0x2215, 0x6D]⟩,
  ⟨0x33DF, 0x33DF, .mapped, [0x61, 0x2215, 0x6D]⟩,
  ⟨0x33E0, 0x33E0, .mapped, [0x31, 0x65E5]⟩,
  ⟨0x33E1, 0x33E1, .mapped, [0x32, 0x65E5]⟩,
  ⟨0x33E2, 0x33E2, .mapped, [0x33, 0x65E5]⟩,
  ⟨0x33E3, 0x33E3, .mapped, [0x34, 0x65E5]⟩,
  ⟨0x33E4, 0x33E4, .mapped, [0x35, 0x65E5]⟩,
  ⟨0x33E5, 0x33E5, .mapped, [0x36, 0x65E5]⟩,
  ⟨0x33E6, 0x33E6, .mapped, [0x37, 0x65E5]⟩,
  ⟨0x33E7, 0x33E7, .mapped, [0x38, 0x65E5]⟩,
  ⟨0x33E8, 0x33E8, .mapped, [0x39, 0x65E5]⟩,
  ⟨0x33E9, 0x33E9, .mapped, [0x31, 0x30, 0x65E5]⟩,
  ⟨0x33EA, 0x33EA, .mapped, [0x31, 0x31, 0x65E5]⟩,
  ⟨0x33EB, 0x33EB, .mapped, [0x31, 0x32, 0x65E5]⟩,
  ⟨0x33EC, 0x33EC, .mapped, [0x31, 0x33, 0x65E5]⟩,
  ⟨0x33ED, 0x33ED, .mapped, [0x31, 0x34, 0x65E5]⟩,
  ⟨0x33EE, 0x33EE, .mapped, [0x31, 0x35, 0x65E5]⟩,
  ⟨0x33EF, 0x33EF, .mapped, [0x31, 0x36, 0x65E5]⟩,
  ⟨0x33F0, 0x33F0, .mapped, [0x31, 0x37, 0x65E5]⟩,
  ⟨0x33F1, 0x33F1, .mapped, [0x31, 0x38, 0x65E5]⟩,
  ⟨0x33F2, 0x33F2, .mapped, [0x31, 0x39, 0x65E5]⟩,
  ⟨0x33F3, 0x33F3, .mapped, [0x32, 0x30, 0x65E5]⟩,
  ⟨0x33F4, 0x33F4, .mapped, [0x32, 0x31, 0x65E5]⟩,
  ⟨0x33F5, 0x33F5, .mapped, [0x32, 0x32, 0x65E5]⟩,
  ⟨0x33F6, 0x33F6, .mapped, [0x32, 0x33, 0x65E5]⟩,
  ⟨0x33F7, 0x33F7, .mapped, [0x32, 0x34, 0x65E5]⟩,
  ⟨0x33F8, 0x33F8, .mapped, [0x32, 0x35, 0x65E5]⟩,
  ⟨0x33F9, 0x33F9, .mapped, [0x32, 0x36, 0x65E5]⟩,
  ⟨0x33FA, 0x33FA, .mapped, [0x32, 0x37, 0x65E5]⟩,
  ⟨0x33FB, 0x33FB, .mapped, [0x32, 0x38, 0x65E5]⟩,
  ⟨0x33FC, 0x33FC, .mapped, [0x32, 0x39, 0x65E5]⟩,
  ⟨0x33FD, 0x33FD, .mapped, [0x33, 0x30, 0x65E5]⟩,
  ⟨0x33FE, 0x33FE, .mapped, [0x33, 0x31, 0x65E5]⟩,
  ⟨0x33FF, 0x33FF, .mapped, [0x67, 0x61, 0x6C]⟩,
  ⟨0x3400, 0x4DB5, .valid, []⟩,
  ⟨0x4DB6, 0x4DBF, .valid, []⟩,
  ⟨0x4DC0, 0x4DFF, .valid, []⟩,
  ⟨0x4E00, 0x9FA5, .valid, []⟩,
  ⟨0x9FA6, 0x9FBB, .valid, []⟩,
  ⟨0x9FBC, 0x9FC3, .valid, []⟩,
  ⟨0x9FC4, 0x9FCB, .valid, []⟩,
  ⟨0x9FCC, 0x9FCC, .valid, []⟩,
  ⟨0x9FCD, 0x9FD5, .valid, []⟩,
  ⟨0x9FD6, 0x9FEA, .valid, []⟩,
  ⟨0x9FEB, 0x9FEF, .valid, []⟩,
  ⟨0x9FF0, 0x9FFC, .valid, []⟩,
  ⟨0x9FFD, 0x9FFF, .disallowed, []⟩,
  ⟨0xA000, 0xA48C, .valid, []⟩,
  ⟨0xA48D, 0xA48F, .disallowed, []⟩,
  ⟨0xA490, 0xA4A1, .valid, []⟩,
  ⟨0xA4A2, 0xA4A3, .valid, []⟩,
  ⟨0xA4A4, 0xA4B3, .valid, []⟩,
  ⟨0xA4B4, 0xA4B4, .valid, []⟩,
  ⟨0xA4B5, 0xA4C0, .valid, []⟩,
  ⟨0xA4C1, 0xA4C1, .valid, []⟩,
  ⟨0xA4C2, 0xA4C4, .valid, []⟩,
  ⟨0xA4C5, 0xA4C5, .valid, []⟩,
  ⟨0xA4C6, 0xA4C6, .valid, []⟩,
  ⟨0xA4C7, 0xA4CF, .disallowed, []⟩,
  ⟨0xA4D0, 0xA4FD, .valid, []⟩,
  ⟨0xA4FE, 0xA4FF, .valid, []⟩,
  ⟨0xA500, 0xA60C, .valid, []⟩,
  ⟨0xA60D, 0xA60F, .valid, []⟩,
  ⟨0xA610, 0xA62B, .valid, []⟩,
  ⟨0xA62C, 0xA63F, .disallowed, []⟩,
  ⟨0xA640, 0xA640, .mapped, [0xA641]⟩,
  ⟨0xA641, 0xA641, .valid, []⟩,
  ⟨0xA642, 0xA642, .mapped, [0xA643]⟩,
  ⟨0xA643, 0xA643, .valid, []⟩,
  ⟨0xA644, 0xA644, .mapped, [0xA645]⟩,
  ⟨0xA645, 0xA645, .valid, []⟩,
  ⟨0xA646, 0xA646, .mapped, [0xA647]⟩,
  ⟨0xA647, 0xA647, .valid, []⟩,
  ⟨0xA648, 0xA648, .mapped, [0xA649]⟩,
  ⟨0xA649, 0xA649, .valid, []⟩,
  ⟨0xA64A, 0xA64A, .mapped, [0xA64B]⟩,
  ⟨0xA64B, 0xA64B, .valid, []⟩,
  ⟨0xA64C, 0xA64C, .mapped, [0xA64D]⟩,
  ⟨0xA64D, 0xA64D, .valid, []⟩,
  ⟨0xA64E, 0xA64E, .mapped, [0xA64F]⟩,
  ⟨0xA64F, 0xA64F, .valid, []⟩,
  ⟨0xA650, 0xA650, .mapped, [0xA651]⟩,
  ⟨0xA651, 0xA651, .valid, []⟩,
  ⟨0xA652, 0xA652, .mapped, [0xA653]⟩,
  ⟨0xA653, 0xA653, .valid, []⟩,
  ⟨0xA654, 0xA654, .mapped, [0xA655]⟩,
  ⟨0xA655, 0xA655, .valid, []⟩,
  ⟨0xA656, 0xA656, .mapped, [0xA657]⟩,
  ⟨0xA657, 0xA657, .valid, []⟩,
  ⟨0xA658, 0xA658, .mapped, [0xA659]⟩,
  ⟨0xA659, 0xA659, .valid, []⟩,
  ⟨0xA65A, 0xA65A, .mapped, [0xA65B]⟩,
  ⟨0xA65B, 0xA65B, .valid, []⟩,
  ⟨0xA65C, 0xA65C, .mapped, [0xA65D]⟩,
  ⟨0xA65D, 0xA65D, .valid, []⟩,
  ⟨0xA65E, 0xA65E, .mapped, [0xA65F]⟩,
  ⟨0xA65F, 0xA65F, .valid, []⟩,
  ⟨0xA660, 0xA660, .mapped, [0xA661]⟩,
  ⟨0xA661, 0xA661, .valid, []⟩,
  ⟨0xA662, 0xA662, .mapped, [0xA663]⟩,
  ⟨0xA663, 0xA663, .valid, []⟩,
  ⟨0xA664, 0xA664, .mapped, [0xA665]⟩,
  ⟨0xA665, 0xA665, .valid, []⟩,
  ⟨0xA666, 0xA666, .mapped, [0xA667]⟩,
  ⟨0xA667, 0xA667, .valid, []⟩,
  ⟨0xA668, 0xA668, .mapped, [0xA669]⟩,
  ⟨0xA669, 0xA669, .valid, []⟩,
  ⟨0xA66A, 0xA66A, .mapped, [0xA66B]⟩,
  ⟨0xA66B, 0xA66B, .valid, []⟩,
  ⟨0xA66C, 0xA66C, .mapped, [0xA66D]⟩,
  ⟨0xA66D, 0xA66F, .valid, []⟩,
  ⟨0xA670, 0xA673, .valid, []⟩,
  ⟨0xA674, 0xA67B, .valid, []⟩,
  ⟨0xA67C, 0xA67D, .valid, []⟩,
  ⟨0xA67E, 0xA67E, .valid, []⟩,
  ⟨0xA67F, 0xA67F, .valid, []⟩,
  ⟨0xA680, 0xA680, .mapped, [0xA681]⟩,
  ⟨0xA681, 0xA681, .valid, []⟩,
  ⟨0xA682, 0xA682, .mapped, [0xA683]⟩,
  ⟨0xA683, 0xA683, .valid, []⟩]

def map16 : List MapRow := [
  ⟨0xA684, 0xA684, .mapped, [0xA685]⟩,
  ⟨0xA685, 0xA685, .valid, []⟩,
  ⟨0xA686, 0xA686, .mapped, [0xA687]⟩,
  ⟨0xA687, 0xA687, .valid, []⟩,
  ⟨0xA688, 0xA688, .mapped, [0xA689]⟩,
  ⟨0xA689, 0xA689, .valid, []⟩,
  ⟨0xA68A, 0xA68A, .mapped, [0xA68B]⟩,
  ⟨0xA68B, 0xA68B, .valid, []⟩,
  ⟨0xA68C, 0xA68C, .mapped, [0xA68D]⟩,
  ⟨0xA68D, 0xA68D, .valid, []⟩,
  ⟨0xA68E, 0xA68E, .mapped, [0xA68F]⟩,
  ⟨0xA68F, 0xA68F, .valid, []⟩,
  ⟨0xA690, 0xA690, .mapped, [0xA691]⟩,
  ⟨0xA691, 0xA691, .valid, []⟩,
  ⟨0xA692, 0xA692, .mapped, [0xA693]⟩,
  ⟨0xA693, 0xA693, .valid, []⟩,
  ⟨0xA694, 0xA694, .mapped, [0xA695]⟩,
  ⟨0xA695, 0xA695, .valid, []⟩,
  ⟨0xA696, 0xA696, .mapped, [0xA697]⟩,
  ⟨0xA697, 0xA697, .valid, []⟩,
  ⟨0xA698, 0xA698, .mapped, [0xA699]⟩,
  ⟨0xA699, 0xA699, .valid, []⟩,
  ⟨0xA69A, 0xA69A, .mapped, [0xA69B]⟩,
  ⟨0xA69B, 0xA69B, .valid, []⟩,
  ⟨0xA69C, 0xA69C, .mapped, [0x44A]⟩,
  ⟨0xA69D, 0xA69D, .mapped, [0x44C]⟩,
  ⟨0xA69E, 0xA69E, .valid, []⟩,
  ⟨0xA69F, 0xA69F, .valid, []⟩,
  ⟨0xA6A0, 0xA6E5, .valid, []⟩,
  ⟨0xA6E6, 0xA6EF, .valid, []⟩,
  ⟨0xA6F0, 0xA6F1, .valid, []⟩,
  ⟨0xA6F2, 0xA6F7, .valid, []⟩,
  ⟨0xA6F8, 0xA6FF, .disallowed, []⟩,
  ⟨0xA700, 0xA716, .valid, []⟩,
  ⟨0xA717, 0xA71A, .valid, []⟩,
  ⟨0xA71B, 0xA71F, .valid, []⟩,
  ⟨0xA720, 0xA721, .valid, []⟩,
  ⟨0xA722, 0xA722, .mapped, [0xA723]⟩,
  ⟨0xA723, 0xA723, .valid, []⟩,
  ⟨0xA724, 0xA724, .mapped, [0xA725]⟩,
  ⟨0xA725, 0xA725, .valid, []⟩,
  ⟨0xA726, 0xA726, .mapped, [0xA727]⟩,
  ⟨0xA727, 0xA727, .valid, []⟩,
  ⟨0xA728, 0xA728, .mapped, [0xA729]⟩,
  ⟨0xA729, 0xA729, .valid, []⟩,
  ⟨0xA72A, 0xA72A, .mapped, [0xA72B]⟩,
  ⟨0xA72B, 0xA72B, .valid, []⟩,
  ⟨0xA72C, 0xA72C, .mapped, [0xA72D]⟩,
  ⟨0xA72D, 0xA72D, .valid, []⟩,
  ⟨0xA72E, 0xA72E, .mapped, [0xA72F]⟩,
  ⟨0xA72F, 0xA731, .valid, []⟩,
  ⟨0xA732, 0xA732, .mapped, [0xA733]⟩,
  ⟨0xA733, 0xA733, .valid, []⟩,
  ⟨0xA734, 0xA734, .mapped, [0xA735]⟩,
  ⟨0xA735, 0xA735, .valid, []⟩,
  ⟨0xA736, 0xA736, .mapped, [0xA737]⟩,
  ⟨0xA737, 0xA737, .valid, []⟩,
  ⟨0xA738, 0xA738, .mapped, [0xA739]⟩,
  ⟨0xA739, 0xA739, .valid, []⟩,
  ⟨0xA73A, 0xA73A, .mapped, [0xA73B]⟩,
  ⟨0xA73B, 0xA73B, .valid, []⟩,
  ⟨0xA73C, 0xA73C, .mapped, [0xA73D]⟩,
  ⟨0xA73D, 0xA73D, .valid, []⟩,
  ⟨0xA73E, 0xA73E, .mapped, [0xA73F]⟩,
  ⟨0xA73F, 0xA73F, .valid, []⟩,
  ⟨0xA740, 0xA740, .mapped, [0xA741]⟩,
  ⟨0xA741, 0xA741, .valid, []⟩,
  ⟨0xA742, 0xA742, .mapped, [0xA743]⟩,
  ⟨0xA743, 0xA743, .valid, []⟩,
  ⟨0xA744, 0xA744, .mapped, [0xA745]⟩,
  ⟨0xA745, 0xA745, .valid, []⟩,
  ⟨0xA746, 0xA746, .mapped, [0xA747]⟩,
  ⟨0xA747, 0xA747, .valid, []⟩,
  ⟨0xA748, 0xA748, .mapped, [0xA749]⟩,
  ⟨0xA749, 0xA749, .valid, []⟩,
  ⟨0xA74A, 0xA74A, .mapped, [0xA74B]⟩,
  ⟨0xA74B, 0xA74B, .valid, []⟩,
  ⟨0xA74C, 0xA74C, .mapped, [0xA74D]⟩,
  ⟨0xA74D, 0xA74D, .valid, []⟩,
  ⟨0xA74E, 0xA74E, .mapped, [0xA74F]⟩,
  ⟨0xA74F, 0xA74F, .valid, []⟩,
  ⟨0xA750, 0xA750, .mapped, [0xA751]⟩,
  ⟨0xA751, 0xA751, .valid, []⟩,
  ⟨0xA752, 0xA752, .mapped, [0xA753]⟩,
  ⟨0xA753, 0xA753, .valid, []⟩,
  ⟨0xA754, 0xA754, .mapped, [0xA755]⟩,
  ⟨0xA755, 0xA755, .valid, []⟩,
  ⟨0xA756, 0xA756, .mapped, [0xA757]⟩,
  ⟨0xA757, 0xA757, .valid, []⟩,
  ⟨0xA758, 0xA758, .mapped, [0xA759]⟩,
  ⟨0xA759, 0xA759, .valid, []⟩,
  ⟨0xA75A, 0xA75A, .mapped, [0xA75B]⟩,
  ⟨0xA75B, 0xA75B, .valid, []⟩,
  ⟨0xA75C, 0xA75C, .mapped, [0xA75D]⟩,
  ⟨0xA75D, 0xA75D, .valid, []⟩,
  ⟨0xA75E, 0xA75E, .mapped, [0xA75F]⟩,
  ⟨0xA75F, 0xA75F, .valid, []⟩,
  ⟨0xA760, 0xA760, .mapped, [0xA761]⟩,
  ⟨0xA761, 0xA761, .valid, []⟩,
  ⟨0xA762, 0xA762, .mapped, [0xA763]⟩,
  ⟨0xA763, 0xA763, .valid, []⟩,
  ⟨0xA764, 0xA764, .mapped, [0xA765]⟩,
  ⟨0xA765, 0xA765, .valid, []⟩,
  ⟨0xA766, 0xA766, .mapped, [0xA767]⟩,
  ⟨0xA767, 0xA767, .valid, []⟩,
  ⟨0xA768, 0xA768, .mapped, [0xA769]⟩,
  ⟨0xA769, 0xA769, .valid, []⟩,
  ⟨0xA76A, 0xA76A, .mapped, [0xA76B]⟩,
  ⟨0xA76B, 0xA76B, .valid, []⟩,
  ⟨0xA76C, 0xA76C, .mapped, [0xA76D]⟩,
  ⟨0xA76D, 0xA76D, .valid, []⟩,
  ⟨0xA76E, 0xA76E, .mapped, [0xA76F]⟩,
  ⟨0xA76F, 0xA76F, .valid, []⟩,
  ⟨0xA770, 0xA770, .mapped, [0xA76F]⟩,
  ⟨0xA771, 0xA778, .valid, []⟩,
  ⟨0xA779, 0xA779, .mapped, [0xA77A]⟩,
  ⟨0xA77A, 0xA77A, .valid, []⟩,
  ⟨0xA77B, 0xA77B, .mapped, [0xA77C]⟩,
  ⟨0xA77C, 0xA77C, .valid, []⟩,
  ⟨0xA77D, 0xA77D, .mapped, [0x1D79]⟩,
  ⟨0xA77E, 0xA77E, .mapped, [0xA77F]⟩,
  ⟨0xA77F, 0xA77F, .valid, []⟩,
  ⟨0xA780, 0xA780, .mapped, [0xA781]⟩,
  ⟨0xA781, 0xA781, .valid, []⟩,
  ⟨0xA782, 0xA782, .mapped, [0xA783]⟩,
  ⟨0xA783, 0xA783, .valid, []⟩,
  ⟨0xA784, 0xA784, .mapped, [0xA785]⟩,
  ⟨0xA785, 0xA785, .valid, []⟩,
  ⟨0xA786, 0xA786, .mapped, [0xA787]⟩,
  ⟨0xA787, 0xA788, .valid, []⟩,
  ⟨0xA789, 0xA78A, .valid, []⟩,
  ⟨0xA78B, 0xA78B, .mapped, [0xA78C]⟩,
  ⟨0xA78C, 0xA78C, .valid, []⟩,
  ⟨0xA78D, 0xA78D, .mapped, [0x265]⟩,
  ⟨0xA78E, 0xA78E, .valid, []⟩,
  ⟨0xA78F, 0xA78F, .valid, []⟩,
  ⟨0xA790, 0xA790, .mapped, [0xA791]⟩,
  ⟨0xA791, 0xA791, .valid, []⟩,
  ⟨0xA792, 0xA792, .mapped, [0xA793]⟩,
  ⟨0xA793, 0xA793, .valid, []⟩,
  ⟨0xA794, 0xA795, .valid, []⟩,
  ⟨0xA796, 0xA796, .mapped, [0xA797]⟩,
  ⟨0xA797, 0xA797, .valid, []⟩,
  ⟨0xA798, 0xA798, .mapped, [0xA799]⟩,
  ⟨0xA799, 0xA799, .valid, []⟩,
  ⟨0xA79A, 0xA79A, .mapped, [0xA79B]⟩,
  ⟨0xA79B, 0xA79B, .valid, []⟩,
  ⟨0xA79C, 0xA79C, .mapped, [0xA79D]⟩,
  ⟨0xA79D, 0xA79D, .valid, []⟩,
  ⟨0xA79E, 0xA79E, .mapped, [0xA79F]⟩,
  ⟨0xA79F, 0xA79F, .valid, []⟩,
  ⟨0xA7A0, 0xA7A0, .mapped, [0xA7A1]⟩,
  ⟨0xA7A1, 0xA7A1, .valid, []⟩,
  ⟨0xA7A2, 0xA7A2, .mapped, [0xA7A3]⟩,
  ⟨0xA7A3, 0xA7A3, .valid, []⟩,
  ⟨0xA7A4, 0xA7A4, .mapped, [0xA7A5]⟩,
  ⟨0xA7A5, 0xA7A5, .valid, []⟩,
  ⟨0xA7A6, 0xA7A6, .mapped, [0xA7A7]⟩,
  ⟨0xA7A7, 0xA7A7, .valid, []⟩,
  ⟨0xA7A8, 0xA7A8, .mapped, [0xA7A9]⟩,
  ⟨0xA7A9, 0xA7A9, .valid, []⟩,
  ⟨0xA7AA, 0xA7AA, .mapped, [0x266]⟩,
  ⟨0xA7AB, 0xA7AB, .mapped, [0x25C]⟩,
  ⟨0xA7AC, 0xA7AC, .mapped, [0x261]⟩,
  ⟨0xA7AD, 0xA7AD, .mapped, [0x26C]⟩,
  ⟨0xA7AE, 0xA7AE, .mapped, [0x26A]⟩,
  ⟨0xA7AF, 0xA7AF, .valid, []⟩,
  ⟨0xA7B0, 0xA7B0, .mapped, [0x29E]⟩,
  ⟨0xA7B1, 0xA7B1, .mapped, [0x287]⟩,
  ⟨0xA7B2, 0xA7B2, .mapped, [0x29D]⟩,
  ⟨0xA7B3, 0xA7B3, .mapped, [0xAB53]⟩,
  ⟨0xA7B4, 0xA7B4, .mapped, [0xA7B5]⟩,
  ⟨0xA7B5, 0xA7B5, .valid, []⟩,
  ⟨0xA7B6, 0xA7B6, .mapped, [0xA7B7]⟩,
  ⟨0xA7B7, 0xA7B7, .valid, []⟩,
  ⟨0xA7B8, 0xA7B8, .mapped, [0xA7B9]⟩,
  ⟨0xA7B9, 0xA7B9, .valid, []⟩,
  ⟨0xA7BA, 0xA7BA, .mapped, [0xA7BB]⟩,
  ⟨0xA7BB, 0xA7BB, .valid, []⟩,
  ⟨0xA7BC, 0xA7BC, .mapped, [0xA7BD]⟩,
  ⟨0xA7BD, 0xA7BD, .valid, []⟩,
  ⟨0xA7BE, 0xA7BE, .mapped, [0xA7BF]⟩,
  ⟨0xA7BF, 0xA7BF, .valid, []⟩,
  ⟨0xA7C0, 0xA7C1, .disallowed, []⟩,
  ⟨0xA7C2, 0xA7C2, .mapped, [0xA7C3]⟩,
  ⟨0xA7C3, 0xA7C3, .valid, []⟩,
  ⟨0xA7C4, 0xA7C4, .mapped, [0xA794]⟩,
  ⟨0xA7C5, 0xA7C5, .mapped, [0x282]⟩,
  ⟨0xA7C6, 0xA7C6, .mapped, [0x1D8E]⟩,
  ⟨0xA7C7, 0xA7C7, .mapped, [0xA7C8]⟩,
  ⟨0xA7C8, 0xA7C8, .valid, []⟩,
  ⟨0xA7C9, 0xA7C9, .mapped, [0xA7CA]⟩,
  ⟨0xA7CA, 0xA7CA, .valid, []⟩,
  ⟨0xA7CB, 0xA7F4, .disallowed, []⟩,
  ⟨0xA7F5, 0xA7F5, .mapped, [0xA7F6]⟩,
  ⟨0xA7F6, 0xA7F6, .valid, []⟩,
  ⟨0xA7F7, 0xA7F7, .valid, []⟩,
  ⟨0xA7F8, 0xA7F8, .mapped, [0x127]⟩,
  ⟨0xA7F9, 0xA7F9, .mapped, [0x153]⟩,
  ⟨0xA7FA, 0xA7FA, .valid, []⟩,
  ⟨0xA7FB, 0xA7FF, .valid, []⟩,
  ⟨0xA800, 0xA827, .valid, []⟩,
  ⟨0xA828, 0xA82B, .valid, []⟩,
  ⟨0xA82C, 0xA82C, .valid, []⟩,
  ⟨0xA82D, 0xA82F, .disallowed, []⟩,
  ⟨0xA830, 0xA839, .valid, []⟩,
  ⟨0xA83A, 0xA83F, .disallowed, []⟩,
  ⟨0xA840, 0xA873, .valid, []⟩,
  ⟨0xA874, 0xA877, .valid, []⟩,
  ⟨0xA878, 0xA87F, .disallowed, []⟩,
  ⟨0xA880, 0xA8C4, .valid, []⟩,
  ⟨0xA8C5, 0xA8C5, .valid, []⟩,
  ⟨0xA8C6, 0xA8CD, .disallowed, []⟩,
  ⟨0xA8CE, 0xA8CF, .valid, []⟩,
  ⟨0xA8D0, 0xA8D9, .valid, []⟩,
  ⟨0xA8DA, 0xA8DF, .disallowed, []⟩,
  ⟨0xA8E0, 0xA8F7, .valid, []⟩,
  ⟨0xA8F8, 0xA8FA, .valid, []⟩,
  ⟨0xA8FB, 0xA8FB, .valid, []⟩,
  ⟨0xA8FC, 0xA8FC, .valid, []⟩,
  ⟨0xA8FD, 0xA8FD, .valid, []⟩,
  ⟨0xA8FE, 0xA8FF, .valid, []⟩,
  ⟨0xA900, 0xA92D, .valid, []⟩,
  ⟨0xA92E, 0xA92F, .valid, []⟩,
  ⟨0xA930, 0xA953, .valid, []⟩,
  ⟨0xA954, 0xA95E, .disallowed, []⟩,
  ⟨0xA95F, 0xA95F, .valid, []⟩,
  ⟨0xA960, 0xA97C, .valid, []⟩,
  ⟨0xA97D, 0xA97F, .disallowed, []⟩,
  ⟨0xA980, 0xA9C0, .valid, []⟩,
  ⟨0xA9C1, 0xA9CD, .valid, []⟩,
  ⟨0xA9CE, 0xA9CE, .disallowed, []⟩,
  ⟨0xA9CF, 0xA9D9, .valid, []⟩,
  ⟨0xA9DA, 0xA9DD, .disallowed, []⟩,
  ⟨0xA9DE, 0xA9DF, .valid, []⟩,
  ⟨0xA9E0, 0xA9FE, .valid, []⟩,
  ⟨0xA9FF, 0xA9FF, .disallowed, []⟩,
  ⟨0xAA00, 0xAA36, .valid, []⟩,
  ⟨0xAA37, 0xAA3F, .disallowed, []⟩,
  ⟨0xAA40, 0xAA4D, .valid, []⟩,
  ⟨0xAA4E, 0xAA4F, .disallowed, []⟩,
  ⟨0xAA50, 0xAA59, .valid, []⟩,
  ⟨0xAA5A, 0xAA5B, .disallowed, []⟩,
  ⟨0xAA5C, 0xAA5F, .valid, []⟩,
  ⟨0xAA60, 0xAA76, .valid, []⟩,
  ⟨0xAA77, 0xAA79, .valid, []⟩,
  ⟨0xAA7A, 0xAA7B, .valid, []⟩,
  ⟨0xAA7C, 0xAA7F, .valid, []⟩,
  ⟨0xAA80, 0xAAC2, .valid, []⟩,
  ⟨0xAAC3, 0xAADA, .disallowed, []⟩]

def map17 : List MapRow := [
  ⟨0xAADB, 0xAADD, .valid, []⟩,
  ⟨0xAADE, 0xAADF, .valid, []⟩,
  ⟨0xAAE0, 0xAAEF, .valid, []⟩,
  ⟨0xAAF0, 0xAAF1, .valid, []⟩,
  ⟨0xAAF2, 0xAAF6, .valid, []⟩,
  ⟨0xAAF7, 0xAB00, .disallowed, []⟩,
  ⟨0xAB01, 0xAB06, .valid, []⟩,
  ⟨0xAB07, 0xAB08, .disallowed, []⟩,
  ⟨0xAB09, 0xAB0E, .valid, []⟩,
  ⟨0xAB0F, 0xAB10, .disallowed, []⟩,
  ⟨0xAB11, 0xAB16, .valid, []⟩,
  ⟨0xAB17, 0xAB1F, .disallowed, []⟩,
  ⟨0xAB20, 0xAB26, .valid, []⟩,
  ⟨0xAB27, 0xAB27, .disallowed, []⟩,
  ⟨0xAB28, 0xAB2E, .valid, []⟩,
  ⟨0xAB2F, 0xAB2F, .disallowed, []⟩,
  ⟨0xAB30, 0xAB5A, .valid, []⟩,
  ⟨0xAB5B, 0xAB5B, .valid, []⟩,
  ⟨0xAB5C, 0xAB5C, .mapped, [0xA727]⟩,
  ⟨0xAB5D, 0xAB5D, .mapped, [0xAB37]⟩,
  ⟨0xAB5E, 0xAB5E, .mapped, [0x26B]⟩,
  ⟨0xAB5F, 0xAB5F, .mapped, [0xAB52]⟩,
  ⟨0xAB60, 0xAB63, .valid, []⟩,
  ⟨0xAB64, 0xAB65, .valid, []⟩,
  ⟨0xAB66, 0xAB67, .valid, []⟩,
  ⟨0xAB68, 0xAB68, .valid, []⟩,
  ⟨0xAB69, 0xAB69, .mapped, [0x28D]⟩,
  ⟨0xAB6A, 0xAB6B, .valid, []⟩,
  ⟨0xAB6C, 0xAB6F, .disallowed, []⟩,
  ⟨0xAB70, 0xAB70, .mapped, [0x13A0]⟩,
  ⟨0xAB71, 0xAB71, .mapped, [0x13A1]⟩,
  ⟨0xAB72, 0xAB72, .mapped, [0x13A2]⟩,
  ⟨0xAB73, 0xAB73, .mapped, [0x13A3]⟩,
  ⟨0xAB74, 0xAB74, .mapped, [0x13A4]⟩,
  ⟨0xAB75, 0xAB75, .mapped, [0x13A5]⟩,
  ⟨0xAB76, 0xAB76, .mapped, [0x13A6]⟩,
  ⟨0xAB77, 0xAB77, .mapped, [0x13A7]⟩,
  ⟨0xAB78, 0xAB78, .mapped, [0x13A8]⟩,
  ⟨0xAB79, 0xAB79, .mapped, [0x13A9]⟩,
  ⟨0xAB7A, 0xAB7A, .mapped, [0x13AA]⟩,
  ⟨0xAB7B, 0xAB7B, .mapped, [0x13AB]⟩,
  ⟨0xAB7C, 0xAB7C, .mapped, [0x13AC]⟩,
  ⟨0xAB7D, 0xAB7D, .mapped, [0x13AD]⟩,
  ⟨0xAB7E, 0xAB7E, .mapped, [0x13AE]⟩,
  ⟨0xAB7F, 0xAB7F, .mapped, [0x13AF]⟩,
  ⟨0xAB80, 0xAB80, .mapped, [0x13B0]⟩,
  ⟨0xAB81, 0xAB81, .mapped, [0x13B1]⟩,
  ⟨0xAB82, 0xAB82, .mapped, [0x13B2]⟩,
  ⟨0xAB83, 0xAB83, .mapped, [0x13B3]⟩,
  ⟨0xAB84, 0xAB84, .mapped, [0x13B4]⟩,
  ⟨0xAB85, 0xAB85, .mapped, [0x13B5]⟩,
  ⟨0xAB86, 0xAB86, .mapped, [0x13B6]⟩,
  ⟨0xAB87, 0xAB87, .mapped, [0x13B7]⟩,
  ⟨0xAB88, 0xAB88, .mapped, [0x13B8]⟩,
  ⟨0xAB89, 0xAB89, .mapped, [0x13B9]⟩,
  ⟨0xAB8A, 0xAB8A, .mapped, [0x13BA]⟩,
  ⟨0xAB8B, 0xAB8B, .mapped, [0x13BB]⟩,
  ⟨0xAB8C, 0xAB8C, .mapped, [0x13BC]⟩,
  ⟨0xAB8D, 0xAB8D, .mapped, [0x13BD]⟩,
  ⟨0xAB8E, 0xAB8E, .mapped, [0x13BE]⟩,
  ⟨0xAB8F, 0xAB8F, .mapped, [0x13BF]⟩,
  ⟨0xAB90, 0xAB90, .mapped, [0x13C0]⟩,
  ⟨0xAB91, 0xAB91, .mapped, [0x13C1]⟩,
  ⟨0xAB92, 0xAB92, .mapped, [0x13C2]⟩,
  ⟨0xAB93, 0xAB93, .mapped, [0x13C3]⟩,
  ⟨0xAB94, 0xAB94, .mapped, [0x13C4]⟩,
  ⟨0xAB95, 0xAB95, .mapped, [0x13C5]⟩,
  ⟨0xAB96, 0xAB96, .mapped, [0x13C6]⟩,
  ⟨0xAB97, 0xAB97, .mapped, [0x13C7]⟩,
  ⟨0xAB98, 0xAB98, .mapped, [0x13C8]⟩,
  ⟨0xAB99, 0xAB99, .mapped, [0x13C9]⟩,
  ⟨0xAB9A, 0xAB9A, .mapped, [0x13CA]⟩,
  ⟨0xAB9B, 0xAB9B, .mapped, [0x13CB]⟩,
  ⟨0xAB9C, 0xAB9C, .mapped, [0x13CC]⟩,
  ⟨0xAB9D, 0xAB9D, .mapped, [0x13CD]⟩,
  ⟨0xAB9E, 0xAB9E, .mapped, [0x13CE]⟩,
  ⟨0xAB9F, 0xAB9F, .mapped, [0x13CF]⟩,
  ⟨0xABA0, 0xABA0, .mapped, [0x13D0]⟩,
  ⟨0xABA1, 0xABA1, .mapped, [0x13D1]⟩,
  ⟨0xABA2, 0xABA2, .mapped, [0x13D2]⟩,
  ⟨0xABA3, 0xABA3, .mapped, [0x13D3]⟩,
  ⟨0xABA4, 0xABA4, .mapped, [0x13D4]⟩,
  ⟨0xABA5, 0xABA5, .mapped, [0x13D5]⟩,
  ⟨0xABA6, 0xABA6, .mapped, [0x13D6]⟩,
  ⟨0xABA7, 0xABA7, .mapped, [0x13D7]⟩,
  ⟨0xABA8, 0xABA8, .mapped, [0x13D8]⟩,
  ⟨0xABA9, 0xABA9, .mapped, [0x13D9]⟩,
  ⟨0xABAA, 0xABAA, .mapped, [0x13DA]⟩,
  ⟨0xABAB, 0xABAB, .mapped, [0x13DB]⟩,
  ⟨0xABAC, 0xABAC, .mapped, [0x13DC]⟩,
  ⟨0xABAD, 0xABAD, .mapped, [0x13DD]⟩,
  ⟨0xABAE, 0xABAE, .mapped, [0x13DE]⟩,
  ⟨0xABAF, 0xABAF, .mapped, [0x13DF]⟩,
  ⟨0xABB0, 0xABB0, .mapped, [0x13E0]⟩,
  ⟨0xABB1, 0xABB1, .mapped, [0x13E1]⟩,
  ⟨0xABB2, 0xABB2, .mapped, [0x13E2]⟩,
  ⟨0xABB3, 0xABB3, .mapped, [0x13E3]⟩,
  ⟨0xABB4, 0xABB4, .mapped, [0x13E4]⟩,
  ⟨0xABB5, 0xABB5, .mapped, [0x13E5]⟩,
  ⟨0xABB6, 0xABB6, .mapped, [0x13E6]⟩,
  ⟨0xABB7, 0xABB7, .mapped, [0x13E7]⟩,
  ⟨0xABB8, 0xABB8, .mapped, [0x13E8]⟩,
  ⟨0xABB9, 0xABB9, .mapped, [0x13E9]⟩,
  ⟨0xABBA, 0xABBA, .mapped, [0x13EA]⟩,
  ⟨0xABBB, 0xABBB, .mapped, [0x13EB]⟩,
  ⟨0xABBC, 0xABBC, .mapped, [0x13EC]⟩,
  ⟨0xABBD, 0xABBD, .mapped, [0x13ED]⟩,
  ⟨0xABBE, 0xABBE, .mapped, [0x13EE]⟩,
  ⟨0xABBF, 0xABBF, .mapped, [0x13EF]⟩,
  ⟨0xABC0, 0xABEA, .valid, []⟩,
  ⟨0xABEB, 0xABEB, .valid, []⟩,
  ⟨0xABEC, 0xABED, .valid, []⟩,
  ⟨0xABEE, 0xABEF, .disallowed, []⟩,
  ⟨0xABF0, 0xABF9, .valid, []⟩,
  ⟨0xABFA, 0xABFF, .disallowed, []⟩,
  ⟨0xAC00, 0xD7A3, .valid, []⟩,
  ⟨0xD7A4, 0xD7AF, .disallowed, []⟩,
  ⟨0xD7B0, 0xD7C6, .valid, []⟩,
  ⟨0xD7C7, 0xD7CA, .disallowed, []⟩,
  ⟨0xD7CB, 0xD7FB, .valid, []⟩,
  ⟨0xD7FC, 0xD7FF, .disallowed, []⟩,
  ⟨0xD800, 0xDFFF, .disallowed, []⟩,
  ⟨0xE000, 0xF8FF, .disallowed, []⟩,
  ⟨0xF900, 0xF900, .mapped, [0x8C48]⟩,
  ⟨0xF901, 0xF901, .mapped, [0x66F4]⟩,
  ⟨0xF902, 0xF902, .mapped, [0x8ECA]⟩,
  ⟨0xF903, 0xF903, .mapped, [0x8CC8]⟩,
  ⟨0xF904, 0xF904, .mapped, [0x6ED1]⟩,
  ⟨0xF905, 0xF905, .mapped, [0x4E32]⟩,
  ⟨0xF906, 0xF906, .mapped, [0x53E5]⟩,
  ⟨0xF907, 0xF908, .mapped, [0x9F9C]⟩,
  ⟨0xF909, 0xF909, .mapped, [0x5951]⟩,
  ⟨0xF90A, 0xF90A, .mapped, [0x91D1]⟩,
  ⟨0xF90B, 0xF90B, .mapped, [0x5587]⟩,
  ⟨0xF90C, 0xF90C, .mapped, [0x5948]⟩,
  ⟨0xF90D, 0xF90D, .mapped, [0x61F6]⟩,
  ⟨0xF90E, 0xF90E, .mapped, [0x7669]⟩,
  ⟨0xF90F, 0xF90F, .mapped, [0x7F85]⟩,
  ⟨0xF910, 0xF910, .mapped, [0x863F]⟩,
  ⟨0xF911, 0xF911, .mapped, [0x87BA]⟩,
  ⟨0xF912, 0xF912, .mapped, [0x88F8]⟩,
  ⟨0xF913, 0xF913, .mapped, [0x908F]⟩,
  ⟨0xF914, 0xF914, .mapped, [0x6A02]⟩,
  ⟨0xF915, 0xF915, .mapped, [0x6D1B]⟩,
  ⟨0xF916, 0xF916, .mapped, [0x70D9]⟩,
  ⟨0xF917, 0xF917, .mapped, [0x73DE]⟩,
  ⟨0xF918, 0xF918, .mapped, [0x843D]⟩,
  ⟨0xF919, 0xF919, .mapped, [0x916A]⟩,
  ⟨0xF91A, 0xF91A, .mapped, [0x99F1]⟩,
  ⟨0xF91B, 0xF91B, .mapped, [0x4E82]⟩,
  ⟨0xF91C, 0xF91C, .mapped, [0x5375]⟩,
  ⟨0xF91D, 0xF91D, .mapped, [0x6B04]⟩,
  ⟨0xF91E, 0xF91E, .mapped, [0x721B]⟩,
  ⟨0xF91F, 0xF91F, .mapped, [0x862D]⟩,
  ⟨0xF920, 0xF920, .mapped, [0x9E1E]⟩,
  ⟨0xF921, 0xF921, .mapped, [0x5D50]⟩,
  ⟨0xF922, 0xF922, .mapped, [0x6FEB]⟩,
  ⟨0xF923, 0xF923, .mapped, [0x85CD]⟩,
  ⟨0xF924, 0xF924, .mapped, [0x8964]⟩,
  ⟨0xF925, 0xF925, .mapped, [0x62C9]⟩,
  ⟨0xF926, 0xF926, .mapped, [0x81D8]⟩,
  ⟨0xF927, 0xF927, .mapped, [0x881F]⟩,
  ⟨0xF928, 0xF928, .mapped, [0x5ECA]⟩,
  ⟨0xF929, 0xF929, .mapped, [0x6717]⟩,
  ⟨0xF92A, 0xF92A, .mapped, [0x6D6A]⟩,
  ⟨0xF92B, 0xF92B, .mapped, [0x72FC]⟩,
  ⟨0xF92C, 0xF92C, .mapped, [0x90CE]⟩,
  ⟨0xF92D, 0xF92D, .mapped, [0x4F86]⟩,
  ⟨0xF92E, 0xF92E, .mapped, [0x51B7]⟩,
  ⟨0xF92F, 0xF92F, .mapped, [0x52DE]⟩,
  ⟨0xF930, 0xF930, .mapped, [0x64C4]⟩,
  ⟨0xF931, 0xF931, .mapped, [0x6AD3]⟩,
  ⟨0xF932, 0xF932, .mapped, [0x7210]⟩,
  ⟨0xF933, 0xF933, .mapped, [0x76E7]⟩,
  ⟨0xF934, 0xF934, .mapped, [0x8001]⟩,
  ⟨0xF935, 0xF935, .mapped, [0x8606]⟩,
  ⟨0xF936, 0xF936, .mapped, [0x865C]⟩,
  ⟨0xF937, 0xF937, .mapped, [0x8DEF]⟩,
  ⟨0xF938, 0xF938, .mapped, [0x9732]⟩,
  ⟨0xF939, 0xF939, .mapped, [0x9B6F]⟩,
  ⟨0xF93A, 0xF93A, .mapped, [0x9DFA]⟩,
  ⟨0xF93B, 0xF93B, .mapped, [0x788C]⟩,
  ⟨0xF93C, 0xF93C, .mapped, [0x797F]⟩,
  ⟨0xF93D, 0xF93D, .mapped, [0x7DA0]⟩,
  ⟨0xF93E, 0xF93E, .mapped, [0x83C9]⟩,
  ⟨0xF93F, 0xF93F, .mapped, [0x9304]⟩,
  ⟨0xF940, 0xF940, .mapped, [0x9E7F]⟩,
  ⟨0xF941, 0xF941, .mapped, [0x8AD6]⟩,
  ⟨0xF942, 0xF942, .mapped, [0x58DF]⟩,
  ⟨0xF943, 0xF943, .mapped, [0x5F04]⟩,
  ⟨0xF944, 0xF944, .mapped, [0x7C60]⟩,
  ⟨0xF945, 0xF945, .mapped, [0x807E]⟩,
  ⟨0xF946, 0xF946, .mapped, [0x7262]⟩,
  ⟨0xF947, 0xF947, .mapped, [0x78CA]⟩,
  ⟨0xF948, 0xF948, .mapped, [0x8CC2]⟩,
  ⟨0xF949, 0xF949, .mapped, [0x96F7]⟩,
  ⟨0xF94A, 0xF94A, .mapped, [0x58D8]⟩,
  ⟨0xF94B, 0xF94B, .mapped, [0x5C62]⟩,
  ⟨0xF94C, 0xF94C, .mapped, [0x6A13]⟩,
  ⟨0xF94D, 0xF94D, .mapped, [0x6DDA]⟩,
  ⟨0xF94E, 0xF94E, .mapped, [0x6F0F]⟩,
  ⟨0xF94F, 0xF94F, .mapped, [0x7D2F]⟩,
  ⟨0xF950, 0xF950, .mapped, [0x7E37]⟩,
  ⟨0xF951, 0xF951, .mapped, [0x964B]⟩,
  ⟨0xF952, 0xF952, .mapped, [0x52D2]⟩,
  ⟨0xF953, 0xF953, .mapped, [0x808B]⟩,
  ⟨0xF954, 0xF954, .mapped, [0x51DC]⟩,
  ⟨0xF955, 0xF955, .mapped, [0x51CC]⟩,
  ⟨0xF956, 0xF956, .mapped, [0x7A1C]⟩,
  ⟨0xF957, 0xF957, .mapped, [0x7DBE]⟩,
  ⟨0xF958, 0xF958, .mapped, [0x83F1]⟩,
  ⟨0xF959, 0xF959, .mapped, [0x9675]⟩,
  ⟨0xF95A, 0xF95A, .mapped, [0x8B80]⟩,
  ⟨0xF95B, 0xF95B, .mapped, [0x62CF]⟩,
  ⟨0xF95C, 0xF95C, .mapped, [0x6A02]⟩,
  ⟨0xF95D, 0xF95D, .mapped, [0x8AFE]⟩,
  ⟨0xF95E, 0xF95E, .mapped, [0x4E39]⟩,
  ⟨0xF95F, 0xF95F, .mapped, [0x5BE7]⟩,
  ⟨0xF960, 0xF960, .mapped, [0x6012]⟩,
  ⟨0xF961, 0xF961, .mapped, [0x7387]⟩,
  ⟨0xF962, 0xF962, .mapped, [0x7570]⟩,
  ⟨0xF963, 0xF963, .mapped, [0x5317]⟩,
  ⟨0xF964, 0xF964, .mapped, [0x78FB]⟩,
  ⟨0xF965, 0xF965, .mapped, [0x4FBF]⟩,
  ⟨0xF966, 0xF966, .mapped, [0x5FA9]⟩,
  ⟨0xF967, 0xF967, .mapped, [0x4E0D]⟩,
  ⟨0xF968, 0xF968, .mapped, [0x6CCC]⟩,
  ⟨0xF969, 0xF969, .mapped, [0x6578]⟩,
  ⟨0xF96A, 0xF96A, .mapped, [0x7D22]⟩,
  ⟨0xF96B, 0xF96B, .mapped, [0x53C3]⟩,
  ⟨0xF96C, 0xF96C, .mapped, [0x585E]⟩,
  ⟨0xF96D, 0xF96D, .mapped, [0x7701]⟩,
  ⟨0xF96E, 0xF96E, .mapped, [0x8449]⟩,
  ⟨0xF96F, 0xF96F, .mapped, [0x8AAA]⟩,
  ⟨0xF970, 0xF970, .mapped, [0x6BBA]⟩,
  ⟨0xF971, 0xF971, .mapped, [0x8FB0]⟩,
  ⟨0xF972, 0xF972, .mapped, [0x6C88]⟩,
  ⟨0xF973, 0xF973, .mapped, [0x62FE]⟩,
  ⟨0xF974, 0xF974, .mapped, [0x82E5]⟩,
  ⟨0xF975, 0xF975, .mapped, [0x63A0]⟩,
  ⟨0xF976, 0xF976, .mapped, [0x7565]⟩,
  ⟨0xF977, 0xF977, .mapped, [0x4EAE]⟩,
  ⟨0xF978, 0xF978, .mapped, [0x5169]⟩,
  ⟨0xF979, 0xF979, .mapped, [0x51C9]⟩,
  ⟨0xF97A, 0xF97A, .mapped, [0x6881]⟩,
  ⟨0xF97B, 0xF97B, .mapped, [0x7CE7]⟩,
  ⟨0xF97C, 0xF97C, .mapped, [0x826F]⟩,
  ⟨0xF97D, 0xF97D, .mapped, [0x8AD2]⟩,
  ⟨0xF97E, 0xF97E, .mapped, [0x91CF]⟩,
  ⟨0xF97F, 0xF97F, .mapped, [0x52F5]⟩]

def map18 : List MapRow := [
  ⟨0xF980, 0xF980, .mapped, [0x5442]⟩,
  ⟨0xF981, 0xF981, .mapped, [0x5973]⟩,
  ⟨0xF982, 0xF982, .mapped, [0x5EEC]⟩,
  ⟨0xF983, 0xF983, .mapped, [0x65C5]⟩,
  ⟨0xF984, 0xF984, .mapped, [0x6FFE]⟩,
  ⟨0xF985, 0xF985, .mapped, [0x792A]⟩,
  ⟨0xF986, 0xF986, .mapped, [0x95AD]⟩,
  ⟨0xF987, 0xF987, .mapped, [0x9A6A]⟩,
  ⟨0xF988, 0xF988, .mapped, [0x9E97]⟩,
  ⟨0xF989, 0xF989, .mapped, [0x9ECE]⟩,
  ⟨0xF98A, 0xF98A, .mapped, [0x529B]⟩,
  ⟨0xF98B, 0xF98B, .mapped, [0x66C6]⟩,
  ⟨0xF98C, 0xF98C, .mapped, [0x6B77]⟩,
  ⟨0xF98D, 0xF98D, .mapped, [0x8F62]⟩,
  ⟨0xF98E, 0xF98E, .mapped, [0x5E74]⟩,
  ⟨0xF98F, 0xF98F, .mapped, [0x6190]⟩,
  ⟨0xF990, 0xF990, .mapped, [0x6200]⟩,
  ⟨0xF991, 0xF991, .mapped, [0x649A]⟩,
  ⟨0xF992, 0xF992, .mapped, [0x6F23]⟩,
  ⟨0xF993, 0xF993, .mapped, [0x7149]⟩,
  ⟨0xF994, 0xF994, .mapped, [0x7489]⟩,
  ⟨0xF995, 0xF995, .mapped, [0x79CA]⟩,
  ⟨0xF996, 0xF996, .mapped, [0x7DF4]⟩,
  ⟨0xF997, 0xF997, .mapped, [0x806F]⟩,
  ⟨0xF998, 0xF998, .mapped, [0x8F26]⟩,
  ⟨0xF999, 0xF999, .mapped, [0x84EE]⟩,
  ⟨0xF99A, 0xF99A, .mapped, [0x9023]⟩,
  ⟨0xF99B, 0xF99B, .mapped, [0x934A]⟩,
  ⟨0xF99C, 0xF99C, .mapped, [0x5217]⟩,
  ⟨0xF99D, 0xF99D, .mapped, [0x52A3]⟩,
  ⟨0xF99E, 0xF99E, .mapped, [0x54BD]⟩,
  ⟨0xF99F, 0xF99F, .mapped, [0x70C8]⟩,
  ⟨0xF9A0, 0xF9A0, .mapped, [0x88C2]⟩,
  ⟨0xF9A1, 0xF9A1, .mapped, [0x8AAA]⟩,
  ⟨0xF9A2, 0xF9A2, .mapped, [0x5EC9]⟩,
  ⟨0xF9A3, 0xF9A3, .mapped, [0x5FF5]⟩,
  ⟨0xF9A4, 0xF9A4, .mapped, [0x637B]⟩,
  ⟨0xF9A5, 0xF9A5, .mapped, [0x6BAE]⟩,
  ⟨0xF9A6, 0xF9A6, .mapped, [0x7C3E]⟩,
  ⟨0xF9A7, 0xF9A7, .mapped, [0x7375]⟩,
  ⟨0xF9A8, 0xF9A8, .mapped, [0x4EE4]⟩,
  ⟨0xF9A9, 0xF9A9, .mapped, [0x56F9]⟩,
  ⟨0xF9AA, 0xF9AA, .mapped, [0x5BE7]⟩,
  ⟨0xF9AB, 0xF9AB, .mapped, [0x5DBA]⟩,
  ⟨0xF9AC, 0xF9AC, .mapped, [0x601C]⟩,
  ⟨0xF9AD, 0xF9AD, .mapped, [0x73B2]⟩,
  ⟨0xF9AE, 0xF9AE, .mapped, [0x7469]⟩,
  ⟨0xF9AF, 0xF9AF, .mapped, [0x7F9A]⟩,
  ⟨0xF9B0, 0xF9B0, .mapped, [0x8046]⟩,
  ⟨0xF9B1, 0xF9B1, .mapped, [0x9234]⟩,
  ⟨0xF9B2, 0xF9B2, .mapped, [0x96F6]⟩,
  ⟨0xF9B3, 0xF9B3, .mapped, [0x9748]⟩,
  ⟨0xF9B4, 0xF9B4, .mapped, [0x9818]⟩,
  ⟨0xF9B5, 0xF9B5, .mapped, [0x4F8B]⟩,
  ⟨0xF9B6, 0xF9B6, .mapped, [0x79AE]⟩,
  ⟨0xF9B7, 0xF9B7, .mapped, [0x91B4]⟩,
  ⟨0xF9B8, 0xF9B8, .mapped, [0x96B8]⟩,
  ⟨0xF9B9, 0xF9B9, .mapped, [0x60E1]⟩,
  ⟨0xF9BA, 0xF9BA, .mapped, [0x4E86]⟩,
  ⟨0xF9BB, 0xF9BB, .mapped, [0x50DA]⟩,
  ⟨0xF9BC, 0xF9BC, .mapped, [0x5BEE]⟩,
  ⟨0xF9BD, 0xF9BD, .mapped, [0x5C3F]⟩,
  ⟨0xF9BE, 0xF9BE, .mapped, [0x6599]⟩,
  ⟨0xF9BF, 0xF9BF, .mapped, [0x6A02]⟩,
  ⟨0xF9C0, 0xF9C0, .mapped, [0x71CE]⟩,
  ⟨0xF9C1, 0xF9C1, .mapped, [0x7642]⟩,
  ⟨0xF9C2, 0xF9C2, .mapped, [0x84FC]⟩,
  ⟨0xF9C3, 0xF9C3, .mapped, [0x907C]⟩,
  ⟨0xF9C4, 0xF9C4, .mapped, [0x9F8D]⟩,
  ⟨0xF9C5, 0xF9C5, .mapped, [0x6688]⟩,
  ⟨0xF9C6, 0xF9C6, .mapped, [0x962E]⟩,
  ⟨0xF9C7, 0xF9C7, .mapped, [0x5289]⟩,
  ⟨0xF9C8, 0xF9C8, .mapped, [0x677B]⟩,
  ⟨0xF9C9, 0xF9C9, .mapped, [0x67F3]⟩,
  ⟨0xF9CA, 0xF9CA, .mapped, [0x6D41]⟩,
  ⟨0xF9CB, 0xF9CB, .mapped, [0x6E9C]⟩,
  ⟨0xF9CC, 0xF9CC, .mapped, [0x7409]⟩,
  ⟨0xF9CD, 0xF9CD, .mapped, [0x7559]⟩,
  ⟨0xF9CE, 0xF9CE, .mapped, [0x786B]⟩,
  ⟨0xF9CF, 0xF9CF, .mapped, [0x7D10]⟩,
  ⟨0xF9D0, 0xF9D0, .mapped, [0x985E]⟩,
  ⟨0xF9D1, 0xF9D1, .mapped, [0x516D]⟩,
  ⟨0xF9D2, 0xF9D2, .mapped, [0x622E]⟩,
  ⟨0xF9D3, 0xF9D3, .mapped, [0x9678]⟩,
  ⟨0xF9D4, 0xF9D4, .mapped, [0x502B]⟩,
  ⟨0xF9D5, 0xF9D5, .mapped, [0x5D19]⟩,
  ⟨0xF9D6, 0xF9D6, .mapped, [0x6DEA]⟩,
  ⟨0xF9D7, 0xF9D7, .mapped, [0x8F2A]⟩,
  ⟨0xF9D8, 0xF9D8, .mapped, [0x5F8B]⟩,
  ⟨0xF9D9, 0xF9D9, .mapped, [0x6144]⟩,
  ⟨0xF9DA, 0xF9DA, .mapped, [0x6817]⟩,
  ⟨0xF9DB, 0xF9DB, .mapped, [0x7387]⟩,
  ⟨0xF9DC, 0xF9DC, .mapped, [0x9686]⟩,
  ⟨0xF9DD, 0xF9DD, .mapped, [0x5229]⟩,
  ⟨0xF9DE, 0xF9DE, .mapped, [0x540F]⟩,
  ⟨0xF9DF, 0xF9DF, .mapped, [0x5C65]⟩,
  ⟨0xF9E0, 0xF9E0, .mapped, [0x6613]⟩,
  ⟨0xF9E1, 0xF9E1, .mapped, [0x674E]⟩,
  ⟨0xF9E2, 0xF9E2, .mapped, [0x68A8]⟩,
  ⟨0xF9E3, 0xF9E3, .mapped, [0x6CE5]⟩,
  ⟨0xF9E4, 0xF9E4, .mapped, [0x7406]⟩,
  ⟨0xF9E5, 0xF9E5, .mapped, [0x75E2]⟩,
  ⟨0xF9E6, 0xF9E6, .mapped, [0x7F79]⟩,
  ⟨0xF9E7, 0xF9E7, .mapped, [0x88CF]⟩,
  ⟨0xF9E8, 0xF9E8, .mapped, [0x88E1]⟩,
  ⟨0xF9E9, 0xF9E9, .mapped, [0x91CC]⟩,
  ⟨0xF9EA, 0xF9EA, .mapped, [0x96E2]⟩,
  ⟨0xF9EB, 0xF9EB, .mapped, [0x533F]⟩,
  ⟨0xF9EC, 0xF9EC, .mapped, [0x6EBA]⟩,
  ⟨0xF9ED, 0xF9ED, .mapped, [0x541D]⟩,
  ⟨0xF9EE, 0xF9EE, .mapped, [0x71D0]⟩,
  ⟨0xF9EF, 0xF9EF, .mapped, [0x7498]⟩,
  ⟨0xF9F0, 0xF9F0, .mapped, [0x85FA]⟩,
  ⟨0xF9F1, 0xF9F1, .mapped, [0x96A3]⟩,
  ⟨0xF9F2, 0xF9F2, .mapped, [0x9C57]⟩,
  ⟨0xF9F3, 0xF9F3, .mapped, [0x9E9F]⟩,
  ⟨0xF9F4, 0xF9F4, .mapped, [0x6797]⟩,
  ⟨0xF9F5, 0xF9F5, .mapped, [0x6DCB]⟩,
  ⟨0xF9F6, 0xF9F6, .mapped, [0x81E8]⟩,
  ⟨0xF9F7, 0xF9F7, .mapped, [0x7ACB]⟩,
  ⟨0xF9F8, 0xF9F8, .mapped, [0x7B20]⟩,
  ⟨0xF9F9, 0xF9F9, .mapped, [0x7C92]⟩,
  ⟨0xF9FA, 0xF9FA, .mapped, [0x72C0]⟩,
  ⟨0xF9FB, 0xF9FB, .mapped, [0x7099]⟩,
  ⟨0xF9FC, 0xF9FC, .mapped, [0x8B58]⟩,
  ⟨0xF9FD, 0xF9FD, .mapped, [0x4EC0]⟩,
  ⟨0xF9FE, 0xF9FE, .mapped, [0x8336]⟩,
  ⟨0xF9FF, 0xF9FF, .mapped, [0x523A]⟩,
  ⟨0xFA00, 0xFA00, .mapped, [0x5207]⟩,
  ⟨0xFA01, 0xFA01, .mapped, [0x5EA6]⟩,
  ⟨0xFA02, 0xFA02, .mapped, [0x62D3]⟩,
  ⟨0xFA03, 0xFA03, .mapped, [0x7CD6]⟩,
  ⟨0xFA04, 0xFA04, .mapped, [0x5B85]⟩,
  ⟨0xFA05, 0xFA05, .mapped, [0x6D1E]⟩,
  ⟨0xFA06, 0xFA06, .mapped, [0x66B4]⟩,
  ⟨0xFA07, 0xFA07, .mapped, [0x8F3B]⟩,
  ⟨0xFA08, 0xFA08, .mapped, [0x884C]⟩,
  ⟨0xFA09, 0xFA09, .mapped, [0x964D]⟩,
  ⟨0xFA0A, 0xFA0A, .mapped, [0x898B]⟩,
  ⟨0xFA0B, 0xFA0B, .mapped, [0x5ED3]⟩,
  ⟨0xFA0C, 0xFA0C, .mapped, [0x5140]⟩,
  ⟨0xFA0D, 0xFA0D, .mapped, [0x55C0]⟩,
  ⟨0xFA0E, 0xFA0F, .valid, []⟩,
  ⟨0xFA10, 0xFA10, .mapped, [0x585A]⟩,
  ⟨0xFA11, 0xFA11, .valid, []⟩,
  ⟨0xFA12, 0xFA12, .mapped, [0x6674]⟩,
  ⟨0xFA13, 0xFA14, .valid, []⟩,
  ⟨0xFA15, 0xFA15, .mapped, [0x51DE]⟩,
  ⟨0xFA16, 0xFA16, .mapped, [0x732A]⟩,
  ⟨0xFA17, 0xFA17, .mapped, [0x76CA]⟩,
  ⟨0xFA18, 0xFA18, .mapped, [0x793C]⟩,
  ⟨0xFA19, 0xFA19, .mapped, [0x795E]⟩,
  ⟨0xFA1A, 0xFA1A, .mapped, [0x7965]⟩,
  ⟨0xFA1B, 0xFA1B, .mapped, [0x798F]⟩,
  ⟨0xFA1C, 0xFA1C, .mapped, [0x9756]⟩,
  ⟨0xFA1D, 0xFA1D, .mapped, [0x7CBE]⟩,
  ⟨0xFA1E, 0xFA1E, .mapped, [0x7FBD]⟩,
  ⟨0xFA1F, 0xFA1F, .valid, []⟩,
  ⟨0xFA20, 0xFA20, .mapped, [0x8612]⟩,
  ⟨0xFA21, 0xFA21, .valid, []⟩,
  ⟨0xFA22, 0xFA22, .mapped, [0x8AF8]⟩,
  ⟨0xFA23, 0xFA24, .valid, []⟩,
  ⟨0xFA25, 0xFA25, .mapped, [0x9038]⟩,
  ⟨0xFA26, 0xFA26, .mapped, [0x90FD]⟩,
  ⟨0xFA27, 0xFA29, .valid, []⟩,
  ⟨0xFA2A, 0xFA2A, .mapped, [0x98EF]⟩,
  ⟨0xFA2B, 0xFA2B, .mapped, [0x98FC]⟩,
  ⟨0xFA2C, 0xFA2C, .mapped, [0x9928]⟩,
  ⟨0xFA2D, 0xFA2D, .mapped, [0x9DB4]⟩,
  ⟨0xFA2E, 0xFA2E, .mapped, [0x90DE]⟩,
  ⟨0xFA2F, 0xFA2F, .mapped, [0x96B7]⟩,
  ⟨0xFA30, 0xFA30, .mapped, [0x4FAE]⟩,
  ⟨0xFA31, 0xFA31, .mapped, [0x50E7]⟩,
  ⟨0xFA32, 0xFA32, .mapped, [0x514D]⟩,
  ⟨0xFA33, 0xFA33, .mapped, [0x52C9]⟩,
  ⟨0xFA34, 0xFA34, .mapped, [0x52E4]⟩,
  ⟨0xFA35, 0xFA35, .mapped, [0x5351]⟩,
  ⟨0xFA36, 0xFA36, .mapped, [0x559D]⟩,
  ⟨0xFA37, 0xFA37, .mapped, [0x5606]⟩,
  ⟨0xFA38, 0xFA38, .mapped, [0x5668]⟩,
  ⟨0xFA39, 0xFA39, .mapped, [0x5840]⟩,
  ⟨0xFA3A, 0xFA3A, .mapped, [0x58A8]⟩,
  ⟨0xFA3B, 0xFA3B, .mapped, [0x5C64]⟩,
  ⟨0xFA3C, 0xFA3C, .mapped, [0x5C6E]⟩,
  ⟨0xFA3D, 0xFA3D, .mapped, [0x6094]⟩,
  ⟨0xFA3E, 0xFA3E, .mapped, [0x6168]⟩,
  ⟨0xFA3F, 0xFA3F, .mapped, [0x618E]⟩,
  ⟨0xFA40, 0xFA40, .mapped, [0x61F2]⟩,
  ⟨0xFA41, 0xFA41, .mapped, [0x654F]⟩,
  ⟨0xFA42, 0xFA42, .mapped, [0x65E2]⟩,
  ⟨0xFA43, 0xFA43, .mapped, [0x6691]⟩,
  ⟨0xFA44, 0xFA44, .mapped, [0x6885]⟩,
  ⟨0xFA45, 0xFA45, .mapped, [0x6D77]⟩,
  ⟨0xFA46, 0xFA46, .mapped, [0x6E1A]⟩,
  ⟨0xFA47, 0xFA47, .mapped, [0x6F22]⟩,
  ⟨0xFA48, 0xFA48, .mapped, [0x716E]⟩,
  ⟨0xFA49, 0xFA49, .mapped, [0x722B]⟩,
  ⟨0xFA4A, 0xFA4A, .mapped, [0x7422]⟩,
  ⟨0xFA4B, 0xFA4B, .mapped, [0x7891]⟩,
  ⟨0xFA4C, 0xFA4C, .mapped, [0x793E]⟩,
  ⟨0xFA4D, 0xFA4D, .mapped, [0x7949]⟩,
  ⟨0xFA4E, 0xFA4E, .mapped, [0x7948]⟩,
  ⟨0xFA4F, 0xFA4F, .mapped, [0x7950]⟩,
  ⟨0xFA50, 0xFA50, .mapped, [0x7956]⟩,
  ⟨0xFA51, 0xFA51, .mapped, [0x795D]⟩,
  ⟨0xFA52, 0xFA52, .mapped, [0x798D]⟩,
  ⟨0xFA53, 0xFA53, .mapped, [0x798E]⟩,
  ⟨0xFA54, 0xFA54, .mapped, [0x7A40]⟩,
  ⟨0xFA55, 0xFA55, .mapped, [0x7A81]⟩,
  ⟨0xFA56, 0xFA56, .mapped, [0x7BC0]⟩,
  ⟨0xFA57, 0xFA57, .mapped, [0x7DF4]⟩,
  ⟨0xFA58, 0xFA58, .mapped, [0x7E09]⟩,
  ⟨0xFA59, 0xFA59, .mapped, [0x7E41]⟩,
  ⟨0xFA5A, 0xFA5A, .mapped, [0x7F72]⟩,
  ⟨0xFA5B, 0xFA5B, .mapped, [0x8005]⟩,
  ⟨0xFA5C, 0xFA5C, .mapped, [0x81ED]⟩,
  ⟨0xFA5D, 0xFA5E, .mapped, [0x8279]⟩,
  ⟨0xFA5F, 0xFA5F, .mapped, [0x8457]⟩,
  ⟨0xFA60, 0xFA60, .mapped, [0x8910]⟩,
  ⟨0xFA61, 0xFA61, .mapped, [0x8996]⟩,
  ⟨0xFA62, 0xFA62, .mapped, [0x8B01]⟩,
  ⟨0xFA63, 0xFA63, .mapped, [0x8B39]⟩,
  ⟨0xFA64, 0xFA64, .mapped, [0x8CD3]⟩,
  ⟨0xFA65, 0xFA65, .mapped, [0x8D08]⟩,
  ⟨0xFA66, 0xFA66, .mapped, [0x8FB6]⟩,
  ⟨0xFA67, 0xFA67, .mapped, [0x9038]⟩,
  ⟨0xFA68, 0xFA68, .mapped, [0x96E3]⟩,
  ⟨0xFA69, 0xFA69, .mapped, [0x97FF]⟩,
  ⟨0xFA6A, 0xFA6A, .mapped, [0x983B]⟩,
  ⟨0xFA6B, 0xFA6B, .mapped, [0x6075]⟩,
  ⟨0xFA6C, 0xFA6C, .mapped, [0x242EE]⟩,
  ⟨0xFA6D, 0xFA6D, .mapped, [0x8218]⟩,
  ⟨0xFA6E, 0xFA6F, .disallowed, []⟩,
  ⟨0xFA70, 0xFA70, .mapped, [0x4E26]⟩,
  ⟨0xFA71, 0xFA71, .mapped, [0x51B5]⟩,
  ⟨0xFA72, 0xFA72, .mapped, [0x5168]⟩,
  ⟨0xFA73, 0xFA73, .mapped, [0x4F80]⟩,
  ⟨0xFA74, 0xFA74, .mapped, [0x5145]⟩,
  ⟨0xFA75, 0xFA75, .mapped, [0x5180]⟩,
  ⟨0xFA76, 0xFA76, .mapped, [0x52C7]⟩,
  ⟨0xFA77, 0xFA77, .mapped, [0x52FA]⟩,
  ⟨0xFA78, 0xFA78, .mapped, [0x559D]⟩,
  ⟨0xFA79, 0xFA79, .mapped, [0x5555]⟩,
  ⟨0xFA7A, 0xFA7A, .mapped, [0x5599]⟩,
  ⟨0xFA7B, 0xFA7B, .mapped, [0x55E2]⟩,
  ⟨0xFA7C, 0xFA7C, .mapped, [0x585A]⟩,
  ⟨0xFA7D, 0xFA7D, .mapped, [0x58B3]⟩,
  ⟨0xFA7E, 0xFA7E, .mapped, [0x5944]⟩,
  ⟨0xFA7F, 0xFA7F, .mapped, [0x5954]⟩,
  ⟨0xFA80, 0xFA80, .mapped, [0x5A62]⟩]

def map19 : List MapRow := [
  ⟨0xFA81, 0xFA81, .mapped, [0x5B28]⟩,
  ⟨0xFA82, 0xFA82, .mapped, [0x5ED2]⟩,
  ⟨0xFA83, 0xFA83, .mapped, [0x5ED9]⟩,
  ⟨0xFA84, 0xFA84, .mapped, [0x5F69]⟩,
  ⟨0xFA85, 0xFA85, .mapped, [0x5FAD]⟩,
  ⟨0xFA86, 0xFA86, .mapped, [0x60D8]⟩,
  ⟨0xFA87, 0xFA87, .mapped, [0x614E]⟩,
  ⟨0xFA88, 0xFA88, .mapped, [0x6108]⟩,
  ⟨0xFA89, 0xFA89, .mapped, [0x618E]⟩,
  ⟨0xFA8A, 0xFA8A, .mapped, [0x6160]⟩,
  ⟨0xFA8B, 0xFA8B, .mapped, [0x61F2]⟩,
  ⟨0xFA8C, 0xFA8C, .mapped, [0x6234]⟩,
  ⟨0xFA8D, 0xFA8D, .mapped, [0x63C4]⟩,
  ⟨0xFA8E, 0xFA8E, .mapped, [0x641C]⟩,
  ⟨0xFA8F, 0xFA8F, .mapped, [0x6452]⟩,
  ⟨0xFA90, 0xFA90, .mapped, [0x6556]⟩,
  ⟨0xFA91, 0xFA91, .mapped, [0x6674]⟩,
  ⟨0xFA92, 0xFA92, .mapped, [0x6717]⟩,
  ⟨0xFA93, 0xFA93, .mapped, [0x671B]⟩,
  ⟨0xFA94, 0xFA94, .mapped, [0x6756]⟩,
  ⟨0xFA95, 0xFA95, .mapped, [0x6B79]⟩,
  ⟨0xFA96, 0xFA96, .mapped, [0x6BBA]⟩,
  ⟨0xFA97, 0xFA97, .mapped, [0x6D41]⟩,
  ⟨0xFA98, 0xFA98, .mapped, [0x6EDB]⟩,
  ⟨0xFA99, 0xFA99, .mapped, [0x6ECB]⟩,
  ⟨0xFA9A, 0xFA9A, .mapped, [0x6F22]⟩,
  ⟨0xFA9B, 0xFA9B, .mapped, [0x701E]⟩,
  ⟨0xFA9C, 0xFA9C, .mapped, [0x716E]⟩,
  ⟨0xFA9D, 0xFA9D, .mapped, [0x77A7]⟩,
  ⟨0xFA9E, 0xFA9E, .mapped, [0x7235]⟩,
  ⟨0xFA9F, 0xFA9F, .mapped, [0x72AF]⟩,
  ⟨0xFAA0, 0xFAA0, .mapped, [0x732A]⟩,
  ⟨0xFAA1, 0xFAA1, .mapped, [0x7471]⟩,
  ⟨0xFAA2, 0xFAA2, .mapped, [0x7506]⟩,
  ⟨0xFAA3, 0xFAA3, .mapped, [0x753B]⟩,
  ⟨0xFAA4, 0xFAA4, .mapped, [0x761D]⟩,
  ⟨0xFAA5, 0xFAA5, .mapped, [0x761F]⟩,
  ⟨0xFAA6, 0xFAA6, .mapped, [0x76CA]⟩,
  ⟨0xFAA7, 0xFAA7, .mapped, [0x76DB]⟩,
  ⟨0xFAA8, 0xFAA8, .mapped, [0x76F4]⟩,
  ⟨0xFAA9, 0xFAA9, .mapped, [0x774A]⟩,
  ⟨0xFAAA, 0xFAAA, .mapped, [0x7740]⟩,
  ⟨0xFAAB, 0xFAAB, .mapped, [0x78CC]⟩,
  ⟨0xFAAC, 0xFAAC, .mapped, [0x7AB1]⟩,
  ⟨0xFAAD, 0xFAAD, .mapped, [0x7BC0]⟩,
  ⟨0xFAAE, 0xFAAE, .mapped, [0x7C7B]⟩,
  ⟨0xFAAF, 0xFAAF, .mapped, [0x7D5B]⟩,
  ⟨0xFAB0, 0xFAB0, .mapped, [0x7DF4]⟩,
  ⟨0xFAB1, 0xFAB1, .mapped, [0x7F3E]⟩,
  ⟨0xFAB2, 0xFAB2, .mapped, [0x8005]⟩,
  ⟨0xFAB3, 0xFAB3, .mapped, [0x8352]⟩,
  ⟨0xFAB4, 0xFAB4, .mapped, [0x83EF]⟩,
  ⟨0xFAB5, 0xFAB5, .mapped, [0x8779]⟩,
  ⟨0xFAB6, 0xFAB6, .mapped, [0x8941]⟩,
  ⟨0xFAB7, 0xFAB7, .mapped, [0x8986]⟩,
  ⟨0xFAB8, 0xFAB8, .mapped, [0x8996]⟩,
  ⟨0xFAB9, 0xFAB9, .mapped, [0x8ABF]⟩,
  ⟨0xFABA, 0xFABA, .mapped, [0x8AF8]⟩,
  ⟨0xFABB, 0xFABB, .mapped, [0x8ACB]⟩,
  ⟨0xFABC, 0xFABC, .mapped, [0x8B01]⟩,
  ⟨0xFABD, 0xFABD, .mapped, [0x8AFE]⟩,
  ⟨0xFABE, 0xFABE, .mapped, [0x8AED]⟩,
  ⟨0xFABF, 0xFABF, .mapped, [0x8B39]⟩,
  ⟨0xFAC0, 0xFAC0, .mapped, [0x8B8A]⟩,
  ⟨0xFAC1, 0xFAC1, .mapped, [0x8D08]⟩,
  ⟨0xFAC2, 0xFAC2, .mapped, [0x8F38]⟩,
  ⟨0xFAC3, 0xFAC3, .mapped, [0x9072]⟩,
  ⟨0xFAC4, 0xFAC4, .mapped, [0x9199]⟩,
  ⟨0xFAC5, 0xFAC5, .mapped, [0x9276]⟩,
  ⟨0xFAC6, 0xFAC6, .mapped, [0x967C]⟩,
  ⟨0xFAC7, 0xFAC7, .mapped, [0x96E3]⟩,
  ⟨0xFAC8, 0xFAC8, .mapped, [0x9756]⟩,
  ⟨0xFAC9, 0xFAC9, .mapped, [0x97DB]⟩,
  ⟨0xFACA, 0xFACA, .mapped, [0x97FF]⟩,
  ⟨0xFACB, 0xFACB, .mapped, [0x980B]⟩,
  ⟨0xFACC, 0xFACC, .mapped, [0x983B]⟩,
  ⟨0xFACD, 0xFACD, .mapped, [0x9B12]⟩,
  ⟨0xFACE, 0xFACE, .mapped, [0x9F9C]⟩,
  ⟨0xFACF, 0xFACF, .mapped, [0x2284A]⟩,
  ⟨0xFAD0, 0xFAD0, .mapped, [0x22844]⟩,
  ⟨0xFAD1, 0xFAD1, .mapped, [0x233D5]⟩,
  ⟨0xFAD2, 0xFAD2, .mapped, [0x3B9D]⟩,
  ⟨0xFAD3, 0xFAD3, .mapped, [0x4018]⟩,
  ⟨0xFAD4, 0xFAD4, .mapped, [0x4039]⟩,
  ⟨0xFAD5, 0xFAD5, .mapped, [0x25249]⟩,
  ⟨0xFAD6, 0xFAD6, .mapped, [0x25CD0]⟩,
  ⟨0xFAD7, 0xFAD7, .mapped, [0x27ED3]⟩,
  ⟨0xFAD8, 0xFAD8, .mapped, [0x9F43]⟩,
  ⟨0xFAD9, 0xFAD9, .mapped, [0x9F8E]⟩,
  ⟨0xFADA, 0xFAFF, .disallowed, []⟩,
  ⟨0xFB00, 0xFB00, .mapped, [0x66, 0x66]⟩,
  ⟨0xFB01, 0xFB01, .mapped, [0x66, 0x69]⟩,
  ⟨0xFB02, 0xFB02, .mapped, [0x66, 0x6C]⟩,
  ⟨0xFB03, 0xFB03, .mapped, [0x66, 0x66, 0x69]⟩,
  ⟨0xFB04, 0xFB04, .mapped, [0x66, 0x66, 0x6C]⟩,
  ⟨0xFB05, 0xFB06, .mapped, [0x73, 0x74]⟩,
  ⟨0xFB07, 0xFB12, .disallowed, []⟩,
  ⟨0xFB13, 0xFB13, .mapped, [0x574, 0x576]⟩,
  ⟨0xFB14, 0xFB14, .mapped, [0x574, 0x565]⟩,
  ⟨0xFB15, 0xFB15, .mapped, [0x574, 0x56B]⟩,
  ⟨0xFB16, 0xFB16, .mapped, [0x57E, 0x576]⟩,
  ⟨0xFB17, 0xFB17, .mapped, [0x574, 0x56D]⟩,
  ⟨0xFB18, 0xFB1C, .disallowed, []⟩,
  ⟨0xFB1D, 0xFB1D, .mapped, [0x5D9, 0x5B4]⟩,
  ⟨0xFB1E, 0xFB1E, .valid, []⟩,
  ⟨0xFB1F, 0xFB1F, .mapped, [0x5F2, 0x5B7]⟩,
  ⟨0xFB20, 0xFB20, .mapped, [0x5E2]⟩,
  ⟨0xFB21, 0xFB21, .mapped, [0x5D0]⟩,
  ⟨0xFB22, 0xFB22, .mapped, [0x5D3]⟩,
  ⟨0xFB23, 0xFB23, .mapped, [0x5D4]⟩,
  ⟨0xFB24, 0xFB24, .mapped, [0x5DB]⟩,
  ⟨0xFB25, 0xFB25, .mapped, [0x5DC]⟩,
  ⟨0xFB26, 0xFB26, .mapped, [0x5DD]⟩,
  ⟨0xFB27, 0xFB27, .mapped, [0x5E8]⟩,
  ⟨0xFB28, 0xFB28, .mapped, [0x5EA]⟩,
  ⟨0xFB29, 0xFB29, .std3Mapped, [0x2B]⟩,
  ⟨0xFB2A, 0xFB2A, .mapped, [0x5E9, 0x5C1]⟩,
  ⟨0xFB2B, 0xFB2B, .mapped, [0x5E9, 0x5C2]⟩,
  ⟨0xFB2C, 0xFB2C, .mapped, [0x5E9, 0x5BC, 0x5C1]⟩,
  ⟨0xFB2D, 0xFB2D, .mapped, [0x5E9, 0x5BC, 0x5C2]⟩,
  ⟨0xFB2E, 0xFB2E, .mapped, [0x5D0, 0x5B7]⟩,
  ⟨0xFB2F, 0xFB2F, .mapped, [0x5D0, 0x5B8]⟩,
  ⟨0xFB30, 0xFB30, .mapped, [0x5D0, 0x5BC]⟩,
  ⟨0xFB31, 0xFB31, .mapped, [0x5D1, 0x5BC]⟩,
  ⟨0xFB32, 0xFB32, .mapped, [0x5D2, 0x5BC]⟩,
  ⟨0xFB33, 0xFB33, .mapped, [0x5D3, 0x5BC]⟩,
  ⟨0xFB34, 0xFB34, .mapped, [0x5D4, 0x5BC]⟩,
  ⟨0xFB35, 0xFB35, .mapped, [0x5D5, 0x5BC]⟩,
  ⟨0xFB36, 0xFB36, .mapped, [0x5D6, 0x5BC]⟩,
  ⟨0xFB37, 0xFB37, .disallowed, []⟩,
  ⟨0xFB38, 0xFB38, .mapped, [0x5D8, 0x5BC]⟩,
  ⟨0xFB39, 0xFB39, .mapped, [0x5D9, 0x5BC]⟩,
  ⟨0xFB3A, 0xFB3A, .mapped, [0x5DA, 0x5BC]⟩,
  ⟨0xFB3B, 0xFB3B, .mapped, [0x5DB, 0x5BC]⟩,
  ⟨0xFB3C, 0xFB3C, .mapped, [0x5DC, 0x5BC]⟩,
  ⟨0xFB3D, 0xFB3D, .disallowed, []⟩,
  ⟨0xFB3E, 0xFB3E, .mapped, [0x5DE, 0x5BC]⟩,
  ⟨0xFB3F, 0xFB3F, .disallowed, []⟩,
  ⟨0xFB40, 0xFB40, .mapped, [0x5E0, 0x5BC]⟩,
  ⟨0xFB41, 0xFB41, .mapped, [0x5E1, 0x5BC]⟩,
  ⟨0xFB42, 0xFB42, .disallowed, []⟩,
  ⟨0xFB43, 0xFB43, .mapped, [0x5E3, 0x5BC]⟩,
  ⟨0xFB44, 0xFB44, .mapped, [0x5E4, 0x5BC]⟩,
  ⟨0xFB45, 0xFB45, .disallowed, []⟩,
  ⟨0xFB46, 0xFB46, .mapped, [0x5E6, 0x5BC]⟩,
  ⟨0xFB47, 0xFB47, .mapped, [0x5E7, 0x5BC]⟩,
  ⟨0xFB48, 0xFB48, .mapped, [0x5E8, 0x5BC]⟩,
  ⟨0xFB49, 0xFB49, .mapped, [0x5E9, 0x5BC]⟩,
  ⟨0xFB4A, 0xFB4A, .mapped, [0x5EA, 0x5BC]⟩,
  ⟨0xFB4B, 0xFB4B, .mapped, [0x5D5, 0x5B9]⟩,
  ⟨0xFB4C, 0xFB4C, .mapped, [0x5D1, 0x5BF]⟩,
  ⟨0xFB4D, 0xFB4D, .mapped, [0x5DB, 0x5BF]⟩,
  ⟨0xFB4E, 0xFB4E, .mapped, [0x5E4, 0x5BF]⟩,
  ⟨0xFB4F, 0xFB4F, .mapped, [0x5D0, 0x5DC]⟩,
  ⟨0xFB50, 0xFB51, .mapped, [0x671]⟩,
  ⟨0xFB52, 0xFB55, .mapped, [0x67B]⟩,
  ⟨0xFB56, 0xFB59, .mapped, [0x67E]⟩,
  ⟨0xFB5A, 0xFB5D, .mapped, [0x680]⟩,
  ⟨0xFB5E, 0xFB61, .mapped, [0x67A]⟩,
  ⟨0xFB62, 0xFB65, .mapped, [0x67F]⟩,
  ⟨0xFB66, 0xFB69, .mapped, [0x679]⟩,
  ⟨0xFB6A, 0xFB6D, .mapped, [0x6A4]⟩,
  ⟨0xFB6E, 0xFB71, .mapped, [0x6A6]⟩,
  ⟨0xFB72, 0xFB75, .mapped, [0x684]⟩,
  ⟨0xFB76, 0xFB79, .mapped, [0x683]⟩,
  ⟨0xFB7A, 0xFB7D, .mapped, [0x686]⟩,
  ⟨0xFB7E, 0xFB81, .mapped, [0x687]⟩,
  ⟨0xFB82, 0xFB83, .mapped, [0x68D]⟩,
  ⟨0xFB84, 0xFB85, .mapped, [0x68C]⟩,
  ⟨0xFB86, 0xFB87, .mapped, [0x68E]⟩,
  ⟨0xFB88, 0xFB89, .mapped, [0x688]⟩,
  ⟨0xFB8A, 0xFB8B, .mapped, [0x698]⟩,
  ⟨0xFB8C, 0xFB8D, .mapped, [0x691]⟩,
  ⟨0xFB8E, 0xFB91, .mapped, [0x6A9]⟩,
  ⟨0xFB92, 0xFB95, .mapped, [0x6AF]⟩,
  ⟨0xFB96, 0xFB99, .mapped, [0x6B3]⟩,
  ⟨0xFB9A, 0xFB9D, .mapped, [0x6B1]⟩,
  ⟨0xFB9E, 0xFB9F, .mapped, [0x6BA]⟩,
  ⟨0xFBA0, 0xFBA3, .mapped, [0x6BB]⟩,
  ⟨0xFBA4, 0xFBA5, .mapped, [0x6C0]⟩,
  ⟨0xFBA6, 0xFBA9, .mapped, [0x6C1]⟩,
  ⟨0xFBAA, 0xFBAD, .mapped, [0x6BE]⟩,
  ⟨0xFBAE, 0xFBAF, .mapped, [0x6D2]⟩,
  ⟨0xFBB0, 0xFBB1, .mapped, [0x6D3]⟩,
  ⟨0xFBB2, 0xFBC1, .valid, []⟩,
  ⟨0xFBC2, 0xFBD2, .disallowed, []⟩,
  ⟨0xFBD3, 0xFBD6, .mapped, [0x6AD]⟩,
  ⟨0xFBD7, 0xFBD8, .mapped, [0x6C7]⟩,
  ⟨0xFBD9, 0xFBDA, .mapped, [0x6C6]⟩,
  ⟨0xFBDB, 0xFBDC, .mapped, [0x6C8]⟩,
  ⟨0xFBDD, 0xFBDD, .mapped, [0x6C7, 0x674]⟩,
  ⟨0xFBDE, 0xFBDF, .mapped, [0x6CB]⟩,
  ⟨0xFBE0, 0xFBE1, .mapped, [0x6C5]⟩,
  ⟨0xFBE2, 0xFBE3, .mapped, [0x6C9]⟩,
  ⟨0xFBE4, 0xFBE7, .mapped, [0x6D0]⟩,
  ⟨0xFBE8, 0xFBE9, .mapped, [0x649]⟩,
  ⟨0xFBEA, 0xFBEB, .mapped, [0x626, 0x627]⟩,
  ⟨0xFBEC, 0xFBED, .mapped, [0x626, 0x6D5]⟩,
  ⟨0xFBEE, 0xFBEF, .mapped, [0x626, 0x648]⟩,
  ⟨0xFBF0, 0xFBF1, .mapped, [0x626, 0x6C7]⟩,
  ⟨0xFBF2, 0xFBF3, .mapped, [0x626, 0x6C6]⟩,
  ⟨0xFBF4, 0xFBF5, .mapped, [0x626, 0x6C8]⟩,
  ⟨0xFBF6, 0xFBF8, .mapped, [0x626, 0x6D0]⟩,
  ⟨0xFBF9, 0xFBFB, .mapped, [0x626, 0x649]⟩,
  ⟨0xFBFC, 0xFBFF, .mapped, [0x6CC]⟩,
  ⟨0xFC00, 0xFC00, .mapped, [0x626, 0x62C]⟩,
  ⟨0xFC01, 0xFC01, .mapped, [0x626, 0x62D]⟩,
  ⟨0xFC02, 0xFC02, .mapped, [0x626, 0x645]⟩,
  ⟨0xFC03, 0xFC03, .mapped, [0x626, 0x649]⟩,
  ⟨0xFC04, 0xFC04, .mapped, [0x626, 0x64A]⟩,
  ⟨0xFC05, 0xFC05, .mapped, [0x628, 0x62C]⟩,
  ⟨0xFC06, 0xFC06, .mapped, [0x628, 0x62D]⟩,
  ⟨0xFC07, 0xFC07, .mapped, [0x628, 0x62E]⟩,
  ⟨0xFC08, 0xFC08, .mapped, [0x628, 0x645]⟩,
  ⟨0xFC09, 0xFC09, .mapped, [0x628, 0x649]⟩,
  ⟨0xFC0A, 0xFC0A, .mapped, [0x628, 0x64A]⟩,
  ⟨0xFC0B, 0xFC0B, .mapped, [0x62A, 0x62C]⟩,
  ⟨0xFC0C, 0xFC0C, .mapped, [0x62A, 0x62D]⟩,
  ⟨0xFC0D, 0xFC0D, .mapped, [0x62A, 0x62E]⟩,
  ⟨0xFC0E, 0xFC0E, .mapped, [0x62A, 0x645]⟩,
  ⟨0xFC0F, 0xFC0F, .mapped, [0x62A, 0x649]⟩,
  ⟨0xFC10, 0xFC10, .mapped, [0x62A, 0x64A]⟩,
  ⟨0xFC11, 0xFC11, .mapped, [0x62B, 0x62C]⟩,
  ⟨0xFC12, 0xFC12, .mapped, [0x62B, 0x645]⟩,
  ⟨0xFC13, 0xFC13, .mapped, [0x62B, 0x649]⟩,
  ⟨0xFC14, 0xFC14, .mapped, [0x62B, 0x64A]⟩,
  ⟨0xFC15, 0xFC15, .mapped, [0x62C, 0x62D]⟩,
  ⟨0xFC16, 0xFC16, .mapped, [0x62C, 0x645]⟩,
  ⟨0xFC17, 0xFC17, .mapped, [0x62D, 0x62C]⟩,
  ⟨0xFC18, 0xFC18, .mapped, [0x62D, 0x645]⟩,
  ⟨0xFC19, 0xFC19, .mapped, [0x62E, 0x62C]⟩,
  ⟨0xFC1A, 0xFC1A, .mapped, [0x62E, 0x62D]⟩,
  ⟨0xFC1B, 0xFC1B, .mapped, [0x62E, 0x645]⟩,
  ⟨0xFC1C, 0xFC1C, .mapped, [0x633, 0x62C]⟩,
  ⟨0xFC1D, 0xFC1D, .mapped, [0x633, 0x62D]⟩,
  ⟨0xFC1E, 0xFC1E, .mapped, [0x633, 0x62E]⟩,
  ⟨0xFC1F, 0xFC1F, .mapped, [0x633, 0x645]⟩,
  ⟨0xFC20, 0xFC20, .mapped, [0x635, 0x62D]⟩,
  ⟨0xFC21, 0xFC21, .mapped, [0x635, 0x645]⟩,
  ⟨0xFC22, 0xFC22, .mapped, [0x636, 0x62C]⟩,
  ⟨0xFC23, 0xFC23, .mapped, [0x636, 0x62D]⟩,
  ⟨0xFC24, 0xFC24, .mapped, [0x636, 0x62E]⟩,
  ⟨0xFC25, 0xFC25, .mapped, [0x636, 0x645]⟩,
  ⟨0xFC26, 0xFC26, .mapped, [0x637, 0x62D]⟩,
  ⟨0xFC27, 0xFC27, .mapped, [0x637, 0x645]⟩,
  ⟨0xFC28, 0xFC28, .mapped, [0x638, 0x645]⟩,
  ⟨0xFC29, 0xFC29, .mapped, [0x639, 0x62C]⟩,
  ⟨0xFC2A, 0xFC2A, .mapped, [0x639, 0x645]⟩,
  ⟨0xFC2B, 0xFC2B, .mapped, [0x63A, 0x62C]⟩,
  ⟨0xFC2C, 0xFC2C, .mapped, [0x63A, 0x645]⟩]

def map20 : List MapRow := [
  ⟨0xFC2D, 0xFC2D, .mapped, [0x641, 0x62C]⟩,
  ⟨0xFC2E, 0xFC2E, .mapped, [0x641, 0x62D]⟩,
  ⟨0xFC2F, 0xFC2F, .mapped, [0x641, 0x62E]⟩,
  ⟨0xFC30, 0xFC30, .mapped, [0x641, 0x645]⟩,
  ⟨0xFC31, 0xFC31, .mapped, [0x641, 0x649]⟩,
  ⟨0xFC32, 0xFC32, .mapped, [0x641, 0x64A]⟩,
  ⟨0xFC33, 0xFC33, .mapped, [0x642, 0x62D]⟩,
  ⟨0xFC34, 0xFC34, .mapped, [0x642, 0x645]⟩,
  ⟨0xFC35, 0xFC35, .mapped, [0x642, 0x649]⟩,
  ⟨0xFC36, 0xFC36, .mapped, [0x642, 0x64A]⟩,
  ⟨0xFC37, 0xFC37, .mapped, [0x643, 0x627]⟩,
  ⟨0xFC38, 0xFC38, .mapped, [0x643, 0x62C]⟩,
  ⟨0xFC39, 0xFC39, .mapped, [0x643, 0x62D]⟩,
  ⟨0xFC3A, 0xFC3A, .mapped, [0x643, 0x62E]⟩,
  ⟨0xFC3B, 0xFC3B, .mapped, [0x643, 0x644]⟩,
  ⟨0xFC3C, 0xFC3C, .mapped, [0x643, 0x645]⟩,
  ⟨0xFC3D, 0xFC3D, .mapped, [0x643, 0x649]⟩,
  ⟨0xFC3E, 0xFC3E, .mapped, [0x643, 0x64A]⟩,
  ⟨0xFC3F, 0xFC3F, .mapped, [0x644, 0x62C]⟩,
  ⟨0xFC40, 0xFC40, .mapped, [0x644, 0x62D]⟩,
  ⟨0xFC41, 0xFC41, .mapped, [0x644, 0x62E]⟩,
  ⟨0xFC42, 0xFC42, .mapped, [0x644, 0x645]⟩,
  ⟨0xFC43, 0xFC43, .mapped, [0x644, 0x649]⟩,
  ⟨0xFC44, 0xFC44, .mapped, [0x644, 0x64A]⟩,
  ⟨0xFC45, 0xFC45, .mapped, [0x645, 0x62C]⟩,
  ⟨0xFC46, 0xFC46, .mapped, [0x645, 0x62D]⟩,
  ⟨0xFC47, 0xFC47, .mapped, [0x645, 0x62E]⟩,
  ⟨0xFC48, 0xFC48, .mapped, [0x645, 0x645]⟩,
  ⟨0xFC49, 0xFC49, .mapped, [0x645, 0x649]⟩,
  ⟨0xFC4A, 0xFC4A, .mapped, [0x645, 0x64A]⟩,
  ⟨0xFC4B, 0xFC4B, .mapped, [0x646, 0x62C]⟩,
  ⟨0xFC4C, 0xFC4C, .mapped, [0x646, 0x62D]⟩,
  ⟨0xFC4D, 0xFC4D, .mapped, [0x646, 0x62E]⟩,
  ⟨0xFC4E, 0xFC4E, .mapped, [0x646, 0x645]⟩,
  ⟨0xFC4F, 0xFC4F, .mapped, [0x646, 0x649]⟩,
  ⟨0xFC50, 0xFC50, .mapped, [0x646, 0x64A]⟩,
  ⟨0xFC51, 0xFC51, .mapped, [0x647, 0x62C]⟩,
  ⟨0xFC52, 0xFC52, .mapped, [0x647, 0x645]⟩,
  ⟨0xFC53, 0xFC53, .mapped, [0x647, 0x649]⟩,
  ⟨0xFC54, 0xFC54, .mapped, [0x647, 0x64A]⟩,
  ⟨0xFC55, 0xFC55, .mapped, [0x64A, 0x62C]⟩,
  ⟨0xFC56, 0xFC56, .mapped, [0x64A, 0x62D]⟩,
  ⟨0xFC57, 0xFC57, .mapped, [0x64A, 0x62E]⟩,
  ⟨0xFC58, 0xFC58, .mapped, [0x64A, 0x645]⟩,
  ⟨0xFC59, 0xFC59, .mapped, [0x64A, 0x649]⟩,
  ⟨0xFC5A, 0xFC5A, .mapped, [0x64A, 0x64A]⟩,
  ⟨0xFC5B, 0xFC5B, .mapped, [0x630, 0x670]⟩,
  ⟨0xFC5C, 0xFC5C, .mapped, [0x631, 0x670]⟩,
  ⟨0xFC5D, 0xFC5D, .mapped, [0x649, 0x670]⟩,
  ⟨0xFC5E, 0xFC5E, .std3Mapped, [0x20, 0x64C, 0x651]⟩,
  ⟨0xFC5F, 0xFC5F, .std3Mapped, [0x20, 0x64D, 0x651]⟩,
  ⟨0xFC60, 0xFC60, .std3Mapped, [0x20, 0x64E, 0x651]⟩,
  ⟨0xFC61, 0xFC61, .std3Mapped, [0x20, 0x64F, 0x651]⟩,
  ⟨0xFC62, 0xFC62, .std3Mapped, [0x20, 0x650, 0x651]⟩,
  ⟨0xFC63, 0xFC63, .std3Mapped, [0x20, 0x651, 0x670]⟩,
  ⟨0xFC64, 0xFC64, .mapped, [0x626, 0x631]⟩,
  ⟨0xFC65, 0xFC65, .mapped, [0x626, 0x632]⟩,
  ⟨0xFC66, 0xFC66, .mapped, [0x626, 0x645]⟩,
  ⟨0xFC67, 0xFC67, .mapped, [0x626, 0x646]⟩,
  ⟨0xFC68, 0xFC68, .mapped, [0x626, 0x649]⟩,
  ⟨0xFC69, 0xFC69, .mapped, [0x626, 0x64A]⟩,
  ⟨0xFC6A, 0xFC6A, .mapped, [0x628, 0x631]⟩,
  ⟨0xFC6B, 0xFC6B, .mapped, [0x628, 0x632]⟩,
  ⟨0xFC6C, 0xFC6C, .mapped, [0x628, 0x645]⟩,
  ⟨0xFC6D, 0xFC6D, .mapped, [0x628, 0x646]⟩,
  ⟨0xFC6E, 0xFC6E, .mapped, [0x628, 0x649]⟩,
  ⟨0xFC6F, 0xFC6F, .mapped, [0x628, 0x64A]⟩,
  ⟨0xFC70, 0xFC70, .mapped, [0x62A, 0x631]⟩,
  ⟨0xFC71, 0xFC71, .mapped, [0x62A, 0x632]⟩,
  ⟨0xFC72, 0xFC72, .mapped, [0x62A, 0x645]⟩,
  ⟨0xFC73, 0xFC73, .mapped, [0x62A, 0x646]⟩,
  ⟨0xFC74, 0xFC74, .mapped, [0x62A, 0x649]⟩,
  ⟨0xFC75, 0xFC75, .mapped, [0x62A, 0x64A]⟩,
  ⟨0xFC76, 0xFC76, .mapped, [0x62B, 0x631]⟩,
  ⟨0xFC77, 0xFC77, .mapped, [0x62B, 0x632]⟩,
  ⟨0xFC78, 0xFC78, .mapped, [0x62B, 0x645]⟩,
  ⟨0xFC79, 0xFC79, .mapped, [0x62B, 0x646]⟩,
  ⟨0xFC7A, 0xFC7A, .mapped, [0x62B, 0x649]⟩,
  ⟨0xFC7B, 0xFC7B, .mapped, [0x62B, 0x64A]⟩,
  ⟨0xFC7C, 0xFC7C, .mapped, [0x641, 0x649]⟩,
  ⟨0xFC7D, 0xFC7D, .mapped, [0x641, 0x64A]⟩,
  ⟨0xFC7E, 0xFC7E, .mapped, [0x642, 0x649]⟩,
  ⟨0xFC7F, 0xFC7F, .mapped, [0x642, 0x64A]⟩,
  ⟨0xFC80, 0xFC80, .mapped, [0x643, 0x627]⟩,
  ⟨0xFC81, 0xFC81, .mapped, [0x643, 0x644]⟩,
  ⟨0xFC82, 0xFC82, .mapped, [0x643, 0x645]⟩,
  ⟨0xFC83, 0xFC83, .mapped, [0x643, 0x649]⟩,
  ⟨0xFC84, 0xFC84, .mapped, [0x643, 0x64A]⟩,
  ⟨0xFC85, 0xFC85, .mapped, [0x644, 0x645]⟩,
  ⟨0xFC86, 0xFC86, .mapped, [0x644, 0x649]⟩,
  ⟨0xFC87, 0xFC87, .mapped, [0x644, 0x64A]⟩,
  ⟨0xFC88, 0xFC88, .mapped, [0x645, 0x627]⟩,
  ⟨0xFC89, 0xFC89, .mapped, [0x645, 0x645]⟩,
  ⟨0xFC8A, 0xFC8A, .mapped, [0x646, 0x631]⟩,
  ⟨0xFC8B, 0xFC8B, .mapped, [0x646, 0x632]⟩,
  ⟨0xFC8C, 0xFC8C, .mapped, [0x646, 0x645]⟩,
  ⟨0xFC8D, 0xFC8D, .mapped, [0x646, 0x646]⟩,
  ⟨0xFC8E, 0xFC8E, .mapped, [0x646, 0x649]⟩,
  ⟨0xFC8F, 0xFC8F, .mapped, [0x646, 0x64A]⟩,
  ⟨0xFC90, 0xFC90, .mapped, [0x649, 0x670]⟩,
  ⟨0xFC91, 0xFC91, .mapped, [0x64A, 0x631]⟩,
  ⟨0xFC92, 0xFC92, .mapped, [0x64A, 0x632]⟩,
  ⟨0xFC93, 0xFC93, .mapped, [0x64A, 0x645]⟩,
  ⟨0xFC94, 0xFC94, .mapped, [0x64A, 0x646]⟩,
  ⟨0xFC95, 0xFC95, .mapped, [0x64A, 0x649]⟩,
  ⟨0xFC96, 0xFC96, .mapped, [0x64A, 0x64A]⟩,
  ⟨0xFC97, 0xFC97, .mapped, [0x626, 0x62C]⟩,
  ⟨0xFC98, 0xFC98, .mapped, [0x626, 0x62D]⟩,
  ⟨0xFC99, 0xFC99, .mapped, [0x626, 0x62E]⟩,
  ⟨0xFC9A, 0xFC9A, .mapped, [0x626, 0x645]⟩,
  ⟨0xFC9B, 0xFC9B, .mapped, [0x626, 0x647]⟩,
  ⟨0xFC9C, 0xFC9C, .mapped, [0x628, 0x62C]⟩,
  ⟨0xFC9D, 0xFC9D, .mapped, [0x628, 0x62D]⟩,
  ⟨0xFC9E, 0xFC9E, .mapped, [0x628, 0x62E]⟩,
  ⟨0xFC9F, 0xFC9F, .mapped, [0x628, 0x645]⟩,
  ⟨0xFCA0, 0xFCA0, .mapped, [0x628, 0x647]⟩,
  ⟨0xFCA1, 0xFCA1, .mapped, [0x62A, 0x62C]⟩,
  ⟨0xFCA2, 0xFCA2, .mapped, [0x62A, 0x62D]⟩,
  ⟨0xFCA3, 0xFCA3, .mapped, [0x62A, 0x62E]⟩,
  ⟨0xFCA4, 0xFCA4, .mapped, [0x62A, 0x645]⟩,
  ⟨0xFCA5, 0xFCA5, .mapped, [0x62A, 0x647]⟩,
  ⟨0xFCA6, 0xFCA6, .mapped, [0x62B, 0x645]⟩,
  ⟨0xFCA7, 0xFCA7, .mapped, [0x62C, 0x62D]⟩,
  ⟨0xFCA8, 0xFCA8, .mapped, [0x62C, 0x645]⟩,
  ⟨0xFCA9, 0xFCA9, .mapped, [0x62D, 0x62C]⟩,
  ⟨0xFCAA, 0xFCAA, .mapped, [0x62D, 0x645]⟩,
  ⟨0xFCAB, 0xFCAB, .mapped, [0x62E, 0x62C]⟩,
  ⟨0xFCAC, 0xFCAC, .mapped, [0x62E, 0x645]⟩,
  ⟨0xFCAD, 0xFCAD, .mapped, [0x633, 0x62C]⟩,
  ⟨0xFCAE, 0xFCAE, .mapped, [0x633, 0x62D]⟩,
  ⟨0xFCAF, 0xFCAF, .mapped, [0x633, 0x62E]⟩,
  ⟨0xFCB0, 0xFCB0, .mapped, [0x633, 0x645]⟩,
  ⟨0xFCB1, 0xFCB1, .mapped, [0x635, 0x62D]⟩,
  ⟨0xFCB2, 0xFCB2, .mapped, [0x635, 0x62E]⟩,
  ⟨0xFCB3, 0xFCB3, .mapped, [0x635, 0x645]⟩,
  ⟨0xFCB4, 0xFCB4, .mapped, [0x636, 0x62C]⟩,
  ⟨0xFCB5, 0xFCB5, .mapped, [0x636, 0x62D]⟩,
  ⟨0xFCB6, 0xFCB6, .mapped, [0x636, 0x62E]⟩,
  ⟨0xFCB7, 0xFCB7, .mapped, [0x636, 0x645]⟩,
  ⟨0xFCB8, 0xFCB8, .mapped, [0x637, 0x62D]⟩,
  ⟨0xFCB9, 0xFCB9, .mapped, [0x638, 0x645]⟩,
  ⟨0xFCBA, 0xFCBA, .mapped, [0x639, 0x62C]⟩,
  ⟨0xFCBB, 0xFCBB, .mapped, [0x639, 0x645]⟩,
  ⟨0xFCBC, 0xFCBC, .mapped, [0x63A, 0x62C]⟩,
  ⟨0xFCBD, 0xFCBD, .mapped, [0x63A, 0x645]⟩,
  ⟨0xFCBE, 0xFCBE, .mapped, [0x641, 0x62C]⟩,
  ⟨0xFCBF, 0xFCBF, .mapped, [0x641, 0x62D]⟩,
  ⟨0xFCC0, 0xFCC0, .mapped, [0x641, 0x62E]⟩,
  ⟨0xFCC1, 0xFCC1, .mapped, [0x641, 0x645]⟩,
  ⟨0xFCC2, 0xFCC2, .mapped, [0x642, 0x62D]⟩,
  ⟨0xFCC3, 0xFCC3, .mapped, [0x642, 0x645]⟩,
  ⟨0xFCC4, 0xFCC4, .mapped, [0x643, 0x62C]⟩,
  ⟨0xFCC5, 0xFCC5, .mapped, [0x643, 0x62D]⟩,
  ⟨0xFCC6, 0xFCC6, .mapped, [0x643, 0x62E]⟩,
  ⟨0xFCC7, 0xFCC7, .mapped, [0x643, 0x644]⟩,
  ⟨0xFCC8, 0xFCC8, .mapped, [0x643, 0x645]⟩,
  ⟨0xFCC9, 0xFCC9, .mapped, [0x644, 0x62C]⟩,
  ⟨0xFCCA, 0xFCCA, .mapped, [0x644, 0x62D]⟩,
  ⟨0xFCCB, 0xFCCB, .mapped, [0x644, 0x62E]⟩,
  ⟨0xFCCC, 0xFCCC, .mapped, [0x644, 0x645]⟩,
  ⟨0xFCCD, 0xFCCD, .mapped, [0x644, 0x647]⟩,
  ⟨0xFCCE, 0xFCCE, .mapped, [0x645, 0x62C]⟩,
  ⟨0xFCCF, 0xFCCF, .mapped, [0x645, 0x62D]⟩,
  ⟨0xFCD0, 0xFCD0, .mapped, [0x645, 0x62E]⟩,
  ⟨0xFCD1, 0xFCD1, .mapped, [0x645, 0x645]⟩,
  ⟨0xFCD2, 0xFCD2, .mapped, [0x646, 0x62C]⟩,
  ⟨0xFCD3, 0xFCD3, .mapped, [0x646, 0x62D]⟩,
  ⟨0xFCD4, 0xFCD4, .mapped, [0x646, 0x62E]⟩,
  ⟨0xFCD5, 0xFCD5, .mapped, [0x646, 0x645]⟩,
  ⟨0xFCD6, 0xFCD6, .mapped, [0x646, 0x647]⟩,
  ⟨0xFCD7, 0xFCD7, .mapped, [0x647, 0x62C]⟩,
  ⟨0xFCD8, 0xFCD8, .mapped, [0x647, 0x645]⟩,
  ⟨0xFCD9, 0xFCD9, .mapped, [0x647, 0x670]⟩,
  ⟨0xFCDA, 0xFCDA, .mapped, [0x64A, 0x62C]⟩,
  ⟨0xFCDB, 0xFCDB, .mapped, [0x64A, 0x62D]⟩,
  ⟨0xFCDC, 0xFCDC, .mapped, [0x64A, 0x62E]⟩,
  ⟨0xFCDD, 0xFCDD, .mapped, [0x64A, 0x645]⟩,
  ⟨0xFCDE, 0xFCDE, .mapped, [0x64A, 0x647]⟩,
  ⟨0xFCDF, 0xFCDF, .mapped, [0x626, 0x645]⟩,
  ⟨0xFCE0, 0xFCE0, .mapped, [0x626, 0x647]⟩,
  ⟨0xFCE1, 0xFCE1, .mapped, [0x628, 0x645]⟩,
  ⟨0xFCE2, 0xFCE2, .mapped, [0x628, 0x647]⟩,
  ⟨0xFCE3, 0xFCE3, .mapped, [0x62A, 0x645]⟩,
  ⟨0xFCE4, 0xFCE4, .mapped, [0x62A, 0x647]⟩,
  ⟨0xFCE5, 0xFCE5, .mapped, [0x62B, 0x645]⟩,
  ⟨0xFCE6, 0xFCE6, .mapped, [0x62B, 0x647]⟩,
  ⟨0xFCE7, 0xFCE7, .mapped, [0x633, 0x645]⟩,
  ⟨0xFCE8, 0xFCE8, .mapped, [0x633, 0x647]⟩,
  ⟨0xFCE9, 0xFCE9, .mapped, [0x634, 0x645]⟩,
  ⟨0xFCEA, 0xFCEA, .mapped, [0x634, 0x647]⟩,
  ⟨0xFCEB, 0xFCEB, .mapped, [0x643, 0x644]⟩,
  ⟨0xFCEC, 0xFCEC, .mapped, [0x643, 0x645]⟩,
  ⟨0xFCED, 0xFCED, .mapped, [0x644, 0x645]⟩,
  ⟨0xFCEE, 0xFCEE, .mapped, [0x646, 0x645]⟩,
  ⟨0xFCEF, 0xFCEF, .mapped, [0x646, 0x647]⟩,
  ⟨0xFCF0, 0xFCF0, .mapped, [0x64A, 0x645]⟩,
  ⟨0xFCF1, 0xFCF1, .mapped, [0x64A, 0x647]⟩,
  ⟨0xFCF2, 0xFCF2, .mapped, [0x640, 0x64E, 0x651]⟩,
  ⟨0xFCF3, 0xFCF3, .mapped, [0x640, 0x64F, 0x651]⟩,
  ⟨0xFCF4, 0xFCF4, .mapped, [0x640, 0x650, 0x651]⟩,
  ⟨0xFCF5, 0xFCF5, .mapped, [0x637, 0x649]⟩,
  ⟨0xFCF6, 0xFCF6, .mapped, [0x637, 0x64A]⟩,
  ⟨0xFCF7, 0xFCF7, .mapped, [0x639, 0x649]⟩,
  ⟨0xFCF8, 0xFCF8, .mapped, [0x639, 0x64A]⟩,
  ⟨0xFCF9, 0xFCF9, .mapped, [0x63A, 0x649]⟩,
  ⟨0xFCFA, 0xFCFA, .mapped, [0x63A, 0x64A]⟩,
  ⟨0xFCFB, 0xFCFB, .mapped, [0x633, 0x649]⟩,
  ⟨0xFCFC, 0xFCFC, .mapped, [0x633, 0x64A]⟩,
  ⟨0xFCFD, 0xFCFD, .mapped, [0x634, 0x649]⟩,
  ⟨0xFCFE, 0xFCFE, .mapped, [0x634, 0x64A]⟩,
  ⟨0xFCFF, 0xFCFF, .mapped, [0x62D, 0x649]⟩,
  ⟨0xFD00, 0xFD00, .mapped, [0x62D, 0x64A]⟩,
  ⟨0xFD01, 0xFD01, .mapped, [0x62C, 0x649]⟩,
  ⟨0xFD02, 0xFD02, .mapped, [0x62C, 0x64A]⟩,
  ⟨0xFD03, 0xFD03, .mapped, [0x62E, 0x649]⟩,
  ⟨0xFD04, 0xFD04, .mapped, [0x62E, 0x64A]⟩,
  ⟨0xFD05, 0xFD05, .mapped, [0x635, 0x649]⟩,
  ⟨0xFD06, 0xFD06, .mapped, [0x635, 0x64A]⟩,
  ⟨0xFD07, 0xFD07, .mapped, [0x636, 0x649]⟩,
  ⟨0xFD08, 0xFD08, .mapped, [0x636, 0x64A]⟩,
  ⟨0xFD09, 0xFD09, .mapped, [0x634, 0x62C]⟩,
  ⟨0xFD0A, 0xFD0A, .mapped, [0x634, 0x62D]⟩,
  ⟨0xFD0B, 0xFD0B, .mapped, [0x634, 0x62E]⟩,
  ⟨0xFD0C, 0xFD0C, .mapped, [0x634, 0x645]⟩,
  ⟨0xFD0D, 0xFD0D, .mapped, [0x634, 0x631]⟩,
  ⟨0xFD0E, 0xFD0E, .mapped, [0x633, 0x631]⟩,
  ⟨0xFD0F, 0xFD0F, .mapped, [0x635, 0x631]⟩,
  ⟨0xFD10, 0xFD10, .mapped, [0x636, 0x631]⟩,
  ⟨0xFD11, 0xFD11, .mapped, [0x637, 0x649]⟩,
  ⟨0xFD12, 0xFD12, .mapped, [0x637, 0x64A]⟩,
  ⟨0xFD13, 0xFD13, .mapped, [0x639, 0x649]⟩,
  ⟨0xFD14, 0xFD14, .mapped, [0x639, 0x64A]⟩,
  ⟨0xFD15, 0xFD15, .mapped, [0x63A, 0x649]⟩,
  ⟨0xFD16, 0xFD16, .mapped, [0x63A, 0x64A]⟩,
  ⟨0xFD17, 0xFD17, .mapped, [0x633, 0x649]⟩,
  ⟨0xFD18, 0xFD18, .mapped, [0x633, 0x64A]⟩,
  ⟨0xFD19, 0xFD19, .mapped, [0x634, 0x649]⟩,
  ⟨0xFD1A, 0xFD1A, .mapped, [0x634, 0x64A]⟩,
  ⟨0xFD1B, 0xFD1B, .mapped, [0x62D, 0x649]⟩,
  ⟨0xFD1C, 0xFD1C, .mapped, [0x62D, 0x64A]⟩,
  ⟨0xFD1D, 0xFD1D, .mapped, [0x62C, 0x649]⟩,
  ⟨0xFD1E, 0xFD1E, .mapped, [0x62C, 0x64A]⟩,
  ⟨0xFD1F, 0xFD1F, .mapped, [0x62E, 0x649]⟩,
  ⟨0xFD20, 0xFD20, .mapped, [0x62E, 0x64A]⟩,
  ⟨0xFD21, 0xFD21, .mapped, [0x635, 0x649]⟩,
  ⟨0xFD22, 0xFD22, .mapped, [0x635, 0x64A]⟩,
  ⟨0xFD23, 0xFD23, .mapped, [0x636, 0x649]⟩,
  ⟨0xFD24, 0xFD24, .mapped, [0x636, 0x64A]⟩,
  ⟨0xFD25, 0xFD25, .mapped, [0x634, 0x62C]⟩,
  ⟨0xFD26, 0xFD26, .mapped, [0x634, 0x62D]⟩]

def map21 : List MapRow := [
  ⟨0xFD27, 0xFD27, .mapped, [0x634, 0x62E]⟩,
  ⟨0xFD28, 0xFD28, .mapped, [0x634, 0x645]⟩,
  ⟨0xFD29, 0xFD29, .mapped, [0x634, 0x631]⟩,
  ⟨0xFD2A, 0xFD2A, .mapped, [0x633, 0x631]⟩,
  ⟨0xFD2B, 0xFD2B, .mapped, [0x635, 0x631]⟩,
  ⟨0xFD2C, 0xFD2C, .mapped, [0x636, 0x631]⟩,
  ⟨0xFD2D, 0xFD2D, .mapped, [0x634, 0x62C]⟩,
  ⟨0xFD2E, 0xFD2E, .mapped, [0x634, 0x62D]⟩,
  ⟨0xFD2F, 0xFD2F, .mapped, [0x634, 0x62E]⟩,
  ⟨0xFD30, 0xFD30, .mapped, [0x634, 0x645]⟩,
  ⟨0xFD31, 0xFD31, .mapped, [0x633, 0x647]⟩,
  ⟨0xFD32, 0xFD32, .mapped, [0x634, 0x647]⟩,
  ⟨0xFD33, 0xFD33, .mapped, [0x637, 0x645]⟩,
  ⟨0xFD34, 0xFD34, .mapped, [0x633, 0x62C]⟩,
  ⟨0xFD35, 0xFD35, .mapped, [0x633, 0x62D]⟩,
  ⟨0xFD36, 0xFD36, .mapped, [0x633, 0x62E]⟩,
  ⟨0xFD37, 0xFD37, .mapped, [0x634, 0x62C]⟩,
  ⟨0xFD38, 0xFD38, .mapped, [0x634, 0x62D]⟩,
  ⟨0xFD39, 0xFD39, .mapped, [0x634, 0x62E]⟩,
  ⟨0xFD3A, 0xFD3A, .mapped, [0x637, 0x645]⟩,
  ⟨0xFD3B, 0xFD3B, .mapped, [0x638, 0x645]⟩,
  ⟨0xFD3C, 0xFD3D, .mapped, [0x627, 0x64B]⟩,
  ⟨0xFD3E, 0xFD3F, .valid, []⟩,
  ⟨0xFD40, 0xFD4F, .disallowed, []⟩,
  ⟨0xFD50, 0xFD50, .mapped, [0x62A, 0x62C, 0x645]⟩,
  ⟨0xFD51, 0xFD52, .mapped, [0x62A, 0x62D, 0x62C]⟩,
  ⟨0xFD53, 0xFD53, .mapped, [0x62A, 0x62D, 0x645]⟩,
  ⟨0xFD54, 0xFD54, .mapped, [0x62A, 0x62E, 0x645]⟩,
  ⟨0xFD55, 0xFD55, .mapped, [0x62A, 0x645, 0x62C]⟩,
  ⟨0xFD56, 0xFD56, .mapped, [0x62A, 0x645, 0x62D]⟩,
  ⟨0xFD57, 0xFD57, .mapped, [0x62A, 0x645, 0x62E]⟩,
  ⟨0xFD58, 0xFD59, .mapped, [0x62C, 0x645, 0x62D]⟩,
  ⟨0xFD5A, 0xFD5A, .mapped, [0x62D, 0x645, 0x64A]⟩,
  ⟨0xFD5B, 0xFD5B, .mapped, [0x62D, 0x645, 0x649]⟩,
  ⟨0xFD5C, 0xFD5C, .mapped, [0x633, 0x62D, 0x62C]⟩,
  ⟨0xFD5D, 0xFD5D, .mapped, [0x633, 0x62C, 0x62D]⟩,
  ⟨0xFD5E, 0xFD5E, .mapped, [0x633, 0x62C, 0x649]⟩,
  ⟨0xFD5F, 0xFD60, .mapped, [0x633, 0x645, 0x62D]⟩,
  ⟨0xFD61, 0xFD61, .mapped, [0x633, 0x645, 0x62C]⟩,
  ⟨0xFD62, 0xFD63, .mapped, [0x633, 0x645, 0x645]⟩,
  ⟨0xFD64, 0xFD65, .mapped, [0x635, 0x62D, 0x62D]⟩,
  ⟨0xFD66, 0xFD66, .mapped, [0x635, 0x645, 0x645]⟩,
  ⟨0xFD67, 0xFD68, .mapped, [0x634, 0x62D, 0x645]⟩,
  ⟨0xFD69, 0xFD69, .mapped, [0x634, 0x62C, 0x64A]⟩,
  ⟨0xFD6A, 0xFD6B, .mapped, [0x634, 0x645, 0x62E]⟩,
  ⟨0xFD6C, 0xFD6D, .mapped, [0x634, 0x645, 0x645]⟩,
  ⟨0xFD6E, 0xFD6E, .mapped, [0x636, 0x62D, 0x649]⟩,
  ⟨0xFD6F, 0xFD70, .mapped, [0x636, 0x62E, 0x645]⟩,
  ⟨0xFD71, 0xFD72, .mapped, [0x637, 0x645, 0x62D]⟩,
  ⟨0xFD73, 0xFD73, .mapped, [0x637, 0x645, 0x645]⟩,
  ⟨0xFD74, 0xFD74, .mapped, [0x637, 0x645, 0x64A]⟩,
  ⟨0xFD75, 0xFD75, .mapped, [0x639, 0x62C, 0x645]⟩,
  ⟨0xFD76, 0xFD77, .mapped, [0x639, 0x645, 0x645]⟩,
  ⟨0xFD78, 0xFD78, .mapped, [0x639, 0x645, 0x649]⟩,
  ⟨0xFD79, 0xFD79, .mapped, [0x63A, 0x645, 0x645]⟩,
  ⟨0xFD7A, 0xFD7A, .mapped, [0x63A, 0x645, 0x64A]⟩,
  ⟨0xFD7B, 0xFD7B, .mapped, [0x63A, 0x645, 0x649]⟩,
  ⟨0xFD7C, 0xFD7D, .mapped, [0x641, 0x62E, 0x645]⟩,
  ⟨0xFD7E, 0xFD7E, .mapped, [0x642, 0x645, 0x62D]⟩,
  ⟨0xFD7F, 0xFD7F, .mapped, [0x642, 0x645, 0x645]⟩,
  ⟨0xFD80, 0xFD80, .mapped, [0x644, 0x62D, 0x645]⟩,
  ⟨0xFD81, 0xFD81, .mapped, [0x644, 0x62D, 0x64A]⟩,
  ⟨0xFD82, 0xFD82, .mapped, [0x644, 0x62D, 0x649]⟩,
  ⟨0xFD83, 0xFD84, .mapped, [0x644, 0x62C, 0x62C]⟩,
  ⟨0xFD85, 0xFD86, .mapped, [0x644, 0x62E, 0x645]⟩,
  ⟨0xFD87, 0xFD88, .mapped, [0x644, 0x645, 0x62D]⟩,
  ⟨0xFD89, 0xFD89, .mapped, [0x645, 0x62D, 0x62C]⟩,
  ⟨0xFD8A, 0xFD8A, .mapped, [0x645, 0x62D, 0x645]⟩,
  ⟨0xFD8B, 0xFD8B, .mapped, [0x645, 0x62D, 0x64A]⟩,
  ⟨0xFD8C, 0xFD8C, .mapped, [0x645, 0x62C, 0x62D]⟩,
  ⟨0xFD8D, 0xFD8D, .mapped, [0x645, 0x62C, 0x645]⟩,
  ⟨0xFD8E, 0xFD8E, .mapped, [0x645, 0x62E, 0x62C]⟩,
  ⟨0xFD8F, 0xFD8F, .mapped, [0x645, 0x62E, 0x645]⟩,
  ⟨0xFD90, 0xFD91, .disallowed, []⟩,
  ⟨0xFD92, 0xFD92, .mapped, [0x645, 0x62C, 0x62E]⟩,
  ⟨0xFD93, 0xFD93, .mapped, [0x647, 0x645, 0x62C]⟩,
  ⟨0xFD94, 0xFD94, .mapped, [0x647, 0x645, 0x645]⟩,
  ⟨0xFD95, 0xFD95, .mapped, [0x646, 0x62D, 0x645]⟩,
  ⟨0xFD96, 0xFD96, .mapped, [0x646, 0x62D, 0x649]⟩,
  ⟨0xFD97, 0xFD98, .mapped, [0x646, 0x62C, 0x645]⟩,
  ⟨0xFD99, 0xFD99, .mapped, [0x646, 0x62C, 0x649]⟩,
  ⟨0xFD9A, 0xFD9A, .mapped, [0x646, 0x645, 0x64A]⟩,
  ⟨0xFD9B, 0xFD9B, .mapped, [0x646, 0x645, 0x649]⟩,
  ⟨0xFD9C, 0xFD9D, .mapped, [0x64A, 0x645, 0x645]⟩,
  ⟨0xFD9E, 0xFD9E, .mapped, [0x628, 0x62E, 0x64A]⟩,
  ⟨0xFD9F, 0xFD9F, .mapped, [0x62A, 0x62C, 0x64A]⟩,
  ⟨0xFDA0, 0xFDA0, .mapped, [0x62A, 0x62C, 0x649]⟩,
  ⟨0xFDA1, 0xFDA1, .mapped, [0x62A, 0x62E, 0x64A]⟩,
  ⟨0xFDA2, 0xFDA2, .mapped, [0x62A, 0x62E, 0x649]⟩,
  ⟨0xFDA3, 0xFDA3, .mapped, [0x62A, 0x645, 0x64A]⟩,
  ⟨0xFDA4, 0xFDA4, .mapped, [0x62A, 0x645, 0x649]⟩,
  ⟨0xFDA5, 0xFDA5, .mapped, [0x62C, 0x645, 0x64A]⟩,
  ⟨0xFDA6, 0xFDA6, .mapped, [0x62C, 0x62D, 0x649]⟩,
  ⟨0xFDA7, 0xFDA7, .mapped, [0x62C, 0x645, 0x649]⟩,
  ⟨0xFDA8, 0xFDA8, .mapped, [0x633, 0x62E, 0x649]⟩,
  ⟨0xFDA9, 0xFDA9, .mapped, [0x635, 0x62D, 0x64A]⟩,
  ⟨0xFDAA, 0xFDAA, .mapped, [0x634, 0x62D, 0x64A]⟩,
  ⟨0xFDAB, 0xFDAB, .mapped, [0x636, 0x62D, 0x64A]⟩,
  ⟨0xFDAC, 0xFDAC, .mapped, [0x644, 0x62C, 0x64A]⟩,
  ⟨0xFDAD, 0xFDAD, .mapped, [0x644, 0x645, 0x64A]⟩,
  ⟨0xFDAE, 0xFDAE, .mapped, [0x64A, 0x62D, 0x64A]⟩,
  ⟨0xFDAF, 0xFDAF, .mapped, [0x64A, 0x62C, 0x64A]⟩,
  ⟨0xFDB0, 0xFDB0, .mapped, [0x64A, 0x645, 0x64A]⟩,
  ⟨0xFDB1, 0xFDB1, .mapped, [0x645, 0x645, 0x64A]⟩,
  ⟨0xFDB2, 0xFDB2, .mapped, [0x642, 0x645, 0x64A]⟩,
  ⟨0xFDB3, 0xFDB3, .mapped, [0x646, 0x62D, 0x64A]⟩,
  ⟨0xFDB4, 0xFDB4, .mapped, [0x642, 0x645, 0x62D]⟩,
  ⟨0xFDB5, 0xFDB5, .mapped, [0x644, 0x62D, 0x645]⟩,
  ⟨0xFDB6, 0xFDB6, .mapped, [0x639, 0x645, 0x64A]⟩,
  ⟨0xFDB7, 0xFDB7, .mapped, [0x643, 0x645, 0x64A]⟩,
  ⟨0xFDB8, 0xFDB8, .mapped, [0x646, 0x62C, 0x62D]⟩,
  ⟨0xFDB9, 0xFDB9, .mapped, [0x645, 0x62E, 0x64A]⟩,
  ⟨0xFDBA, 0xFDBA, .mapped, [0x644, 0x62C, 0x645]⟩,
  ⟨0xFDBB, 0xFDBB, .mapped, [0x643, 0x645, 0x645]⟩,
  ⟨0xFDBC, 0xFDBC, .mapped, [0x644, 0x62C, 0x645]⟩,
  ⟨0xFDBD, 0xFDBD, .mapped, [0x646, 0x62C, 0x62D]⟩,
  ⟨0xFDBE, 0xFDBE, .mapped, [0x62C, 0x62D, 0x64A]⟩,
  ⟨0xFDBF, 0xFDBF, .mapped, [0x62D, 0x62C, 0x64A]⟩,
  ⟨0xFDC0, 0xFDC0, .mapped, [0x645, 0x62C, 0x64A]⟩,
  ⟨0xFDC1, 0xFDC1, .mapped, [0x641, 0x645, 0x64A]⟩,
  ⟨0xFDC2, 0xFDC2, .mapped, [0x628, 0x62D, 0x64A]⟩,
  ⟨0xFDC3, 0xFDC3, .mapped, [0x643, 0x645, 0x645]⟩,
  ⟨0xFDC4, 0xFDC4, .mapped, [0x639, 0x62C, 0x645]⟩,
  ⟨0xFDC5, 0xFDC5, .mapped, [0x635, 0x645, 0x645]⟩,
  ⟨0xFDC6, 0xFDC6, .mapped, [0x633, 0x62E, 0x64A]⟩,
  ⟨0xFDC7, 0xFDC7, .mapped, [0x646, 0x62C, 0x64A]⟩,
  ⟨0xFDC8, 0xFDCF, .disallowed, []⟩,
  ⟨0xFDD0, 0xFDEF, .disallowed, []⟩,
  ⟨0xFDF0, 0xFDF0, .mapped, [0x635, 0x644, 0x6D2]⟩,
  ⟨0xFDF1, 0xFDF1, .mapped, [0x642, 0x644, 0x6D2]⟩,
  ⟨0xFDF2, 0xFDF2, .mapped, [0x627, 0x644, 0x644, 0x647]⟩,
  ⟨0xFDF3, 0xFDF3, .mapped, [0x627, 0x643, 0x628, 0x631]⟩,
  ⟨0xFDF4, 0xFDF4, .mapped, [0x645, 0x62D, 0x645, 0x62F]⟩,
  ⟨0xFDF5, 0xFDF5, .mapped, [0x635, 0x644, 0x639, 0x645]⟩,
  ⟨0xFDF6, 0xFDF6, .mapped, [0x631, 0x633, 0x648, 0x644]⟩,
  ⟨0xFDF7, 0xFDF7, .mapped, [0x639, 0x644, 0x64A, 0x647]⟩,
  ⟨0xFDF8, 0xFDF8, .mapped, [0x648, 0x633, 0x644, 0x645]⟩,
  ⟨0xFDF9, 0xFDF9, .mapped, [0x635, 0x644, 0x649]⟩,
  ⟨0xFDFA, 0xFDFA, .std3Mapped, [0x635, 0x644, 0x649, 0x20, 0x627, 0x644, 0x644, 0x647, 0x20, 0x639, 0x644, 0x64A, 0x647, 0x20, 0x648, 0x633, 0x644, 0x645]⟩,
  ⟨0xFDFB, 0xFDFB, .std3Mapped, [0x62C, 0x644, 0x20, 0x62C, 0x644, 0x627, 0x644, 0x647]⟩,
  ⟨0xFDFC, 0xFDFC, .mapped, [0x631, 0x6CC, 0x627, 0x644]⟩,
  ⟨0xFDFD, 0xFDFD, .valid, []⟩,
  ⟨0xFDFE, 0xFDFF, .disallowed, []⟩,
  ⟨0xFE00, 0xFE0F, .ignored, []⟩,
  ⟨0xFE10, 0xFE10, .std3Mapped, [0x2C]⟩,
  ⟨0xFE11, 0xFE11, .mapped, [0x3001]⟩,
  ⟨0xFE12, 0xFE12, .disallowed, []⟩,
  ⟨0xFE13, 0xFE13, .std3Mapped, [0x3A]⟩,
  ⟨0xFE14, 0xFE14, .std3Mapped, [0x3B]⟩,
  ⟨0xFE15, 0xFE15, .std3Mapped, [0x21]⟩,
  ⟨0xFE16, 0xFE16, .std3Mapped, [0x3F]⟩,
  ⟨0xFE17, 0xFE17, .mapped, [0x3016]⟩,
  ⟨0xFE18, 0xFE18, .mapped, [0x3017]⟩,
  ⟨0xFE19, 0xFE19, .disallowed, []⟩,
  ⟨0xFE1A, 0xFE1F, .disallowed, []⟩,
  ⟨0xFE20, 0xFE23, .valid, []⟩,
  ⟨0xFE24, 0xFE26, .valid, []⟩,
  ⟨0xFE27, 0xFE2D, .valid, []⟩,
  ⟨0xFE2E, 0xFE2F, .valid, []⟩,
  ⟨0xFE30, 0xFE30, .disallowed, []⟩,
  ⟨0xFE31, 0xFE31, .mapped, [0x2014]⟩,
  ⟨0xFE32, 0xFE32, .mapped, [0x2013]⟩,
  ⟨0xFE33, 0xFE34, .std3Mapped, [0x5F]⟩,
  ⟨0xFE35, 0xFE35, .std3Mapped, [0x28]⟩,
  ⟨0xFE36, 0xFE36, .std3Mapped, [0x29]⟩,
  ⟨0xFE37, 0xFE37, .std3Mapped, [0x7B]⟩,
  ⟨0xFE38, 0xFE38, .std3Mapped, [0x7D]⟩,
  ⟨0xFE39, 0xFE39, .mapped, [0x3014]⟩,
  ⟨0xFE3A, 0xFE3A, .mapped, [0x3015]⟩,
  ⟨0xFE3B, 0xFE3B, .mapped, [0x3010]⟩,
  ⟨0xFE3C, 0xFE3C, .mapped, [0x3011]⟩,
  ⟨0xFE3D, 0xFE3D, .mapped, [0x300A]⟩,
  ⟨0xFE3E, 0xFE3E, .mapped, [0x300B]⟩,
  ⟨0xFE3F, 0xFE3F, .mapped, [0x3008]⟩,
  ⟨0xFE40, 0xFE40, .mapped, [0x3009]⟩,
  ⟨0xFE41, 0xFE41, .mapped, [0x300C]⟩,
  ⟨0xFE42, 0xFE42, .mapped, [0x300D]⟩,
  ⟨0xFE43, 0xFE43, .mapped, [0x300E]⟩,
  ⟨0xFE44, 0xFE44, .mapped, [0x300F]⟩,
  ⟨0xFE45, 0xFE46, .valid, []⟩,
  ⟨0xFE47, 0xFE47, .std3Mapped, [0x5B]⟩,
  ⟨0xFE48, 0xFE48, .std3Mapped, [0x5D]⟩,
  ⟨0xFE49, 0xFE4C, .std3Mapped, [0x20, 0x305]⟩,
  ⟨0xFE4D, 0xFE4F, .std3Mapped, [0x5F]⟩,
  ⟨0xFE50, 0xFE50, .std3Mapped, [0x2C]⟩,
  ⟨0xFE51, 0xFE51, .mapped, [0x3001]⟩,
  ⟨0xFE52, 0xFE52, .disallowed, []⟩,
  ⟨0xFE53, 0xFE53, .disallowed, []⟩,
  ⟨0xFE54, 0xFE54, .std3Mapped, [0x3B]⟩,
  ⟨0xFE55, 0xFE55, .std3Mapped, [0x3A]⟩,
  ⟨0xFE56, 0xFE56, .std3Mapped, [0x3F]⟩,
  ⟨0xFE57, 0xFE57, .std3Mapped, [0x21]⟩,
  ⟨0xFE58, 0xFE58, .mapped, [0x2014]⟩,
  ⟨0xFE59, 0xFE59, .std3Mapped, [0x28]⟩,
  ⟨0xFE5A, 0xFE5A, .std3Mapped, [0x29]⟩,
  ⟨0xFE5B, 0xFE5B, .std3Mapped, [0x7B]⟩,
  ⟨0xFE5C, 0xFE5C, .std3Mapped, [0x7D]⟩,
  ⟨0xFE5D, 0xFE5D, .mapped, [0x3014]⟩,
  ⟨0xFE5E, 0xFE5E, .mapped, [0x3015]⟩,
  ⟨0xFE5F, 0xFE5F, .std3Mapped, [0x23]⟩,
  ⟨0xFE60, 0xFE60, .std3Mapped, [0x26]⟩,
  ⟨0xFE61, 0xFE61, .std3Mapped, [0x2A]⟩,
  ⟨0xFE62, 0xFE62, .std3Mapped, [0x2B]⟩,
  ⟨0xFE63, 0xFE63, .mapped, [0x2D]⟩,
  ⟨0xFE64, 0xFE64, .std3Mapped, [0x3C]⟩,
  ⟨0xFE65, 0xFE65, .std3Mapped, [0x3E]⟩,
  ⟨0xFE66, 0xFE66, .std3Mapped, [0x3D]⟩,
  ⟨0xFE67, 0xFE67, .disallowed, []⟩,
  ⟨0xFE68, 0xFE68, .std3Mapped, [0x5C]⟩,
  ⟨0xFE69, 0xFE69, .std3Mapped, [0x24]⟩,
  ⟨0xFE6A, 0xFE6A, .std3Mapped, [0x25]⟩,
  ⟨0xFE6B, 0xFE6B, .std3Mapped, [0x40]⟩,
  ⟨0xFE6C, 0xFE6F, .disallowed, []⟩,
  ⟨0xFE70, 0xFE70, .std3Mapped, [0x20, 0x64B]⟩,
  ⟨0xFE71, 0xFE71, .mapped, [0x640, 0x64B]⟩,
  ⟨0xFE72, 0xFE72, .std3Mapped, [0x20, 0x64C]⟩,
  ⟨0xFE73, 0xFE73, .valid, []⟩,
  ⟨0xFE74, 0xFE74, .std3Mapped, [0x20, 0x64D]⟩,
  ⟨0xFE75, 0xFE75, .disallowed, []⟩,
  ⟨0xFE76, 0xFE76, .std3Mapped, [0x20, 0x64E]⟩,
  ⟨0xFE77, 0xFE77, .mapped, [0x640, 0x64E]⟩,
  ⟨0xFE78, 0xFE78, .std3Mapped, [0x20, 0x64F]⟩,
  ⟨0xFE79, 0xFE79, .mapped, [0x640, 0x64F]⟩,
  ⟨0xFE7A, 0xFE7A, .std3Mapped, [0x20, 0x650]⟩,
  ⟨0xFE7B, 0xFE7B, .mapped, [0x640, 0x650]⟩,
  ⟨0xFE7C, 0xFE7C, .std3Mapped, [0x20, 0x651]⟩,
  ⟨0xFE7D, 0xFE7D, .mapped, [0x640, 0x651]⟩,
  ⟨0xFE7E, 0xFE7E, .std3Mapped, [0x20, 0x652]⟩,
  ⟨0xFE7F, 0xFE7F, .mapped, [0x640, 0x652]⟩,
  ⟨0xFE80, 0xFE80, .mapped, [0x621]⟩,
  ⟨0xFE81, 0xFE82, .mapped, [0x622]⟩,
  ⟨0xFE83, 0xFE84, .mapped, [0x623]⟩,
  ⟨0xFE85, 0xFE86, .mapped, [0x624]⟩,
  ⟨0xFE87, 0xFE88, .mapped, [0x625]⟩,
  ⟨0xFE89, 0xFE8C, .mapped, [0x626]⟩,
  ⟨0xFE8D, 0xFE8E, .mapped, [0x627]⟩,
  ⟨0xFE8F, 0xFE92, .mapped, [0x628]⟩,
  ⟨0xFE93, 0xFE94, .mapped, [0x629]⟩,
  ⟨0xFE95, 0xFE98, .mapped, [0x62A]⟩,
  ⟨0xFE99, 0xFE9C, .mapped, [0x62B]⟩,
  ⟨0xFE9D, 0xFEA0, .mapped, [0x62C]⟩,
  ⟨0xFEA1, 0xFEA4, .mapped, [0x62D]⟩,
  ⟨0xFEA5, 0xFEA8, .mapped, [0x62E]⟩,
  ⟨0xFEA9, 0xFEAA, .mapped, [0x62F]⟩,
  ⟨0xFEAB, 0xFEAC, .mapped, [0x630]⟩,
  ⟨0xFEAD, 0xFEAE, .mapped, [0x631]⟩,
  ⟨0xFEAF, 0xFEB0, .mapped, [0x632]⟩,
  ⟨0xFEB1, 0xFEB4, .mapped, [0x633]⟩,
  ⟨0xFEB5, 0xFEB8, .mapped, [0x634]⟩,
  ⟨0xFEB9, 0xFEBC, .mapped, [0x635]⟩]

def map22 : List MapRow := [
  ⟨0xFEBD, 0xFEC0, .mapped, [0x636]⟩,
  ⟨0xFEC1, 0xFEC4, .mapped, [0x637]⟩,
  ⟨0xFEC5, 0xFEC8, .mapped, [0x638]⟩,
  ⟨0xFEC9, 0xFECC, .mapped, [0x639]⟩,
  ⟨0xFECD, 0xFED0, .mapped, [0x63A]⟩,
  ⟨0xFED1, 0xFED4, .mapped, [0x641]⟩,
  ⟨0xFED5, 0xFED8, .mapped, [0x642]⟩,
  ⟨0xFED9, 0xFEDC, .mapped, [0x643]⟩,
  ⟨0xFEDD, 0xFEE0, .mapped, [0x644]⟩,
  ⟨0xFEE1, 0xFEE4, .mapped, [0x645]⟩,
  ⟨0xFEE5, 0xFEE8, .mapped, [0x646]⟩,
  ⟨0xFEE9, 0xFEEC, .mapped, [0x647]⟩,
  ⟨0xFEED, 0xFEEE, .mapped, [0x648]⟩,
  ⟨0xFEEF, 0xFEF0, .mapped, [0x649]⟩,
  ⟨0xFEF1, 0xFEF4, .mapped, [0x64A]⟩,
  ⟨0xFEF5, 0xFEF6, .mapped, [0x644, 0x622]⟩,
  ⟨0xFEF7, 0xFEF8, .mapped, [0x644, 0x623]⟩,
  ⟨0xFEF9, 0xFEFA, .mapped, [0x644, 0x625]⟩,
  ⟨0xFEFB, 0xFEFC, .mapped, [0x644, 0x627]⟩,
  ⟨0xFEFD, 0xFEFE, .disallowed, []⟩,
  ⟨0xFEFF, 0xFEFF, .ignored, []⟩,
  ⟨0xFF00, 0xFF00, .disallowed, []⟩,
  ⟨0xFF01, 0xFF01, .std3Mapped, [0x21]⟩,
  ⟨0xFF02, 0xFF02, .std3Mapped, [0x22]⟩,
  ⟨0xFF03, 0xFF03, .std3Mapped, [0x23]⟩,
  ⟨0xFF04, 0xFF04, .std3Mapped, [0x24]⟩,
  ⟨0xFF05, 0xFF05, .std3Mapped, [0x25]⟩,
  ⟨0xFF06, 0xFF06, .std3Mapped, [0x26]⟩,
  ⟨0xFF07, 0xFF07, .std3Mapped, [0x27]⟩,
  ⟨0xFF08, 0xFF08, .std3Mapped, [0x28]⟩,
  ⟨0xFF09, 0xFF09, .std3Mapped, [0x29]⟩,
  ⟨0xFF0A, 0xFF0A, .std3Mapped, [0x2A]⟩,
  ⟨0xFF0B, 0xFF0B, .std3Mapped, [0x2B]⟩,
  ⟨0xFF0C, 0xFF0C, .std3Mapped, [0x2C]⟩,
  ⟨0xFF0D, 0xFF0D, .mapped, [0x2D]⟩,
  ⟨0xFF0E, 0xFF0E, .mapped, [0x2E]⟩,
  ⟨0xFF0F, 0xFF0F, .std3Mapped, [0x2F]⟩,
  ⟨0xFF10, 0xFF10, .mapped, [0x30]⟩,
  ⟨0xFF11, 0xFF11, .mapped, [0x31]⟩,
  ⟨0xFF12, 0xFF12, .mapped, [0x32]⟩,
  ⟨0xFF13, 0xFF13, .mapped, [0x33]⟩,
  ⟨0xFF14, 0xFF14, .mapped, [0x34]⟩,
  ⟨0xFF15, 0xFF15, .mapped, [0x35]⟩,
  ⟨0xFF16, 0xFF16, .mapped, [0x36]⟩,
  ⟨0xFF17, 0xFF17, .mapped, [0x37]⟩,
  ⟨0xFF18, 0xFF18, .mapped, [0x38]⟩,
  ⟨0xFF19, 0xFF19, .mapped, [0x39]⟩,
  ⟨0xFF1A, 0xFF1A, .std3Mapped, [0x3A]⟩,
  ⟨0xFF1B, 0xFF1B, .std3Mapped, [0x3B]⟩,
  ⟨0xFF1C, 0xFF1C, .std3Mapped, [0x3C]⟩,
  ⟨0xFF1D, 0xFF1D, .std3Mapped, [0x3D]⟩,
  ⟨0xFF1E, 0xFF1E, .std3Mapped, [0x3E]⟩,
  ⟨0xFF1F, 0xFF1F, .std3Mapped, [0x3F]⟩,
  ⟨0xFF20, 0xFF20, .std3Mapped, [0x40]⟩,
  ⟨0xFF21, 0xFF21, .mapped, [0x61]⟩,
  ⟨0xFF22, 0xFF22, .mapped, [0x62]⟩,
  ⟨0xFF23, 0xFF23, .mapped, [0x63]⟩,
  ⟨0xFF24, 0xFF24, .mapped, [0x64]⟩,
  ⟨0xFF25, 0xFF25, .mapped, [0x65]⟩,
  ⟨0xFF26, 0xFF26, .mapped, [0x66]⟩,
  ⟨0xFF27, 0xFF27, .mapped, [0x67]⟩,
  ⟨0xFF28, 0xFF28, .mapped, [0x68]⟩,
  ⟨0xFF29, 0xFF29, .mapped, [0x69]⟩,
  ⟨0xFF2A, 0xFF2A, .mapped, [0x6A]⟩,
  ⟨0xFF2B, 0xFF2B, .mapped, [0x6B]⟩,
  ⟨0xFF2C, 0xFF2C, .mapped, [0x6C]⟩,
  ⟨0xFF2D, 0xFF2D, .mapped, [0x6D]⟩,
  ⟨0xFF2E, 0xFF2E, .mapped, [0x6E]⟩,
  ⟨0xFF2F, 0xFF2F, .mapped, [0x6F]⟩,
  ⟨0xFF30, 0xFF30, .mapped, [0x70]⟩,
  ⟨0xFF31, 0xFF31, .mapped, [0x71]⟩,
  ⟨0xFF32, 0xFF32, .mapped, [0x72]⟩,
  ⟨0xFF33, 0xFF33, .mapped, [0x73]⟩,
  ⟨0xFF34, 0xFF34, .mapped, [0x74]⟩,
  ⟨0xFF35, 0xFF35, .mapped, [0x75]⟩,
  ⟨0xFF36, 0xFF36, .mapped, [0x76]⟩,
  ⟨0xFF37, 0xFF37, .mapped, [0x77]⟩,
  ⟨0xFF38, 0xFF38, .mapped, [0x78]⟩,
  ⟨0xFF39, 0xFF39, .mapped, [0x79]⟩,
  ⟨0xFF3A, 0xFF3A, .mapped, [0x7A]⟩,
  ⟨0xFF3B, 0xFF3B, .std3Mapped, [0x5B]⟩,
  ⟨0xFF3C, 0xFF3C, .std3Mapped, [0x5C]⟩,
  ⟨0xFF3D, 0xFF3D, .std3Mapped, [0x5D]⟩,
  ⟨0xFF3E, 0xFF3E, .std3Mapped, [0x5E]⟩,
  ⟨0xFF3F, 0xFF3F, .std3Mapped, [0x5F]⟩,
  ⟨0xFF40, 0xFF40, .std3Mapped, [0x60]⟩,
  ⟨0xFF41, 0xFF41, .mapped, [0x61]⟩,
  ⟨0xFF42, 0xFF42, .mapped, [0x62]⟩,
  ⟨0xFF43, 0xFF43, .mapped, [0x63]⟩,
  ⟨0xFF44, 0xFF44, .mapped, [0x64]⟩,
  ⟨0xFF45, 0xFF45, .mapped, [0x65]⟩,
  ⟨0xFF46, 0xFF46, .mapped, [0x66]⟩,
  ⟨0xFF47, 0xFF47, .mapped, [0x67]⟩,
  ⟨0xFF48, 0xFF48, .mapped, [0x68]⟩,
  ⟨0xFF49, 0xFF49, .mapped, [0x69]⟩,
  ⟨0xFF4A, 0xFF4A, .mapped, [0x6A]⟩,
  ⟨0xFF4B, 0xFF4B, .mapped, [0x6B]⟩,
  ⟨0xFF4C, 0xFF4C, .mapped, [0x6C]⟩,
  ⟨0xFF4D, 0xFF4D, .mapped, [0x6D]⟩,
  ⟨0xFF4E, 0xFF4E, .mapped, [0x6E]⟩,
  ⟨0xFF4F, 0xFF4F, .mapped, [0x6F]⟩,
  ⟨0xFF50, 0xFF50, .mapped, [0x70]⟩,
  ⟨0xFF51, 0xFF51, .mapped, [0x71]⟩,
  ⟨0xFF52, 0xFF52, .mapped, [0x72]⟩,
  ⟨0xFF53, 0xFF53, .mapped, [0x73]⟩,
  ⟨0xFF54, 0xFF54, .mapped, [0x74]⟩,
  ⟨0xFF55, 0xFF55, .mapped, [0x75]⟩,
  ⟨0xFF56, 0xFF56, .mapped, [0x76]⟩,
  ⟨0xFF57, 0xFF57, .mapped, [0x77]⟩,
  ⟨0xFF58, 0xFF58, .mapped, [0x78]⟩,
  ⟨0xFF59, 0xFF59, .mapped, [0x79]⟩,
  ⟨0xFF5A, 0xFF5A, .mapped, [0x7A]⟩,
  ⟨0xFF5B, 0xFF5B, .std3Mapped, [0x7B]⟩,
  ⟨0xFF5C, 0xFF5C, .std3Mapped, [0x7C]⟩,
  ⟨0xFF5D, 0xFF5D, .std3Mapped, [0x7D]⟩,
  ⟨0xFF5E, 0xFF5E, .std3Mapped, [0x7E]⟩,
  ⟨0xFF5F, 0xFF5F, .mapped, [0x2985]⟩,
  ⟨0xFF60, 0xFF60, .mapped, [0x2986]⟩,
  ⟨0xFF61, 0xFF61, .mapped, [0x2E]⟩,
  ⟨0xFF62, 0xFF62, .mapped, [0x300C]⟩,
  ⟨0xFF63, 0xFF63, .mapped, [0x300D]⟩,
  ⟨0xFF64, 0xFF64, .mapped, [0x3001]⟩,
  ⟨0xFF65, 0xFF65, .mapped, [0x30FB]⟩,
  ⟨0xFF66, 0xFF66, .mapped, [0x30F2]⟩,
  ⟨0xFF67, 0xFF67, .mapped, [0x30A1]⟩,
  ⟨0xFF68, 0xFF68, .mapped, [0x30A3]⟩,
  ⟨0xFF69, 0xFF69, .mapped, [0x30A5]⟩,
  ⟨0xFF6A, 0xFF6A, .mapped, [0x30A7]⟩,
  ⟨0xFF6B, 0xFF6B, .mapped, [0x30A9]⟩,
  ⟨0xFF6C, 0xFF6C, .mapped, [0x30E3]⟩,
  ⟨0xFF6D, 0xFF6D, .mapped, [0x30E5]⟩,
  ⟨0xFF6E, 0xFF6E, .mapped, [0x30E7]⟩,
  ⟨0xFF6F, 0xFF6F, .mapped, [0x30C3]⟩,
  ⟨0xFF70, 0xFF70, .mapped, [0x30FC]⟩,
  ⟨0xFF71, 0xFF71, .mapped, [0x30A2]⟩,
  ⟨0xFF72, 0xFF72, .mapped, [0x30A4]⟩,
  ⟨0xFF73, 0xFF73, .mapped, [0x30A6]⟩,
  ⟨0xFF74, 0xFF74, .mapped, [0x30A8]⟩,
  ⟨0xFF75, 0xFF75, .mapped, [0x30AA]⟩,
  ⟨0xFF76, 0xFF76, .mapped, [0x30AB]⟩,
  ⟨0xFF77, 0xFF77, .mapped, [0x30AD]⟩,
  ⟨0xFF78, 0xFF78, .mapped, [0x30AF]⟩,
  ⟨0xFF79, 0xFF79, .mapped, [0x30B1]⟩,
  ⟨0xFF7A, 0xFF7A, .mapped, [0x30B3]⟩,
  ⟨0xFF7B, 0xFF7B, .mapped, [0x30B5]⟩,
  ⟨0xFF7C, 0xFF7C, .mapped, [0x30B7]⟩,
  ⟨0xFF7D, 0xFF7D, .mapped, [0x30B9]⟩,
  ⟨0xFF7E, 0xFF7E, .mapped, [0x30BB]⟩,
  ⟨0xFF7F, 0xFF7F, .mapped, [0x30BD]⟩,
  ⟨0xFF80, 0xFF80, .mapped, [0x30BF]⟩,
  ⟨0xFF81, 0xFF81, .mapped, [0x30C1]⟩,
  ⟨0xFF82, 0xFF82, .mapped, [0x30C4]⟩,
  ⟨0xFF83, 0xFF83, .mapped, [0x30C6]⟩,
  ⟨0xFF84, 0xFF84, .mapped, [0x30C8]⟩,
  ⟨0xFF85, 0xFF85, .mapped, [0x30CA]⟩,
  ⟨0xFF86, 0xFF86, .mapped, [0x30CB]⟩,
  ⟨0xFF87, 0xFF87, .mapped, [0x30CC]⟩,
  ⟨0xFF88, 0xFF88, .mapped, [0x30CD]⟩,
  ⟨0xFF89, 0xFF89, .mapped, [0x30CE]⟩,
  ⟨0xFF8A, 0xFF8A, .mapped, [0x30CF]⟩,
  ⟨0xFF8B, 0xFF8B, .mapped, [0x30D2]⟩,
  ⟨0xFF8C, 0xFF8C, .mapped, [0x30D5]⟩,
  ⟨0xFF8D, 0xFF8D, .mapped, [0x30D8]⟩,
  ⟨0xFF8E, 0xFF8E, .mapped, [0x30DB]⟩,
  ⟨0xFF8F, 0xFF8F, .mapped, [0x30DE]⟩,
  ⟨0xFF90, 0xFF90, .mapped, [0x30DF]⟩,
  ⟨0xFF91, 0xFF91, .mapped, [0x30E0]⟩,
  ⟨0xFF92, 0xFF92, .mapped, [0x30E1]⟩,
  ⟨0xFF93, 0xFF93, .mapped, [0x30E2]⟩,
  ⟨0xFF94, 0xFF94, .mapped, [0x30E4]⟩,
  ⟨0xFF95, 0xFF95, .mapped, [0x30E6]⟩,
  ⟨0xFF96, 0xFF96, .mapped, [0x30E8]⟩,
  ⟨0xFF97, 0xFF97, .mapped, [0x30E9]⟩,
  ⟨0xFF98, 0xFF98, .mapped, [0x30EA]⟩,
  ⟨0xFF99, 0xFF99, .mapped, [0x30EB]⟩,
  ⟨0xFF9A, 0xFF9A, .mapped, [0x30EC]⟩,
  ⟨0xFF9B, 0xFF9B, .mapped, [0x30ED]⟩,
  ⟨0xFF9C, 0xFF9C, .mapped, [0x30EF]⟩,
  ⟨0xFF9D, 0xFF9D, .mapped, [0x30F3]⟩,
  ⟨0xFF9E, 0xFF9E, .mapped, [0x3099]⟩,
  ⟨0xFF9F, 0xFF9F, .mapped, [0x309A]⟩,
  ⟨0xFFA0, 0xFFA0, .disallowed, []⟩,
  ⟨0xFFA1, 0xFFA1, .mapped, [0x1100]⟩,
  ⟨0xFFA2, 0xFFA2, .mapped, [0x1101]⟩,
  ⟨0xFFA3, 0xFFA3, .mapped, [0x11AA]⟩,
  ⟨0xFFA4, 0xFFA4, .mapped, [0x1102]⟩,
  ⟨0xFFA5, 0xFFA5, .mapped, [0x11AC]⟩,
  ⟨0xFFA6, 0xFFA6, .mapped, [0x11AD]⟩,
  ⟨0xFFA7, 0xFFA7, .mapped, [0x1103]⟩,
  ⟨0xFFA8, 0xFFA8, .mapped, [0x1104]⟩,
  ⟨0xFFA9, 0xFFA9, .mapped, [0x1105]⟩,
  ⟨0xFFAA, 0xFFAA, .mapped, [0x11B0]⟩,
  ⟨0xFFAB, 0xFFAB, .mapped, [0x11B1]⟩,
  ⟨0xFFAC, 0xFFAC, .mapped, [0x11B2]⟩,
  ⟨0xFFAD, 0xFFAD, .mapped, [0x11B3]⟩,
  ⟨0xFFAE, 0xFFAE, .mapped, [0x11B4]⟩,
  ⟨0xFFAF, 0xFFAF, .mapped, [0x11B5]⟩,
  ⟨0xFFB0, 0xFFB0, .mapped, [0x111A]⟩,
  ⟨0xFFB1, 0xFFB1, .mapped, [0x1106]⟩,
  ⟨0xFFB2, 0xFFB2, .mapped, [0x1107]⟩,
  ⟨0xFFB3, 0xFFB3, .mapped, [0x1108]⟩,
  ⟨0xFFB4, 0xFFB4, .mapped, [0x1121]⟩,
  ⟨0xFFB5, 0xFFB5, .mapped, [0x1109]⟩,
  ⟨0xFFB6, 0xFFB6, .mapped, [0x110A]⟩,
  ⟨0xFFB7, 0xFFB7, .mapped, [0x110B]⟩,
  ⟨0xFFB8, 0xFFB8, .mapped, [0x110C]⟩,
  ⟨0xFFB9, 0xFFB9, .mapped, [0x110D]⟩,
  ⟨0xFFBA, 0xFFBA, .mapped, [0x110E]⟩,
  ⟨0xFFBB, 0xFFBB, .mapped, [0x110F]⟩,
  ⟨0xFFBC, 0xFFBC, .mapped, [0x1110]⟩,
  ⟨0xFFBD, 0xFFBD, .mapped, [0x1111]⟩,
  ⟨0xFFBE, 0xFFBE, .mapped, [0x1112]⟩,
  ⟨0xFFBF, 0xFFC1, .disallowed, []⟩,
  ⟨0xFFC2, 0xFFC2, .mapped, [0x1161]⟩,
  ⟨0xFFC3, 0xFFC3, .mapped, [0x1162]⟩,
  ⟨0xFFC4, 0xFFC4, .mapped, [0x1163]⟩,
  ⟨0xFFC5, 0xFFC5, .mapped, [0x1164]⟩,
  ⟨0xFFC6, 0xFFC6, .mapped, [0x1165]⟩,
  ⟨0xFFC7, 0xFFC7, .mapped, [0x1166]⟩,
  ⟨0xFFC8, 0xFFC9, .disallowed, []⟩,
  ⟨0xFFCA, 0xFFCA, .mapped, [0x1167]⟩,
  ⟨0xFFCB, 0xFFCB, .mapped, [0x1168]⟩,
  ⟨0xFFCC, 0xFFCC, .mapped, [0x1169]⟩,
  ⟨0xFFCD, 0xFFCD, .mapped, [0x116A]⟩,
  ⟨0xFFCE, 0xFFCE, .mapped, [0x116B]⟩,
  ⟨0xFFCF, 0xFFCF, .mapped, [0x116C]⟩,
  ⟨0xFFD0, 0xFFD1, .disallowed, []⟩,
  ⟨0xFFD2, 0xFFD2, .mapped, [0x116D]⟩,
  ⟨0xFFD3, 0xFFD3, .mapped, [0x116E]⟩,
  ⟨0xFFD4, 0xFFD4, .mapped, [0x116F]⟩,
  ⟨0xFFD5, 0xFFD5, .mapped, [0x1170]⟩,
  ⟨0xFFD6, 0xFFD6, .mapped, [0x1171]⟩,
  ⟨0xFFD7, 0xFFD7, .mapped, [0x1172]⟩,
  ⟨0xFFD8, 0xFFD9, .disallowed, []⟩,
  ⟨0xFFDA, 0xFFDA, .mapped, [0x1173]⟩,
  ⟨0xFFDB, 0xFFDB, .mapped, [0x1174]⟩,
  ⟨0xFFDC, 0xFFDC, .mapped, [0x1175]⟩,
  ⟨0xFFDD, 0xFFDF, .disallowed, []⟩,
  ⟨0xFFE0, 0xFFE0, .mapped, [0xA2]⟩,
  ⟨0xFFE1, 0xFFE1, .mapped, [0xA3]⟩,
  ⟨0xFFE2, 0xFFE2, .mapped, [0xAC]⟩,
  ⟨0xFFE3, 0xFFE3, .std3Mapped, [0x20, 0x304]⟩,
  ⟨0xFFE4, 0xFFE4, .mapped, [0xA6]⟩,
  ⟨0xFFE5, 0xFFE5, .mapped, [0xA5]⟩,
  ⟨0xFFE6, 0xFFE6, .mapped, [0x20A9]⟩,
  ⟨0xFFE7, 0xFFE7, .disallowed, []⟩,
  ⟨0xFFE8, 0xFFE8, .mapped, [0x2502]⟩,
  ⟨0xFFE9, 0xFFE9, .mapped, [0x2190]⟩,
  ⟨0xFFEA, 0xFFEA, .mapped, [0x2191]⟩,
  ⟨0xFFEB, 0xFFEB, .mapped, [0x2192]⟩]

def map23 : List MapRow := [
  ⟨0xFFEC, 0xFFEC, .mapped, [0x2193]⟩,
  ⟨0xFFED, 0xFFED, .mapped, [0x25A0]⟩,
  ⟨0xFFEE, 0xFFEE, .mapped, [0x25CB]⟩,
  ⟨0xFFEF, 0xFFF8, .disallowed, []⟩,
  ⟨0xFFF9, 0xFFFB, .disallowed, []⟩,
  ⟨0xFFFC, 0xFFFC, .disallowed, []⟩,
  ⟨0xFFFD, 0xFFFD, .disallowed, []⟩,
  ⟨0xFFFE, 0xFFFF, .disallowed, []⟩,
  ⟨0x10000, 0x1000B, .valid, []⟩,
  ⟨0x1000C, 0x1000C, .disallowed, []⟩,
  ⟨0x1000D, 0x10026, .valid, []⟩,
  ⟨0x10027, 0x10027, .disallowed, []⟩,
  ⟨0x10028, 0x1003A, .valid, []⟩,
  ⟨0x1003B, 0x1003B, .disallowed, []⟩,
  ⟨0x1003C, 0x1003D, .valid, []⟩,
  ⟨0x1003E, 0x1003E, .disallowed, []⟩,
  ⟨0x1003F, 0x1004D, .valid, []⟩,
  ⟨0x1004E, 0x1004F, .disallowed, []⟩,
  ⟨0x10050, 0x1005D, .valid, []⟩,
  ⟨0x1005E, 0x1007F, .disallowed, []⟩,
  ⟨0x10080, 0x100FA, .valid, []⟩,
  ⟨0x100FB, 0x100FF, .disallowed, []⟩,
  ⟨0x10100, 0x10102, .valid, []⟩,
  ⟨0x10103, 0x10106, .disallowed, []⟩,
  ⟨0x10107, 0x10133, .valid, []⟩,
  ⟨0x10134, 0x10136, .disallowed, []⟩,
  ⟨0x10137, 0x1013F, .valid, []⟩,
  ⟨0x10140, 0x1018A, .valid, []⟩,
  ⟨0x1018B, 0x1018C, .valid, []⟩,
  ⟨0x1018D, 0x1018E, .valid, []⟩,
  ⟨0x1018F, 0x1018F, .disallowed, []⟩,
  ⟨0x10190, 0x1019B, .valid, []⟩,
  ⟨0x1019C, 0x1019C, .valid, []⟩,
  ⟨0x1019D, 0x1019F, .disallowed, []⟩,
  ⟨0x101A0, 0x101A0, .valid, []⟩,
  ⟨0x101A1, 0x101CF, .disallowed, []⟩,
  ⟨0x101D0, 0x101FC, .valid, []⟩,
  ⟨0x101FD, 0x101FD, .valid, []⟩,
  ⟨0x101FE, 0x1027F, .disallowed, []⟩,
  ⟨0x10280, 0x1029C, .valid, []⟩,
  ⟨0x1029D, 0x1029F, .disallowed, []⟩,
  ⟨0x102A0, 0x102D0, .valid, []⟩,
  ⟨0x102D1, 0x102DF, .disallowed, []⟩,
  ⟨0x102E0, 0x102E0, .valid, []⟩,
  ⟨0x102E1, 0x102FB, .valid, []⟩,
  ⟨0x102FC, 0x102FF, .disallowed, []⟩,
  ⟨0x10300, 0x1031E, .valid, []⟩,
  ⟨0x1031F, 0x1031F, .valid, []⟩,
  ⟨0x10320, 0x10323, .valid, []⟩,
  ⟨0x10324, 0x1032C, .disallowed, []⟩,
  ⟨0x1032D, 0x1032F, .valid, []⟩,
  ⟨0x10330, 0x10340, .valid, []⟩,
  ⟨0x10341, 0x10341, .valid, []⟩,
  ⟨0x10342, 0x10349, .valid, []⟩,
  ⟨0x1034A, 0x1034A, .valid, []⟩,
  ⟨0x1034B, 0x1034F, .disallowed, []⟩,
  ⟨0x10350, 0x1037A, .valid, []⟩,
  ⟨0x1037B, 0x1037F, .disallowed, []⟩,
  ⟨0x10380, 0x1039D, .valid, []⟩,
  ⟨0x1039E, 0x1039E, .disallowed, []⟩,
  ⟨0x1039F, 0x1039F, .valid, []⟩,
  ⟨0x103A0, 0x103C3, .valid, []⟩,
  ⟨0x103C4, 0x103C7, .disallowed, []⟩,
  ⟨0x103C8, 0x103CF, .valid, []⟩,
  ⟨0x103D0, 0x103D5, .valid, []⟩,
  ⟨0x103D6, 0x103FF, .disallowed, []⟩,
  ⟨0x10400, 0x10400, .mapped, [0x10428]⟩,
  ⟨0x10401, 0x10401, .mapped, [0x10429]⟩,
  ⟨0x10402, 0x10402, .mapped, [0x1042A]⟩,
  ⟨0x10403, 0x10403, .mapped, [0x1042B]⟩,
  ⟨0x10404, 0x10404, .mapped, [0x1042C]⟩,
  ⟨0x10405, 0x10405, .mapped, [0x1042D]⟩,
  ⟨0x10406, 0x10406, .mapped, [0x1042E]⟩,
  ⟨0x10407, 0x10407, .mapped, [0x1042F]⟩,
  ⟨0x10408, 0x10408, .mapped, [0x10430]⟩,
  ⟨0x10409, 0x10409, .mapped, [0x10431]⟩,
  ⟨0x1040A, 0x1040A, .mapped, [0x10432]⟩,
  ⟨0x1040B, 0x1040B, .mapped, [0x10433]⟩,
  ⟨0x1040C, 0x1040C, .mapped, [0x10434]⟩,
  ⟨0x1040D, 0x1040D, .mapped, [0x10435]⟩,
  ⟨0x1040E, 0x1040E, .mapped, [0x10436]⟩,
  ⟨0x1040F, 0x1040F, .mapped, [0x10437]⟩,
  ⟨0x10410, 0x10410, .mapped, [0x10438]⟩,
  ⟨0x10411, 0x10411, .mapped, [0x10439]⟩,
  ⟨0x10412, 0x10412, .mapped, [0x1043A]⟩,
  ⟨0x10413, 0x10413, .mapped, [0x1043B]⟩,
  ⟨0x10414, 0x10414, .mapped, [0x1043C]⟩,
  ⟨0x10415, 0x10415, .mapped, [0x1043D]⟩,
  ⟨0x10416, 0x10416, .mapped, [0x1043E]⟩,
  ⟨0x10417, 0x10417, .mapped, [0x1043F]⟩,
  ⟨0x10418, 0x10418, .mapped, [0x10440]⟩,
  ⟨0x10419, 0x10419, .mapped, [0x10441]⟩,
  ⟨0x1041A, 0x1041A, .mapped, [0x10442]⟩,
  ⟨0x1041B, 0x1041B, .mapped, [0x10443]⟩,
  ⟨0x1041C, 0x1041C, .mapped, [0x10444]⟩,
  ⟨0x1041D, 0x1041D, .mapped, [0x10445]⟩,
  ⟨0x1041E, 0x1041E, .mapped, [0x10446]⟩,
  ⟨0x1041F, 0x1041F, .mapped, [0x10447]⟩,
  ⟨0x10420, 0x10420, .mapped, [0x10448]⟩,
  ⟨0x10421, 0x10421, .mapped, [0x10449]⟩,
  ⟨0x10422, 0x10422, .mapped, [0x1044A]⟩,
  ⟨0x10423, 0x10423, .mapped, [0x1044B]⟩,
  ⟨0x10424, 0x10424, .mapped, [0x1044C]⟩,
  ⟨0x10425, 0x10425, .mapped, [0x1044D]⟩,
  ⟨0x10426, 0x10426, .mapped, [0x1044E]⟩,
  ⟨0x10427, 0x10427, .mapped, [0x1044F]⟩,
  ⟨0x10428, 0x1044D, .valid, []⟩,
  ⟨0x1044E, 0x1049D, .valid, []⟩,
  ⟨0x1049E, 0x1049F, .disallowed, []⟩,
  ⟨0x104A0, 0x104A9, .valid, []⟩,
  ⟨0x104AA, 0x104AF, .disallowed, []⟩,
  ⟨0x104B0, 0x104B0, .mapped, [0x104D8]⟩,
  ⟨0x104B1, 0x104B1, .mapped, [0x104D9]⟩,
  ⟨0x104B2, 0x104B2, .mapped, [0x104DA]⟩,
  ⟨0x104B3, 0x104B3, .mapped, [0x104DB]⟩,
  ⟨0x104B4, 0x104B4, .mapped, [0x104DC]⟩,
  ⟨0x104B5, 0x104B5, .mapped, [0x104DD]⟩,
  ⟨0x104B6, 0x104B6, .mapped, [0x104DE]⟩,
  ⟨0x104B7, 0x104B7, .mapped, [0x104DF]⟩,
  ⟨0x104B8, 0x104B8, .mapped, [0x104E0]⟩,
  ⟨0x104B9, 0x104B9, .mapped, [0x104E1]⟩,
  ⟨0x104BA, 0x104BA, .mapped, [0x104E2]⟩,
  ⟨0x104BB, 0x104BB, .mapped, [0x104E3]⟩,
  ⟨0x104BC, 0x104BC, .mapped, [0x104E4]⟩,
  ⟨0x104BD, 0x104BD, .mapped, [0x104E5]⟩,
  ⟨0x104BE, 0x104BE, .mapped, [0x104E6]⟩,
  ⟨0x104BF, 0x104BF, .mapped, [0x104E7]⟩,
  ⟨0x104C0, 0x104C0, .mapped, [0x104E8]⟩,
  ⟨0x104C1, 0x104C1, .mapped, [0x104E9]⟩,
  ⟨0x104C2, 0x104C2, .mapped, [0x104EA]⟩,
  ⟨0x104C3, 0x104C3, .mapped, [0x104EB]⟩,
  ⟨0x104C4, 0x104C4, .mapped, [0x104EC]⟩,
  ⟨0x104C5, 0x104C5, .mapped, [0x104ED]⟩,
  ⟨0x104C6, 0x104C6, .mapped, [0x104EE]⟩,
  ⟨0x104C7, 0x104C7, .mapped, [0x104EF]⟩,
  ⟨0x104C8, 0x104C8, .mapped, [0x104F0]⟩,
  ⟨0x104C9, 0x104C9, .mapped, [0x104F1]⟩,
  ⟨0x104CA, 0x104CA, .mapped, [0x104F2]⟩,
  ⟨0x104CB, 0x104CB, .mapped, [0x104F3]⟩,
  ⟨0x104CC, 0x104CC, .mapped, [0x104F4]⟩,
  ⟨0x104CD, 0x104CD, .mapped, [0x104F5]⟩,
  ⟨0x104CE, 0x104CE, .mapped, [0x104F6]⟩,
  ⟨0x104CF, 0x104CF, .mapped, [0x104F7]⟩,
  ⟨0x104D0, 0x104D0, .mapped, [0x104F8]⟩,
  ⟨0x104D1, 0x104D1, .mapped, [0x104F9]⟩,
  ⟨0x104D2, 0x104D2, .mapped, [0x104FA]⟩,
  ⟨0x104D3, 0x104D3, .mapped, [0x104FB]⟩,
  ⟨0x104D4, 0x104D7, .disallowed, []⟩,
  ⟨0x104D8, 0x104FB, .valid, []⟩,
  ⟨0x104FC, 0x104FF, .disallowed, []⟩,
  ⟨0x10500, 0x10527, .valid, []⟩,
  ⟨0x10528, 0x1052F, .disallowed, []⟩,
  ⟨0x10530, 0x10563, .valid, []⟩,
  ⟨0x10564, 0x1056E, .disallowed, []⟩,
  ⟨0x1056F, 0x1056F, .valid, []⟩,
  ⟨0x10570, 0x105FF, .disallowed, []⟩,
  ⟨0x10600, 0x10736, .valid, []⟩,
  ⟨0x10737, 0x1073F, .disallowed, []⟩,
  ⟨0x10740, 0x10755, .valid, []⟩,
  ⟨0x10756, 0x1075F, .disallowed, []⟩,
  ⟨0x10760, 0x10767, .valid, []⟩,
  ⟨0x10768, 0x107FF, .disallowed, []⟩,
  ⟨0x10800, 0x10805, .valid, []⟩,
  ⟨0x10806, 0x10807, .disallowed, []⟩,
  ⟨0x10808, 0x10808, .valid, []⟩,
  ⟨0x10809, 0x10809, .disallowed, []⟩,
  ⟨0x1080A, 0x10835, .valid, []⟩,
  ⟨0x10836, 0x10836, .disallowed, []⟩,
  ⟨0x10837, 0x10838, .valid, []⟩,
  ⟨0x10839, 0x1083B, .disallowed, []⟩,
  ⟨0x1083C, 0x1083C, .valid, []⟩,
  ⟨0x1083D, 0x1083E, .disallowed, []⟩,
  ⟨0x1083F, 0x1083F, .valid, []⟩,
  ⟨0x10840, 0x10855, .valid, []⟩,
  ⟨0x10856, 0x10856, .disallowed, []⟩,
  ⟨0x10857, 0x1085F, .valid, []⟩,
  ⟨0x10860, 0x10876, .valid, []⟩,
  ⟨0x10877, 0x1087F, .valid, []⟩,
  ⟨0x10880, 0x1089E, .valid, []⟩,
  ⟨0x1089F, 0x108A6, .disallowed, []⟩,
  ⟨0x108A7, 0x108AF, .valid, []⟩,
  ⟨0x108B0, 0x108DF, .disallowed, []⟩,
  ⟨0x108E0, 0x108F2, .valid, []⟩,
  ⟨0x108F3, 0x108F3, .disallowed, []⟩,
  ⟨0x108F4, 0x108F5, .valid, []⟩,
  ⟨0x108F6, 0x108FA, .disallowed, []⟩,
  ⟨0x108FB, 0x108FF, .valid, []⟩,
  ⟨0x10900, 0x10915, .valid, []⟩,
  ⟨0x10916, 0x10919, .valid, []⟩,
  ⟨0x1091A, 0x1091B, .valid, []⟩,
  ⟨0x1091C, 0x1091E, .disallowed, []⟩,
  ⟨0x1091F, 0x1091F, .valid, []⟩,
  ⟨0x10920, 0x10939, .valid, []⟩,
  ⟨0x1093A, 0x1093E, .disallowed, []⟩,
  ⟨0x1093F, 0x1093F, .valid, []⟩,
  ⟨0x10940, 0x1097F, .disallowed, []⟩,
  ⟨0x10980, 0x109B7, .valid, []⟩,
  ⟨0x109B8, 0x109BB, .disallowed, []⟩,
  ⟨0x109BC, 0x109BD, .valid, []⟩,
  ⟨0x109BE, 0x109BF, .valid, []⟩,
  ⟨0x109C0, 0x109CF, .valid, []⟩,
  ⟨0x109D0, 0x109D1, .disallowed, []⟩,
  ⟨0x109D2, 0x109FF, .valid, []⟩,
  ⟨0x10A00, 0x10A03, .valid, []⟩,
  ⟨0x10A04, 0x10A04, .disallowed, []⟩,
  ⟨0x10A05, 0x10A06, .valid, []⟩,
  ⟨0x10A07, 0x10A0B, .disallowed, []⟩,
  ⟨0x10A0C, 0x10A13, .valid, []⟩,
  ⟨0x10A14, 0x10A14, .disallowed, []⟩,
  ⟨0x10A15, 0x10A17, .valid, []⟩,
  ⟨0x10A18, 0x10A18, .disallowed, []⟩,
  ⟨0x10A19, 0x10A33, .valid, []⟩,
  ⟨0x10A34, 0x10A35, .valid, []⟩,
  ⟨0x10A36, 0x10A37, .disallowed, []⟩,
  ⟨0x10A38, 0x10A3A, .valid, []⟩,
  ⟨0x10A3B, 0x10A3E, .disallowed, []⟩,
  ⟨0x10A3F, 0x10A3F, .valid, []⟩,
  ⟨0x10A40, 0x10A47, .valid, []⟩,
  ⟨0x10A48, 0x10A48, .valid, []⟩,
  ⟨0x10A49, 0x10A4F, .disallowed, []⟩,
  ⟨0x10A50, 0x10A58, .valid, []⟩,
  ⟨0x10A59, 0x10A5F, .disallowed, []⟩,
  ⟨0x10A60, 0x10A7C, .valid, []⟩,
  ⟨0x10A7D, 0x10A7F, .valid, []⟩,
  ⟨0x10A80, 0x10A9C, .valid, []⟩,
  ⟨0x10A9D, 0x10A9F, .valid, []⟩,
  ⟨0x10AA0, 0x10ABF, .disallowed, []⟩,
  ⟨0x10AC0, 0x10AC7, .valid, []⟩,
  ⟨0x10AC8, 0x10AC8, .valid, []⟩,
  ⟨0x10AC9, 0x10AE6, .valid, []⟩,
  ⟨0x10AE7, 0x10AEA, .disallowed, []⟩,
  ⟨0x10AEB, 0x10AF6, .valid, []⟩,
  ⟨0x10AF7, 0x10AFF, .disallowed, []⟩,
  ⟨0x10B00, 0x10B35, .valid, []⟩,
  ⟨0x10B36, 0x10B38, .disallowed, []⟩,
  ⟨0x10B39, 0x10B3F, .valid, []⟩,
  ⟨0x10B40, 0x10B55, .valid, []⟩,
  ⟨0x10B56, 0x10B57, .disallowed, []⟩,
  ⟨0x10B58, 0x10B5F, .valid, []⟩,
  ⟨0x10B60, 0x10B72, .valid, []⟩,
  ⟨0x10B73, 0x10B77, .disallowed, []⟩,
  ⟨0x10B78, 0x10B7F, .valid, []⟩,
  ⟨0x10B80, 0x10B91, .valid, []⟩,
  ⟨0x10B92, 0x10B98, .disallowed, []⟩,
  ⟨0x10B99, 0x10B9C, .valid, []⟩,
  ⟨0x10B9D, 0x10BA8, .disallowed, []⟩,
  ⟨0x10BA9, 0x10BAF, .valid, []⟩,
  ⟨0x10BB0, 0x10BFF, .disallowed, []⟩,
  ⟨0x10C00, 0x10C48, .valid, []⟩,
  ⟨0x10C49, 0x10C7F, .disallowed, []⟩]

def map24 : List MapRow := [
  ⟨0x10C80, 0x10C80, .mapped, [0x10CC0]⟩,
  ⟨0x10C81, 0x10C81, .mapped, [0x10CC1]⟩,
  ⟨0x10C82, 0x10C82, .mapped, [0x10CC2]⟩,
  ⟨0x10C83, 0x10C83, .mapped, [0x10CC3]⟩,
  ⟨0x10C84, 0x10C84, .mapped, [0x10CC4]⟩,
  ⟨0x10C85, 0x10C85, .mapped, [0x10CC5]⟩,
  ⟨0x10C86, 0x10C86, .mapped, [0x10CC6]⟩,
  ⟨0x10C87, 0x10C87, .mapped, [0x10CC7]⟩,
  ⟨0x10C88, 0x10C88, .mapped, [0x10CC8]⟩,
  ⟨0x10C89, 0x10C89, .mapped, [0x10CC9]⟩,
  ⟨0x10C8A, 0x10C8A, .mapped, [0x10CCA]⟩,
  ⟨0x10C8B, 0x10C8B, .mapped, [0x10CCB]⟩,
  ⟨0x10C8C, 0x10C8C, .mapped, [0x10CCC]⟩,
  ⟨0x10C8D, 0x10C8D, .mapped, [0x10CCD]⟩,
  ⟨0x10C8E, 0x10C8E, .mapped, [0x10CCE]⟩,
  ⟨0x10C8F, 0x10C8F, .mapped, [0x10CCF]⟩,
  ⟨0x10C90, 0x10C90, .mapped, [0x10CD0]⟩,
  ⟨0x10C91, 0x10C91, .mapped, [0x10CD1]⟩,
  ⟨0x10C92, 0x10C92, .mapped, [0x10CD2]⟩,
  ⟨0x10C93, 0x10C93, .mapped, [0x10CD3]⟩,
  ⟨0x10C94, 0x10C94, .mapped, [0x10CD4]⟩,
  ⟨0x10C95, 0x10C95, .mapped, [0x10CD5]⟩,
  ⟨0x10C96, 0x10C96, .mapped, [0x10CD6]⟩,
  ⟨0x10C97, 0x10C97, .mapped, [0x10CD7]⟩,
  ⟨0x10C98, 0x10C98, .mapped, [0x10CD8]⟩,
  ⟨0x10C99, 0x10C99, .mapped, [0x10CD9]⟩,
  ⟨0x10C9A, 0x10C9A, .mapped, [0x10CDA]⟩,
  ⟨0x10C9B, 0x10C9B, .mapped, [0x10CDB]⟩,
  ⟨0x10C9C, 0x10C9C, .mapped, [0x10CDC]⟩,
  ⟨0x10C9D, 0x10C9D, .mapped, [0x10CDD]⟩,
  ⟨0x10C9E, 0x10C9E, .mapped, [0x10CDE]⟩,
  ⟨0x10C9F, 0x10C9F, .mapped, [0x10CDF]⟩,
  ⟨0x10CA0, 0x10CA0, .mapped, [0x10CE0]⟩,
  ⟨0x10CA1, 0x10CA1, .mapped, [0x10CE1]⟩,
  ⟨0x10CA2, 0x10CA2, .mapped, [0x10CE2]⟩,
  ⟨0x10CA3, 0x10CA3, .mapped, [0x10CE3]⟩,
  ⟨0x10CA4, 0x10CA4, .mapped, [0x10CE4]⟩,
  ⟨0x10CA5, 0x10CA5, .mapped, [0x10CE5]⟩,
  ⟨0x10CA6, 0x10CA6, .mapped, [0x10CE6]⟩,
  ⟨0x10CA7, 0x10CA7, .mapped, [0x10CE7]⟩,
  ⟨0x10CA8, 0x10CA8, .mapped, [0x10CE8]⟩,
  ⟨0x10CA9, 0x10CA9, .mapped, [0x10CE9]⟩,
  ⟨0x10CAA, 0x10CAA, .mapped, [0x10CEA]⟩,
  ⟨0x10CAB, 0x10CAB, .mapped, [0x10CEB]⟩,
  ⟨0x10CAC, 0x10CAC, .mapped, [0x10CEC]⟩,
  ⟨0x10CAD, 0x10CAD, .mapped, [0x10CED]⟩,
  ⟨0x10CAE, 0x10CAE, .mapped, [0x10CEE]⟩,
  ⟨0x10CAF, 0x10CAF, .mapped, [0x10CEF]⟩,
  ⟨0x10CB0, 0x10CB0, .mapped, [0x10CF0]⟩,
  ⟨0x10CB1, 0x10CB1, .mapped, [0x10CF1]⟩,
  ⟨0x10CB2, 0x10CB2, .mapped, [0x10CF2]⟩,
  ⟨0x10CB3, 0x10CBF, .disallowed, []⟩,
  ⟨0x10CC0, 0x10CF2, .valid, []⟩,
  ⟨0x10CF3, 0x10CF9, .disallowed, []⟩,
  ⟨0x10CFA, 0x10CFF, .valid, []⟩,
  ⟨0x10D00, 0x10D27, .valid, []⟩,
  ⟨0x10D28, 0x10D2F, .disallowed, []⟩,
  ⟨0x10D30, 0x10D39, .valid, []⟩,
  ⟨0x10D3A, 0x10E5F, .disallowed, []⟩,
  ⟨0x10E60, 0x10E7E, .valid, []⟩,
  ⟨0x10E7F, 0x10E7F, .disallowed, []⟩,
  ⟨0x10E80, 0x10EA9, .valid, []⟩,
  ⟨0x10EAA, 0x10EAA, .disallowed, []⟩,
  ⟨0x10EAB, 0x10EAC, .valid, []⟩,
  ⟨0x10EAD, 0x10EAD, .valid, []⟩,
  ⟨0x10EAE, 0x10EAF, .disallowed, []⟩,
  ⟨0x10EB0, 0x10EB1, .valid, []⟩,
  ⟨0x10EB2, 0x10EFF, .disallowed, []⟩,
  ⟨0x10F00, 0x10F1C, .valid, []⟩,
  ⟨0x10F1D, 0x10F26, .valid, []⟩,
  ⟨0x10F27, 0x10F27, .valid, []⟩,
  ⟨0x10F28, 0x10F2F, .disallowed, []⟩,
  ⟨0x10F30, 0x10F50, .valid, []⟩,
  ⟨0x10F51, 0x10F59, .valid, []⟩,
  ⟨0x10F5A, 0x10FAF, .disallowed, []⟩,
  ⟨0x10FB0, 0x10FC4, .valid, []⟩,
  ⟨0x10FC5, 0x10FCB, .valid, []⟩,
  ⟨0x10FCC, 0x10FDF, .disallowed, []⟩,
  ⟨0x10FE0, 0x10FF6, .valid, []⟩,
  ⟨0x10FF7, 0x10FFF, .disallowed, []⟩,
  ⟨0x11000, 0x11046, .valid, []⟩,
  ⟨0x11047, 0x1104D, .valid, []⟩,
  ⟨0x1104E, 0x11051, .disallowed, []⟩,
  ⟨0x11052, 0x11065, .valid, []⟩,
  ⟨0x11066, 0x1106F, .valid, []⟩,
  ⟨0x11070, 0x1107E, .disallowed, []⟩,
  ⟨0x1107F, 0x1107F, .valid, []⟩,
  ⟨0x11080, 0x110BA, .valid, []⟩,
  ⟨0x110BB, 0x110BC, .valid, []⟩,
  ⟨0x110BD, 0x110BD, .disallowed, []⟩,
  ⟨0x110BE, 0x110C1, .valid, []⟩,
  ⟨0x110C2, 0x110CC, .disallowed, []⟩,
  ⟨0x110CD, 0x110CD, .disallowed, []⟩,
  ⟨0x110CE, 0x110CF, .disallowed, []⟩,
  ⟨0x110D0, 0x110E8, .valid, []⟩,
  ⟨0x110E9, 0x110EF, .disallowed, []⟩,
  ⟨0x110F0, 0x110F9, .valid, []⟩,
  ⟨0x110FA, 0x110FF, .disallowed, []⟩,
  ⟨0x11100, 0x11134, .valid, []⟩,
  ⟨0x11135, 0x11135, .disallowed, []⟩,
  ⟨0x11136, 0x1113F, .valid, []⟩,
  ⟨0x11140, 0x11143, .valid, []⟩,
  ⟨0x11144, 0x11146, .valid, []⟩,
  ⟨0x11147, 0x11147, .valid, []⟩,
  ⟨0x11148, 0x1114F, .disallowed, []⟩,
  ⟨0x11150, 0x11173, .valid, []⟩,
  ⟨0x11174, 0x11175, .valid, []⟩,
  ⟨0x11176, 0x11176, .valid, []⟩,
  ⟨0x11177, 0x1117F, .disallowed, []⟩,
  ⟨0x11180, 0x111C4, .valid, []⟩,
  ⟨0x111C5, 0x111C8, .valid, []⟩,
  ⟨0x111C9, 0x111CC, .valid, []⟩,
  ⟨0x111CD, 0x111CD, .valid, []⟩,
  ⟨0x111CE, 0x111CF, .valid, []⟩,
  ⟨0x111D0, 0x111D9, .valid, []⟩,
  ⟨0x111DA, 0x111DA, .valid, []⟩,
  ⟨0x111DB, 0x111DB, .valid, []⟩,
  ⟨0x111DC, 0x111DC, .valid, []⟩,
  ⟨0x111DD, 0x111DF, .valid, []⟩,
  ⟨0x111E0, 0x111E0, .disallowed, []⟩,
  ⟨0x111E1, 0x111F4, .valid, []⟩,
  ⟨0x111F5, 0x111FF, .disallowed, []⟩,
  ⟨0x11200, 0x11211, .valid, []⟩,
  ⟨0x11212, 0x11212, .disallowed, []⟩,
  ⟨0x11213, 0x11237, .valid, []⟩,
  ⟨0x11238, 0x1123D, .valid, []⟩,
  ⟨0x1123E, 0x1123E, .valid, []⟩,
  ⟨0x1123F, 0x1127F, .disallowed, []⟩,
  ⟨0x11280, 0x11286, .valid, []⟩,
  ⟨0x11287, 0x11287, .disallowed, []⟩,
  ⟨0x11288, 0x11288, .valid, []⟩,
  ⟨0x11289, 0x11289, .disallowed, []⟩,
  ⟨0x1128A, 0x1128D, .valid, []⟩,
  ⟨0x1128E, 0x1128E, .disallowed, []⟩,
  ⟨0x1128F, 0x1129D, .valid, []⟩,
  ⟨0x1129E, 0x1129E, .disallowed, []⟩,
  ⟨0x1129F, 0x112A8, .valid, []⟩,
  ⟨0x112A9, 0x112A9, .valid, []⟩,
  ⟨0x112AA, 0x112AF, .disallowed, []⟩,
  ⟨0x112B0, 0x112EA, .valid, []⟩,
  ⟨0x112EB, 0x112EF, .disallowed, []⟩,
  ⟨0x112F0, 0x112F9, .valid, []⟩,
  ⟨0x112FA, 0x112FF, .disallowed, []⟩,
  ⟨0x11300, 0x11300, .valid, []⟩,
  ⟨0x11301, 0x11303, .valid, []⟩,
  ⟨0x11304, 0x11304, .disallowed, []⟩,
  ⟨0x11305, 0x1130C, .valid, []⟩,
  ⟨0x1130D, 0x1130E, .disallowed, []⟩,
  ⟨0x1130F, 0x11310, .valid, []⟩,
  ⟨0x11311, 0x11312, .disallowed, []⟩,
  ⟨0x11313, 0x11328, .valid, []⟩,
  ⟨0x11329, 0x11329, .disallowed, []⟩,
  ⟨0x1132A, 0x11330, .valid, []⟩,
  ⟨0x11331, 0x11331, .disallowed, []⟩,
  ⟨0x11332, 0x11333, .valid, []⟩,
  ⟨0x11334, 0x11334, .disallowed, []⟩,
  ⟨0x11335, 0x11339, .valid, []⟩,
  ⟨0x1133A, 0x1133A, .disallowed, []⟩,
  ⟨0x1133B, 0x1133B, .valid, []⟩,
  ⟨0x1133C, 0x11344, .valid, []⟩,
  ⟨0x11345, 0x11346, .disallowed, []⟩,
  ⟨0x11347, 0x11348, .valid, []⟩,
  ⟨0x11349, 0x1134A, .disallowed, []⟩,
  ⟨0x1134B, 0x1134D, .valid, []⟩,
  ⟨0x1134E, 0x1134F, .disallowed, []⟩,
  ⟨0x11350, 0x11350, .valid, []⟩,
  ⟨0x11351, 0x11356, .disallowed, []⟩,
  ⟨0x11357, 0x11357, .valid, []⟩,
  ⟨0x11358, 0x1135C, .disallowed, []⟩,
  ⟨0x1135D, 0x11363, .valid, []⟩,
  ⟨0x11364, 0x11365, .disallowed, []⟩,
  ⟨0x11366, 0x1136C, .valid, []⟩,
  ⟨0x1136D, 0x1136F, .disallowed, []⟩,
  ⟨0x11370, 0x11374, .valid, []⟩,
  ⟨0x11375, 0x113FF, .disallowed, []⟩,
  ⟨0x11400, 0x1144A, .valid, []⟩,
  ⟨0x1144B, 0x1144F, .valid, []⟩,
  ⟨0x11450, 0x11459, .valid, []⟩,
  ⟨0x1145A, 0x1145A, .valid, []⟩,
  ⟨0x1145B, 0x1145B, .valid, []⟩,
  ⟨0x1145C, 0x1145C, .disallowed, []⟩,
  ⟨0x1145D, 0x1145D, .valid, []⟩,
  ⟨0x1145E, 0x1145E, .valid, []⟩,
  ⟨0x1145F, 0x1145F, .valid, []⟩,
  ⟨0x11460, 0x11461, .valid, []⟩,
  ⟨0x11462, 0x1147F, .disallowed, []⟩,
  ⟨0x11480, 0x114C5, .valid, []⟩,
  ⟨0x114C6, 0x114C6, .valid, []⟩,
  ⟨0x114C7, 0x114C7, .valid, []⟩,
  ⟨0x114C8, 0x114CF, .disallowed, []⟩,
  ⟨0x114D0, 0x114D9, .valid, []⟩,
  ⟨0x114DA, 0x1157F, .disallowed, []⟩,
  ⟨0x11580, 0x115B5, .valid, []⟩,
  ⟨0x115B6, 0x115B7, .disallowed, []⟩,
  ⟨0x115B8, 0x115C0, .valid, []⟩,
  ⟨0x115C1, 0x115C9, .valid, []⟩,
  ⟨0x115CA, 0x115D7, .valid, []⟩,
  ⟨0x115D8, 0x115DD, .valid, []⟩,
  ⟨0x115DE, 0x115FF, .disallowed, []⟩,
  ⟨0x11600, 0x11640, .valid, []⟩,
  ⟨0x11641, 0x11643, .valid, []⟩,
  ⟨0x11644, 0x11644, .valid, []⟩,
  ⟨0x11645, 0x1164F, .disallowed, []⟩,
  ⟨0x11650, 0x11659, .valid, []⟩,
  ⟨0x1165A, 0x1165F, .disallowed, []⟩,
  ⟨0x11660, 0x1166C, .valid, []⟩,
  ⟨0x1166D, 0x1167F, .disallowed, []⟩,
  ⟨0x11680, 0x116B7, .valid, []⟩,
  ⟨0x116B8, 0x116B8, .valid, []⟩,
  ⟨0x116B9, 0x116BF, .disallowed, []⟩,
  ⟨0x116C0, 0x116C9, .valid, []⟩,
  ⟨0x116CA, 0x116FF, .disallowed, []⟩,
  ⟨0x11700, 0x11719, .valid, []⟩,
  ⟨0x1171A, 0x1171A, .valid, []⟩,
  ⟨0x1171B, 0x1171C, .disallowed, []⟩,
  ⟨0x1171D, 0x1172B, .valid, []⟩,
  ⟨0x1172C, 0x1172F, .disallowed, []⟩,
  ⟨0x11730, 0x11739, .valid, []⟩,
  ⟨0x1173A, 0x1173F, .valid, []⟩,
  ⟨0x11740, 0x117FF, .disallowed, []⟩,
  ⟨0x11800, 0x1183A, .valid, []⟩,
  ⟨0x1183B, 0x1183B, .valid, []⟩,
  ⟨0x1183C, 0x1189F, .disallowed, []⟩,
  ⟨0x118A0, 0x118A0, .mapped, [0x118C0]⟩,
  ⟨0x118A1, 0x118A1, .mapped, [0x118C1]⟩,
  ⟨0x118A2, 0x118A2, .mapped, [0x118C2]⟩,
  ⟨0x118A3, 0x118A3, .mapped, [0x118C3]⟩,
  ⟨0x118A4, 0x118A4, .mapped, [0x118C4]⟩,
  ⟨0x118A5, 0x118A5, .mapped, [0x118C5]⟩,
  ⟨0x118A6, 0x118A6, .mapped, [0x118C6]⟩,
  ⟨0x118A7, 0x118A7, .mapped, [0x118C7]⟩,
  ⟨0x118A8, 0x118A8, .mapped, [0x118C8]⟩,
  ⟨0x118A9, 0x118A9, .mapped, [0x118C9]⟩,
  ⟨0x118AA, 0x118AA, .mapped, [0x118CA]⟩,
  ⟨0x118AB, 0x118AB, .mapped, [0x118CB]⟩,
  ⟨0x118AC, 0x118AC, .mapped, [0x118CC]⟩,
  ⟨0x118AD, 0x118AD, .mapped, [0x118CD]⟩,
  ⟨0x118AE, 0x118AE, .mapped, [0x118CE]⟩,
  ⟨0x118AF, 0x118AF, .mapped, [0x118CF]⟩,
  ⟨0x118B0, 0x118B0, .mapped, [0x118D0]⟩,
  ⟨0x118B1, 0x118B1, .mapped, [0x118D1]⟩,
  ⟨0x118B2, 0x118B2, .mapped, [0x118D2]⟩,
  ⟨0x118B3, 0x118B3, .mapped, [0x118D3]⟩,
  ⟨0x118B4, 0x118B4, .mapped, [0x118D4]⟩,
  ⟨0x118B5, 0x118B5, .mapped, [0x118D5]⟩,
  ⟨0x118B6, 0x118B6, .mapped, [0x118D6]⟩,
  ⟨0x118B7, 0x118B7, .mapped, [0x118D7]⟩,
  ⟨0x118B8, 0x118B8, .mapped, [0x118D8]⟩,
  ⟨0x118B9, 0x118B9, .mapped, [0x118D9]⟩,
  ⟨0x118BA, 0x118BA, .mapped, [0x118DA]⟩]

def map25 : List MapRow := [
  ⟨0x118BB, 0x118BB, .mapped, [0x118DB]⟩,
  ⟨0x118BC, 0x118BC, .mapped, [0x118DC]⟩,
  ⟨0x118BD, 0x118BD, .mapped, [0x118DD]⟩,
  ⟨0x118BE, 0x118BE, .mapped, [0x118DE]⟩,
  ⟨0x118BF, 0x118BF, .mapped, [0x118DF]⟩,
  ⟨0x118C0, 0x118E9, .valid, []⟩,
  ⟨0x118EA, 0x118F2, .valid, []⟩,
  ⟨0x118F3, 0x118FE, .disallowed, []⟩,
  ⟨0x118FF, 0x118FF, .valid, []⟩,
  ⟨0x11900, 0x11906, .valid, []⟩,
  ⟨0x11907, 0x11908, .disallowed, []⟩,
  ⟨0x11909, 0x11909, .valid, []⟩,
  ⟨0x1190A, 0x1190B, .disallowed, []⟩,
  ⟨0x1190C, 0x11913, .valid, []⟩,
  ⟨0x11914, 0x11914, .disallowed, []⟩,
  ⟨0x11915, 0x11916, .valid, []⟩,
  ⟨0x11917, 0x11917, .disallowed, []⟩,
  ⟨0x11918, 0x11935, .valid, []⟩,
  ⟨0x11936, 0x11936, .disallowed, []⟩,
  ⟨0x11937, 0x11938, .valid, []⟩,
  ⟨0x11939, 0x1193A, .disallowed, []⟩,
  ⟨0x1193B, 0x11943, .valid, []⟩,
  ⟨0x11944, 0x11946, .valid, []⟩,
  ⟨0x11947, 0x1194F, .disallowed, []⟩,
  ⟨0x11950, 0x11959, .valid, []⟩,
  ⟨0x1195A, 0x1199F, .disallowed, []⟩,
  ⟨0x119A0, 0x119A7, .valid, []⟩,
  ⟨0x119A8, 0x119A9, .disallowed, []⟩,
  ⟨0x119AA, 0x119D7, .valid, []⟩,
  ⟨0x119D8, 0x119D9, .disallowed, []⟩,
  ⟨0x119DA, 0x119E1, .valid, []⟩,
  ⟨0x119E2, 0x119E2, .valid, []⟩,
  ⟨0x119E3, 0x119E4, .valid, []⟩,
  ⟨0x119E5, 0x119FF, .disallowed, []⟩,
  ⟨0x11A00, 0x11A3E, .valid, []⟩,
  ⟨0x11A3F, 0x11A46, .valid, []⟩,
  ⟨0x11A47, 0x11A47, .valid, []⟩,
  ⟨0x11A48, 0x11A4F, .disallowed, []⟩,
  ⟨0x11A50, 0x11A83, .valid, []⟩,
  ⟨0x11A84, 0x11A85, .valid, []⟩,
  ⟨0x11A86, 0x11A99, .valid, []⟩,
  ⟨0x11A9A, 0x11A9C, .valid, []⟩,
  ⟨0x11A9D, 0x11A9D, .valid, []⟩,
  ⟨0x11A9E, 0x11AA2, .valid, []⟩,
  ⟨0x11AA3, 0x11ABF, .disallowed, []⟩,
  ⟨0x11AC0, 0x11AF8, .valid, []⟩,
  ⟨0x11AF9, 0x11BFF, .disallowed, []⟩,
  ⟨0x11C00, 0x11C08, .valid, []⟩,
  ⟨0x11C09, 0x11C09, .disallowed, []⟩,
  ⟨0x11C0A, 0x11C36, .valid, []⟩,
  ⟨0x11C37, 0x11C37, .disallowed, []⟩,
  ⟨0x11C38, 0x11C40, .valid, []⟩,
  ⟨0x11C41, 0x11C45, .valid, []⟩,
  ⟨0x11C46, 0x11C4F, .disallowed, []⟩,
  ⟨0x11C50, 0x11C59, .valid, []⟩,
  ⟨0x11C5A, 0x11C6C, .valid, []⟩,
  ⟨0x11C6D, 0x11C6F, .disallowed, []⟩,
  ⟨0x11C70, 0x11C71, .valid, []⟩,
  ⟨0x11C72, 0x11C8F, .valid, []⟩,
  ⟨0x11C90, 0x11C91, .disallowed, []⟩,
  ⟨0x11C92, 0x11CA7, .valid, []⟩,
  ⟨0x11CA8, 0x11CA8, .disallowed, []⟩,
  ⟨0x11CA9, 0x11CB6, .valid, []⟩,
  ⟨0x11CB7, 0x11CFF, .disallowed, []⟩,
  ⟨0x11D00, 0x11D06, .valid, []⟩,
  ⟨0x11D07, 0x11D07, .disallowed, []⟩,
  ⟨0x11D08, 0x11D09, .valid, []⟩,
  ⟨0x11D0A, 0x11D0A, .disallowed, []⟩,
  ⟨0x11D0B, 0x11D36, .valid, []⟩,
  ⟨0x11D37, 0x11D39, .disallowed, []⟩,
  ⟨0x11D3A, 0x11D3A, .valid, []⟩,
  ⟨0x11D3B, 0x11D3B, .disallowed, []⟩,
  ⟨0x11D3C, 0x11D3D, .valid, []⟩,
  ⟨0x11D3E, 0x11D3E, .disallowed, []⟩,
  ⟨0x11D3F, 0x11D47, .valid, []⟩,
  ⟨0x11D48, 0x11D4F, .disallowed, []⟩,
  ⟨0x11D50, 0x11D59, .valid, []⟩,
  ⟨0x11D5A, 0x11D5F, .disallowed, []⟩,
  ⟨0x11D60, 0x11D65, .valid, []⟩,
  ⟨0x11D66, 0x11D66, .disallowed, []⟩,
  ⟨0x11D67, 0x11D68, .valid, []⟩,
  ⟨0x11D69, 0x11D69, .disallowed, []⟩,
  ⟨0x11D6A, 0x11D8E, .valid, []⟩,
  ⟨0x11D8F, 0x11D8F, .disallowed, []⟩,
  ⟨0x11D90, 0x11D91, .valid, []⟩,
  ⟨0x11D92, 0x11D92, .disallowed, []⟩,
  ⟨0x11D93, 0x11D98, .valid, []⟩,
  ⟨0x11D99, 0x11D9F, .disallowed, []⟩,
  ⟨0x11DA0, 0x11DA9, .valid, []⟩,
  ⟨0x11DAA, 0x11EDF, .disallowed, []⟩,
  ⟨0x11EE0, 0x11EF6, .valid, []⟩,
  ⟨0x11EF7, 0x11EF8, .valid, []⟩,
  ⟨0x11EF9, 0x11FAF, .disallowed, []⟩,
  ⟨0x11FB0, 0x11FB0, .valid, []⟩,
  ⟨0x11FB1, 0x11FBF, .disallowed, []⟩,
  ⟨0x11FC0, 0x11FF1, .valid, []⟩,
  ⟨0x11FF2, 0x11FFE, .disallowed, []⟩,
  ⟨0x11FFF, 0x11FFF, .valid, []⟩,
  ⟨0x12000, 0x1236E, .valid, []⟩,
  ⟨0x1236F, 0x12398, .valid, []⟩,
  ⟨0x12399, 0x12399, .valid, []⟩,
  ⟨0x1239A, 0x123FF, .disallowed, []⟩,
  ⟨0x12400, 0x12462, .valid, []⟩,
  ⟨0x12463, 0x1246E, .valid, []⟩,
  ⟨0x1246F, 0x1246F, .disallowed, []⟩,
  ⟨0x12470, 0x12473, .valid, []⟩,
  ⟨0x12474, 0x12474, .valid, []⟩,
  ⟨0x12475, 0x1247F, .disallowed, []⟩,
  ⟨0x12480, 0x12543, .valid, []⟩,
  ⟨0x12544, 0x12FFF, .disallowed, []⟩,
  ⟨0x13000, 0x1342E, .valid, []⟩,
  ⟨0x1342F, 0x1342F, .disallowed, []⟩,
  ⟨0x13430, 0x13438, .disallowed, []⟩,
  ⟨0x13439, 0x143FF, .disallowed, []⟩,
  ⟨0x14400, 0x14646, .valid, []⟩,
  ⟨0x14647, 0x167FF, .disallowed, []⟩,
  ⟨0x16800, 0x16A38, .valid, []⟩,
  ⟨0x16A39, 0x16A3F, .disallowed, []⟩,
  ⟨0x16A40, 0x16A5E, .valid, []⟩,
  ⟨0x16A5F, 0x16A5F, .disallowed, []⟩,
  ⟨0x16A60, 0x16A69, .valid, []⟩,
  ⟨0x16A6A, 0x16A6D, .disallowed, []⟩,
  ⟨0x16A6E, 0x16A6F, .valid, []⟩,
  ⟨0x16A70, 0x16ACF, .disallowed, []⟩,
  ⟨0x16AD0, 0x16AED, .valid, []⟩,
  ⟨0x16AEE, 0x16AEF, .disallowed, []⟩,
  ⟨0x16AF0, 0x16AF4, .valid, []⟩,
  ⟨0x16AF5, 0x16AF5, .valid, []⟩,
  ⟨0x16AF6, 0x16AFF, .disallowed, []⟩,
  ⟨0x16B00, 0x16B36, .valid, []⟩,
  ⟨0x16B37, 0x16B3F, .valid, []⟩,
  ⟨0x16B40, 0x16B43, .valid, []⟩,
  ⟨0x16B44, 0x16B45, .valid, []⟩,
  ⟨0x16B46, 0x16B4F, .disallowed, []⟩,
  ⟨0x16B50, 0x16B59, .valid, []⟩,
  ⟨0x16B5A, 0x16B5A, .disallowed, []⟩,
  ⟨0x16B5B, 0x16B61, .valid, []⟩,
  ⟨0x16B62, 0x16B62, .disallowed, []⟩,
  ⟨0x16B63, 0x16B77, .valid, []⟩,
  ⟨0x16B78, 0x16B7C, .disallowed, []⟩,
  ⟨0x16B7D, 0x16B8F, .valid, []⟩,
  ⟨0x16B90, 0x16E3F, .disallowed, []⟩,
  ⟨0x16E40, 0x16E40, .mapped, [0x16E60]⟩,
  ⟨0x16E41, 0x16E41, .mapped, [0x16E61]⟩,
  ⟨0x16E42, 0x16E42, .mapped, [0x16E62]⟩,
  ⟨0x16E43, 0x16E43, .mapped, [0x16E63]⟩,
  ⟨0x16E44, 0x16E44, .mapped, [0x16E64]⟩,
  ⟨0x16E45, 0x16E45, .mapped, [0x16E65]⟩,
  ⟨0x16E46, 0x16E46, .mapped, [0x16E66]⟩,
  ⟨0x16E47, 0x16E47, .mapped, [0x16E67]⟩,
  ⟨0x16E48, 0x16E48, .mapped, [0x16E68]⟩,
  ⟨0x16E49, 0x16E49, .mapped, [0x16E69]⟩,
  ⟨0x16E4A, 0x16E4A, .mapped, [0x16E6A]⟩,
  ⟨0x16E4B, 0x16E4B, .mapped, [0x16E6B]⟩,
  ⟨0x16E4C, 0x16E4C, .mapped, [0x16E6C]⟩,
  ⟨0x16E4D, 0x16E4D, .mapped, [0x16E6D]⟩,
  ⟨0x16E4E, 0x16E4E, .mapped, [0x16E6E]⟩,
  ⟨0x16E4F, 0x16E4F, .mapped, [0x16E6F]⟩,
  ⟨0x16E50, 0x16E50, .mapped, [0x16E70]⟩,
  ⟨0x16E51, 0x16E51, .mapped, [0x16E71]⟩,
  ⟨0x16E52, 0x16E52, .mapped, [0x16E72]⟩,
  ⟨0x16E53, 0x16E53, .mapped, [0x16E73]⟩,
  ⟨0x16E54, 0x16E54, .mapped, [0x16E74]⟩,
  ⟨0x16E55, 0x16E55, .mapped, [0x16E75]⟩,
  ⟨0x16E56, 0x16E56, .mapped, [0x16E76]⟩,
  ⟨0x16E57, 0x16E57, .mapped, [0x16E77]⟩,
  ⟨0x16E58, 0x16E58, .mapped, [0x16E78]⟩,
  ⟨0x16E59, 0x16E59, .mapped, [0x16E79]⟩,
  ⟨0x16E5A, 0x16E5A, .mapped, [0x16E7A]⟩,
  ⟨0x16E5B, 0x16E5B, .mapped, [0x16E7B]⟩,
  ⟨0x16E5C, 0x16E5C, .mapped, [0x16E7C]⟩,
  ⟨0x16E5D, 0x16E5D, .mapped, [0x16E7D]⟩,
  ⟨0x16E5E, 0x16E5E, .mapped, [0x16E7E]⟩,
  ⟨0x16E5F, 0x16E5F, .mapped, [0x16E7F]⟩,
  ⟨0x16E60, 0x16E7F, .valid, []⟩,
  ⟨0x16E80, 0x16E9A, .valid, []⟩,
  ⟨0x16E9B, 0x16EFF, .disallowed, []⟩,
  ⟨0x16F00, 0x16F44, .valid, []⟩,
  ⟨0x16F45, 0x16F4A, .valid, []⟩,
  ⟨0x16F4B, 0x16F4E, .disallowed, []⟩,
  ⟨0x16F4F, 0x16F4F, .valid, []⟩,
  ⟨0x16F50, 0x16F7E, .valid, []⟩,
  ⟨0x16F7F, 0x16F87, .valid, []⟩,
  ⟨0x16F88, 0x16F8E, .disallowed, []⟩,
  ⟨0x16F8F, 0x16F9F, .valid, []⟩,
  ⟨0x16FA0, 0x16FDF, .disallowed, []⟩,
  ⟨0x16FE0, 0x16FE0, .valid, []⟩,
  ⟨0x16FE1, 0x16FE1, .valid, []⟩,
  ⟨0x16FE2, 0x16FE2, .valid, []⟩,
  ⟨0x16FE3, 0x16FE3, .valid, []⟩,
  ⟨0x16FE4, 0x16FE4, .valid, []⟩,
  ⟨0x16FE5, 0x16FEF, .disallowed, []⟩,
  ⟨0x16FF0, 0x16FF1, .valid, []⟩,
  ⟨0x16FF2, 0x16FFF, .disallowed, []⟩,
  ⟨0x17000, 0x187EC, .valid, []⟩,
  ⟨0x187ED, 0x187F1, .valid, []⟩,
  ⟨0x187F2, 0x187F7, .valid, []⟩,
  ⟨0x187F8, 0x187FF, .disallowed, []⟩,
  ⟨0x18800, 0x18AF2, .valid, []⟩,
  ⟨0x18AF3, 0x18CD5, .valid, []⟩,
  ⟨0x18CD6, 0x18CFF, .disallowed, []⟩,
  ⟨0x18D00, 0x18D08, .valid, []⟩,
  ⟨0x18D09, 0x1AFFF, .disallowed, []⟩,
  ⟨0x1B000, 0x1B001, .valid, []⟩,
  ⟨0x1B002, 0x1B11E, .valid, []⟩,
  ⟨0x1B11F, 0x1B14F, .disallowed, []⟩,
  ⟨0x1B150, 0x1B152, .valid, []⟩,
  ⟨0x1B153, 0x1B163, .disallowed, []⟩,
  ⟨0x1B164, 0x1B167, .valid, []⟩,
  ⟨0x1B168, 0x1B16F, .disallowed, []⟩,
  ⟨0x1B170, 0x1B2FB, .valid, []⟩,
  ⟨0x1B2FC, 0x1BBFF, .disallowed, []⟩,
  ⟨0x1BC00, 0x1BC6A, .valid, []⟩,
  ⟨0x1BC6B, 0x1BC6F, .disallowed, []⟩,
  ⟨0x1BC70, 0x1BC7C, .valid, []⟩,
  ⟨0x1BC7D, 0x1BC7F, .disallowed, []⟩,
  ⟨0x1BC80, 0x1BC88, .valid, []⟩,
  ⟨0x1BC89, 0x1BC8F, .disallowed, []⟩,
  ⟨0x1BC90, 0x1BC99, .valid, []⟩,
  ⟨0x1BC9A, 0x1BC9B, .disallowed, []⟩,
  ⟨0x1BC9C, 0x1BC9C, .valid, []⟩,
  ⟨0x1BC9D, 0x1BC9E, .valid, []⟩,
  ⟨0x1BC9F, 0x1BC9F, .valid, []⟩,
  ⟨0x1BCA0, 0x1BCA3, .ignored, []⟩,
  ⟨0x1BCA4, 0x1CFFF, .disallowed, []⟩,
  ⟨0x1D000, 0x1D0F5, .valid, []⟩,
  ⟨0x1D0F6, 0x1D0FF, .disallowed, []⟩,
  ⟨0x1D100, 0x1D126, .valid, []⟩,
  ⟨0x1D127, 0x1D128, .disallowed, []⟩,
  ⟨0x1D129, 0x1D129, .valid, []⟩,
  ⟨0x1D12A, 0x1D15D, .valid, []⟩,
  ⟨0x1D15E, 0x1D15E, .mapped, [0x1D157, 0x1D165]⟩,
  ⟨0x1D15F, 0x1D15F, .mapped, [0x1D158, 0x1D165]⟩,
  ⟨0x1D160, 0x1D160, .mapped, [0x1D158, 0x1D165, 0x1D16E]⟩,
  ⟨0x1D161, 0x1D161, .mapped, [0x1D158, 0x1D165, 0x1D16F]⟩,
  ⟨0x1D162, 0x1D162, .mapped, [0x1D158, 0x1D165, 0x1D170]⟩,
  ⟨0x1D163, 0x1D163, .mapped, [0x1D158, 0x1D165, 0x1D171]⟩,
  ⟨0x1D164, 0x1D164, .mapped, [0x1D158, 0x1D165, 0x1D172]⟩,
  ⟨0x1D165, 0x1D172, .valid, []⟩,
  ⟨0x1D173, 0x1D17A, .disallowed, []⟩,
  ⟨0x1D17B, 0x1D1BA, .valid, []⟩,
  ⟨0x1D1BB, 0x1D1BB, .mapped, [0x1D1B9, 0x1D165]⟩,
  ⟨0x1D1BC, 0x1D1BC, .mapped, [0x1D1BA, 0x1D165]⟩,
  ⟨0x1D1BD, 0x1D1BD, .mapped, [0x1D1B9, 0x1D165, 0x1D16E]⟩,
  ⟨0x1D1BE, 0x1D1BE, .mapped, [0x1D1BA, 0x1D165, 0x1D16E]⟩,
  ⟨0x1D1BF, 0x1D1BF, .mapped, [0x1D1B9, 0x1D165, 0x1D16F]⟩,
  ⟨0x1D1C0, 0x1D1C0, .mapped, [0x1D1BA, 0x1D165, 0x1D16F]⟩,
  ⟨0x1D1C1, 0x1D1DD, .valid, []⟩,
  ⟨0x1D1DE, 0x1D1E8, .valid, []⟩,
  ⟨0x1D1E9, 0x1D1FF, .disallowed, []⟩]

def map26 : List MapRow := [
  ⟨0x1D200, 0x1D245, .valid, []⟩,
  ⟨0x1D246, 0x1D2DF, .disallowed, []⟩,
  ⟨0x1D2E0, 0x1D2F3, .valid, []⟩,
  ⟨0x1D2F4, 0x1D2FF, .disallowed, []⟩,
  ⟨0x1D300, 0x1D356, .valid, []⟩,
  ⟨0x1D357, 0x1D35F, .disallowed, []⟩,
  ⟨0x1D360, 0x1D371, .valid, []⟩,
  ⟨0x1D372, 0x1D378, .valid, []⟩,
  ⟨0x1D379, 0x1D3FF, .disallowed, []⟩,
  ⟨0x1D400, 0x1D400, .mapped, [0x61]⟩,
  ⟨0x1D401, 0x1D401, .mapped, [0x62]⟩,
  ⟨0x1D402, 0x1D402, .mapped, [0x63]⟩,
  ⟨0x1D403, 0x1D403, .mapped, [0x64]⟩,
  ⟨0x1D404, 0x1D404, .mapped, [0x65]⟩,
  ⟨0x1D405, 0x1D405, .mapped, [0x66]⟩,
  ⟨0x1D406, 0x1D406, .mapped, [0x67]⟩,
  ⟨0x1D407, 0x1D407, .mapped, [0x68]⟩,
  ⟨0x1D408, 0x1D408, .mapped, [0x69]⟩,
  ⟨0x1D409, 0x1D409, .mapped, [0x6A]⟩,
  ⟨0x1D40A, 0x1D40A, .mapped, [0x6B]⟩,
  ⟨0x1D40B, 0x1D40B, .mapped, [0x6C]⟩,
  ⟨0x1D40C, 0x1D40C, .mapped, [0x6D]⟩,
  ⟨0x1D40D, 0x1D40D, .mapped, [0x6E]⟩,
  ⟨0x1D40E, 0x1D40E, .mapped, [0x6F]⟩,
  ⟨0x1D40F, 0x1D40F, .mapped, [0x70]⟩,
  ⟨0x1D410, 0x1D410, .mapped, [0x71]⟩,
  ⟨0x1D411, 0x1D411, .mapped, [0x72]⟩,
  ⟨0x1D412, 0x1D412, .mapped, [0x73]⟩,
  ⟨0x1D413, 0x1D413, .mapped, [0x74]⟩,
  ⟨0x1D414, 0x1D414, .mapped, [0x75]⟩,
  ⟨0x1D415, 0x1D415, .mapped, [0x76]⟩,
  ⟨0x1D416, 0x1D416, .mapped, [0x77]⟩,
  ⟨0x1D417, 0x1D417, .mapped, [0x78]⟩,
  ⟨0x1D418, 0x1D418, .mapped, [0x79]⟩,
  ⟨0x1D419, 0x1D419, .mapped, [0x7A]⟩,
  ⟨0x1D41A, 0x1D41A, .mapped, [0x61]⟩,
  ⟨0x1D41B, 0x1D41B, .mapped, [0x62]⟩,
  ⟨0x1D41C, 0x1D41C, .mapped, [0x63]⟩,
  ⟨0x1D41D, 0x1D41D, .mapped, [0x64]⟩,
  ⟨0x1D41E, 0x1D41E, .mapped, [0x65]⟩,
  ⟨0x1D41F, 0x1D41F, .mapped, [0x66]⟩,
  ⟨0x1D420, 0x1D420, .mapped, [0x67]⟩,
  ⟨0x1D421, 0x1D421, .mapped, [0x68]⟩,
  ⟨0x1D422, 0x1D422, .mapped, [0x69]⟩,
  ⟨0x1D423, 0x1D423, .mapped, [0x6A]⟩,
  ⟨0x1D424, 0x1D424, .mapped, [0x6B]⟩,
  ⟨0x1D425, 0x1D425, .mapped, [0x6C]⟩,
  ⟨0x1D426, 0x1D426, .mapped, [0x6D]⟩,
  ⟨0x1D427, 0x1D427, .mapped, [0x6E]⟩,
  ⟨0x1D428, 0x1D428, .mapped, [0x6F]⟩,
  ⟨0x1D429, 0x1D429, .mapped, [0x70]⟩,
  ⟨0x1D42A, 0x1D42A, .mapped, [0x71]⟩,
  ⟨0x1D42B, 0x1D42B, .mapped, [0x72]⟩,
  ⟨0x1D42C, 0x1D42C, .mapped, [0x73]⟩,
  ⟨0x1D42D, 0x1D42D, .mapped, [0x74]⟩,
  ⟨0x1D42E, 0x1D42E, .mapped, [0x75]⟩,
  ⟨0x1D42F, 0x1D42F, .mapped, [0x76]⟩,
  ⟨0x1D430, 0x1D430, .mapped, [0x77]⟩,
  ⟨0x1D431, 0x1D431, .mapped, [0x78]⟩,
  ⟨0x1D432, 0x1D432, .mapped, [0x79]⟩,
  ⟨0x1D433, 0x1D433, .mapped, [0x7A]⟩,
  ⟨0x1D434, 0x1D434, .mapped, [0x61]⟩,
  ⟨0x1D435, 0x1D435, .mapped, [0x62]⟩,
  ⟨0x1D436, 0x1D436, .mapped, [0x63]⟩,
  ⟨0x1D437, 0x1D437, .mapped, [0x64]⟩,
  ⟨0x1D438, 0x1D438, .mapped, [0x65]⟩,
  ⟨0x1D439, 0x1D439, .mapped, [0x66]⟩,
  ⟨0x1D43A, 0x1D43A, .mapped, [0x67]⟩,
  ⟨0x1D43B, 0x1D43B, .mapped, [0x68]⟩,
  ⟨0x1D43C, 0x1D43C, .mapped, [0x69]⟩,
  ⟨0x1D43D, 0x1D43D, .mapped, [0x6A]⟩,
  ⟨0x1D43E, 0x1D43E, .mapped, [0x6B]⟩,
  ⟨0x1D43F, 0x1D43F, .mapped, [0x6C]⟩,
  ⟨0x1D440, 0x1D440, .mapped, [0x6D]⟩,
  ⟨0x1D441, 0x1D441, .mapped, [0x6E]⟩,
  ⟨0x1D442, 0x1D442, .mapped, [0x6F]⟩,
  ⟨0x1D443, 0x1D443, .mapped, [0x70]⟩,
  ⟨0x1D444, 0x1D444, .mapped, [0x71]⟩,
  ⟨0x1D445, 0x1D445, .mapped, [0x72]⟩,
  ⟨0x1D446, 0x1D446, .mapped, [0x73]⟩,
  ⟨0x1D447, 0x1D447, .mapped, [0x74]⟩,
  ⟨0x1D448, 0x1D448, .mapped, [0x75]⟩,
  ⟨0x1D449, 0x1D449, .mapped, [0x76]⟩,
  ⟨0x1D44A, 0x1D44A, .mapped, [0x77]⟩,
  ⟨0x1D44B, 0x1D44B, .mapped, [0x78]⟩,
  ⟨0x1D44C, 0x1D44C, .mapped, [0x79]⟩,
  ⟨0x1D44D, 0x1D44D, .mapped, [0x7A]⟩,
  ⟨0x1D44E, 0x1D44E, .mapped, [0x61]⟩,
  ⟨0x1D44F, 0x1D44F, .mapped, [0x62]⟩,
  ⟨0x1D450, 0x1D450, .mapped, [0x63]⟩,
  ⟨0x1D451, 0x1D451, .mapped, [0x64]⟩,
  ⟨0x1D452, 0x1D452, .mapped, [0x65]⟩,
  ⟨0x1D453, 0x1D453, .mapped, [0x66]⟩,
  ⟨0x1D454, 0x1D454, .mapped, [0x67]⟩,
  ⟨0x1D455, 0x1D455, .disallowed, []⟩,
  ⟨0x1D456, 0x1D456, .mapped, [0x69]⟩,
  ⟨0x1D457, 0x1D457, .mapped, [0x6A]⟩,
  ⟨0x1D458, 0x1D458, .mapped, [0x6B]⟩,
  ⟨0x1D459, 0x1D459, .mapped, [0x6C]⟩,
  ⟨0x1D45A, 0x1D45A, .mapped, [0x6D]⟩,
  ⟨0x1D45B, 0x1D45B, .mapped, [0x6E]⟩,
  ⟨0x1D45C, 0x1D45C, .mapped, [0x6F]⟩,
  ⟨0x1D45D, 0x1D45D, .mapped, [0x70]⟩,
  ⟨0x1D45E, 0x1D45E, .mapped, [0x71]⟩,
  ⟨0x1D45F, 0x1D45F, .mapped, [0x72]⟩,
  ⟨0x1D460, 0x1D460, .mapped, [0x73]⟩,
  ⟨0x1D461, 0x1D461, .mapped, [0x74]⟩,
  ⟨0x1D462, 0x1D462, .mapped, [0x75]⟩,
  ⟨0x1D463, 0x1D463, .mapped, [0x76]⟩,
  ⟨0x1D464, 0x1D464, .mapped, [0x77]⟩,
  ⟨0x1D465, 0x1D465, .mapped, [0x78]⟩,
  ⟨0x1D466, 0x1D466, .mapped, [0x79]⟩,
  ⟨0x1D467, 0x1D467, .mapped, [0x7A]⟩,
  ⟨0x1D468, 0x1D468, .mapped, [0x61]⟩,
  ⟨0x1D469, 0x1D469, .mapped, [0x62]⟩,
  ⟨0x1D46A, 0x1D46A, .mapped, [0x63]⟩,
  ⟨0x1D46B, 0x1D46B, .mapped, [0x64]⟩,
  ⟨0x1D46C, 0x1D46C, .mapped, [0x65]⟩,
  ⟨0x1D46D, 0x1D46D, .mapped, [0x66]⟩,
  ⟨0x1D46E, 0x1D46E, .mapped, [0x67]⟩,
  ⟨0x1D46F, 0x1D46F, .mapped, [0x68]⟩,
  ⟨0x1D470, 0x1D470, .mapped, [0x69]⟩,
  ⟨0x1D471, 0x1D471, .mapped, [0x6A]⟩,
  ⟨0x1D472, 0x1D472, .mapped, [0x6B]⟩,
  ⟨0x1D473, 0x1D473, .mapped, [0x6C]⟩,
  ⟨0x1D474, 0x1D474, .mapped, [0x6D]⟩,
  ⟨0x1D475, 0x1D475, .mapped, [0x6E]⟩,
  ⟨0x1D476, 0x1D476, .mapped, [0x6F]⟩,
  ⟨0x1D477, 0x1D477, .mapped, [0x70]⟩,
  ⟨0x1D478, 0x1D478, .mapped, [0x71]⟩,
  ⟨0x1D479, 0x1D479, .mapped, [0x72]⟩,
  ⟨0x1D47A, 0x1D47A, .mapped, [0x73]⟩,
  ⟨0x1D47B, 0x1D47B, .mapped, [0x74]⟩,
  ⟨0x1D47C, 0x1D47C, .mapped, [0x75]⟩,
  ⟨0x1D47D, 0x1D47D, .mapped, [0x76]⟩,
  ⟨0x1D47E, 0x1D47E, .mapped, [0x77]⟩,
  ⟨0x1D47F, 0x1D47F, .mapped, [0x78]⟩,
  ⟨0x1D480, 0x1D480, .mapped, [0x79]⟩,
  ⟨0x1D481, 0x1D481, .mapped, [0x7A]⟩,
  ⟨0x1D482, 0x1D482, .mapped, [0x61]⟩,
  ⟨0x1D483, 0x1D483, .mapped, [0x62]⟩,
  ⟨0x1D484, 0x1D484, .mapped, [0x63]⟩,
  ⟨0x1D485, 0x1D485, .mapped, [0x64]⟩,
  ⟨0x1D486, 0x1D486, .mapped, [0x65]⟩,
  ⟨0x1D487, 0x1D487, .mapped, [0x66]⟩,
  ⟨0x1D488, 0x1D488, .mapped, [0x67]⟩,
  ⟨0x1D489, 0x1D489, .mapped, [0x68]⟩,
  ⟨0x1D48A, 0x1D48A, .mapped, [0x69]⟩,
  ⟨0x1D48B, 0x1D48B, .mapped, [0x6A]⟩,
  ⟨0x1D48C, 0x1D48C, .mapped, [0x6B]⟩,
  ⟨0x1D48D, 0x1D48D, .mapped, [0x6C]⟩,
  ⟨0x1D48E, 0x1D48E, .mapped, [0x6D]⟩,
  ⟨0x1D48F, 0x1D48F, .mapped, [0x6E]⟩,
  ⟨0x1D490, 0x1D490, .mapped, [0x6F]⟩,
  ⟨0x1D491, 0x1D491, .mapped, [0x70]⟩,
  ⟨0x1D492, 0x1D492, .mapped, [0x71]⟩,
  ⟨0x1D493, 0x1D493, .mapped, [0x72]⟩,
  ⟨0x1D494, 0x1D494, .mapped, [0x73]⟩,
  ⟨0x1D495, 0x1D495, .mapped, [0x74]⟩,
  ⟨0x1D496, 0x1D496, .mapped, [0x75]⟩,
  ⟨0x1D497, 0x1D497, .mapped, [0x76]⟩,
  ⟨0x1D498, 0x1D498, .mapped, [0x77]⟩,
  ⟨0x1D499, 0x1D499, .mapped, [0x78]⟩,
  ⟨0x1D49A, 0x1D49A, .mapped, [0x79]⟩,
  ⟨0x1D49B, 0x1D49B, .mapped, [0x7A]⟩,
  ⟨0x1D49C, 0x1D49C, .mapped, [0x61]⟩,
  ⟨0x1D49D, 0x1D49D, .disallowed, []⟩,
  ⟨0x1D49E, 0x1D49E, .mapped, [0x63]⟩,
  ⟨0x1D49F, 0x1D49F, .mapped, [0x64]⟩,
  ⟨0x1D4A0, 0x1D4A1, .disallowed, []⟩,
  ⟨0x1D4A2, 0x1D4A2, .mapped, [0x67]⟩,
  ⟨0x1D4A3, 0x1D4A4, .disallowed, []⟩,
  ⟨0x1D4A5, 0x1D4A5, .mapped, [0x6A]⟩,
  ⟨0x1D4A6, 0x1D4A6, .mapped, [0x6B]⟩,
  ⟨0x1D4A7, 0x1D4A8, .disallowed, []⟩,
  ⟨0x1D4A9, 0x1D4A9, .mapped, [0x6E]⟩,
  ⟨0x1D4AA, 0x1D4AA, .mapped, [0x6F]⟩,
  ⟨0x1D4AB, 0x1D4AB, .mapped, [0x70]⟩,
  ⟨0x1D4AC, 0x1D4AC, .mapped, [0x71]⟩,
  ⟨0x1D4AD, 0x1D4AD, .disallowed, []⟩,
  ⟨0x1D4AE, 0x1D4AE, .mapped, [0x73]⟩,
  ⟨0x1D4AF, 0x1D4AF, .mapped, [0x74]⟩,
  ⟨0x1D4B0, 0x1D4B0, .mapped, [0x75]⟩,
  ⟨0x1D4B1, 0x1D4B1, .mapped, [0x76]⟩,
  ⟨0x1D4B2, 0x1D4B2, .mapped, [0x77]⟩,
  ⟨0x1D4B3, 0x1D4B3, .mapped, [0x78]⟩,
  ⟨0x1D4B4, 0x1D4B4, .mapped, [0x79]⟩,
  ⟨0x1D4B5, 0x1D4B5, .mapped, [0x7A]⟩,
  ⟨0x1D4B6, 0x1D4B6, .mapped, [0x61]⟩,
  ⟨0x1D4B7, 0x1D4B7, .mapped, [0x62]⟩,
  ⟨0x1D4B8, 0x1D4B8, .mapped, [0x63]⟩,
  ⟨0x1D4B9, 0x1D4B9, .mapped, [0x64]⟩,
  ⟨0x1D4BA, 0x1D4BA, .disallowed, []⟩,
  ⟨0x1D4BB, 0x1D4BB, .mapped, [0x66]⟩,
  ⟨0x1D4BC, 0x1D4BC, .disallowed, []⟩,
  ⟨0x1D4BD, 0x1D4BD, .mapped, [0x68]⟩,
  ⟨0x1D4BE, 0x1D4BE, .mapped, [0x69]⟩,
  ⟨0x1D4BF, 0x1D4BF, .mapped, [0x6A]⟩,
  ⟨0x1D4C0, 0x1D4C0, .mapped, [0x6B]⟩,
  ⟨0x1D4C1, 0x1D4C1, .mapped, [0x6C]⟩,
  ⟨0x1D4C2, 0x1D4C2, .mapped, [0x6D]⟩,
  ⟨0x1D4C3, 0x1D4C3, .mapped, [0x6E]⟩,
  ⟨0x1D4C4, 0x1D4C4, .disallowed, []⟩,
  ⟨0x1D4C5, 0x1D4C5, .mapped, [0x70]⟩,
  ⟨0x1D4C6, 0x1D4C6, .mapped, [0x71]⟩,
  ⟨0x1D4C7, 0x1D4C7, .mapped, [0x72]⟩,
  ⟨0x1D4C8, 0x1D4C8, .mapped, [0x73]⟩,
  ⟨0x1D4C9, 0x1D4C9, .mapped, [0x74]⟩,
  ⟨0x1D4CA, 0x1D4CA, .mapped, [0x75]⟩,
  ⟨0x1D4CB, 0x1D4CB, .mapped, [0x76]⟩,
  ⟨0x1D4CC, 0x1D4CC, .mapped, [0x77]⟩,
  ⟨0x1D4CD, 0x1D4CD, .mapped, [0x78]⟩,
  ⟨0x1D4CE, 0x1D4CE, .mapped, [0x79]⟩,
  ⟨0x1D4CF, 0x1D4CF, .mapped, [0x7A]⟩,
  ⟨0x1D4D0, 0x1D4D0, .mapped, [0x61]⟩,
  ⟨0x1D4D1, 0x1D4D1, .mapped, [0x62]⟩,
  ⟨0x1D4D2, 0x1D4D2, .mapped, [0x63]⟩,
  ⟨0x1D4D3, 0x1D4D3, .mapped, [0x64]⟩,
  ⟨0x1D4D4, 0x1D4D4, .mapped, [0x65]⟩,
  ⟨0x1D4D5, 0x1D4D5, .mapped, [0x66]⟩,
  ⟨0x1D4D6, 0x1D4D6, .mapped, [0x67]⟩,
  ⟨0x1D4D7, 0x1D4D7, .mapped, [0x68]⟩,
  ⟨0x1D4D8, 0x1D4D8, .mapped, [0x69]⟩,
  ⟨0x1D4D9, 0x1D4D9, .mapped, [0x6A]⟩,
  ⟨0x1D4DA, 0x1D4DA, .mapped, [0x6B]⟩,
  ⟨0x1D4DB, 0x1D4DB, .mapped, [0x6C]⟩,
  ⟨0x1D4DC, 0x1D4DC, .mapped, [0x6D]⟩,
  ⟨0x1D4DD, 0x1D4DD, .mapped, [0x6E]⟩,
  ⟨0x1D4DE, 0x1D4DE, .mapped, [0x6F]⟩,
  ⟨0x1D4DF, 0x1D4DF, .mapped, [0x70]⟩,
  ⟨0x1D4E0, 0x1D4E0, .mapped, [0x71]⟩,
  ⟨0x1D4E1, 0x1D4E1, .mapped, [0x72]⟩,
  ⟨0x1D4E2, 0x1D4E2, .mapped, [0x73]⟩,
  ⟨0x1D4E3, 0x1D4E3, .mapped, [0x74]⟩,
  ⟨0x1D4E4, 0x1D4E4, .mapped, [0x75]⟩,
  ⟨0x1D4E5, 0x1D4E5, .mapped, [0x76]⟩,
  ⟨0x1D4E6, 0x1D4E6, .mapped, [0x77]⟩,
  ⟨0x1D4E7, 0x1D4E7, .mapped, [0x78]⟩,
  ⟨0x1D4E8, 0x1D4E8, .mapped, [0x79]⟩,
  ⟨0x1D4E9, 0x1D4E9, .mapped, [0x7A]⟩,
  ⟨0x1D4EA, 0x1D4EA, .mapped, [0x61]⟩,
  ⟨0x1D4EB, 0x1D4EB, .mapped, [0x62]⟩,
  ⟨0x1D4EC, 0x1D4EC, .mapped, [0x63]⟩,
  ⟨0x1D4ED, 0x1D4ED, .mapped, [0x64]⟩,
  ⟨0x1D4EE, 0x1D4EE, .mapped, [0x65]⟩,
  ⟨0x1D4EF, 0x1D4EF, .mapped, [0x66]⟩,
  ⟨0x1D4F0, 0x1D4F0, .mapped, [0x67]⟩,
  ⟨0x1D4F1, 0x1D4F1, .mapped, [0x68]⟩,
  ⟨0x1D4F2, 0x1D4F2, .mapped, [0x69]⟩,
  ⟨0x1D4F3, 0x1D4F3, .mapped, [0x6A]⟩]

def map27 : List MapRow := [
  ⟨0x1D4F4, 0x1D4F4, .mapped, [0x6B]⟩,
  ⟨0x1D4F5, 0x1D4F5, .mapped, [0x6C]⟩,
  ⟨0x1D4F6, 0x1D4F6, .mapped, [0x6D]⟩,
  ⟨0x1D4F7, 0x1D4F7, .mapped, [0x6E]⟩,
  ⟨0x1D4F8, 0x1D4F8, .mapped, [0x6F]⟩,
  ⟨0x1D4F9, 0x1D4F9, .mapped, [0x70]⟩,
  ⟨0x1D4FA, 0x1D4FA, .mapped, [0x71]⟩,
  ⟨0x1D4FB, 0x1D4FB, .mapped, [0x72]⟩,
  ⟨0x1D4FC, 0x1D4FC, .mapped, [0x73]⟩,
  ⟨0x1D4FD, 0x1D4FD, .mapped, [0x74]⟩,
  ⟨0x1D4FE, 0x1D4FE, .mapped, [0x75]⟩,
  ⟨0x1D4FF, 0x1D4FF, .mapped, [0x76]⟩,
  ⟨0x1D500, 0x1D500, .mapped, [0x77]⟩,
  ⟨0x1D501, 0x1D501, .mapped, [0x78]⟩,
  ⟨0x1D502, 0x1D502, .mapped, [0x79]⟩,
  ⟨0x1D503, 0x1D503, .mapped, [0x7A]⟩,
  ⟨0x1D504, 0x1D504, .mapped, [0x61]⟩,
  ⟨0x1D505, 0x1D505, .mapped, [0x62]⟩,
  ⟨0x1D506, 0x1D506, .disallowed, []⟩,
  ⟨0x1D507, 0x1D507, .mapped, [0x64]⟩,
  ⟨0x1D508, 0x1D508, .mapped, [0x65]⟩,
  ⟨0x1D509, 0x1D509, .mapped, [0x66]⟩,
  ⟨0x1D50A, 0x1D50A, .mapped, [0x67]⟩,
  ⟨0x1D50B, 0x1D50C, .disallowed, []⟩,
  ⟨0x1D50D, 0x1D50D, .mapped, [0x6A]⟩,
  ⟨0x1D50E, 0x1D50E, .mapped, [0x6B]⟩,
  ⟨0x1D50F, 0x1D50F, .mapped, [0x6C]⟩,
  ⟨0x1D510, 0x1D510, .mapped, [0x6D]⟩,
  ⟨0x1D511, 0x1D511, .mapped, [0x6E]⟩,
  ⟨0x1D512, 0x1D512, .mapped, [0x6F]⟩,
  ⟨0x1D513, 0x1D513, .mapped, [0x70]⟩,
  ⟨0x1D514, 0x1D514, .mapped, [0x71]⟩,
  ⟨0x1D515, 0x1D515, .disallowed, []⟩,
  ⟨0x1D516, 0x1D516, .mapped, [0x73]⟩,
  ⟨0x1D517, 0x1D517, .mapped, [0x74]⟩,
  ⟨0x1D518, 0x1D518, .mapped, [0x75]⟩,
  ⟨0x1D519, 0x1D519, .mapped, [0x76]⟩,
  ⟨0x1D51A, 0x1D51A, .mapped, [0x77]⟩,
  ⟨0x1D51B, 0x1D51B, .mapped, [0x78]⟩,
  ⟨0x1D51C, 0x1D51C, .mapped, [0x79]⟩,
  ⟨0x1D51D, 0x1D51D, .disallowed, []⟩,
  ⟨0x1D51E, 0x1D51E, .mapped, [0x61]⟩,
  ⟨0x1D51F, 0x1D51F, .mapped, [0x62]⟩,
  ⟨0x1D520, 0x1D520, .mapped, [0x63]⟩,
  ⟨0x1D521, 0x1D521, .mapped, [0x64]⟩,
  ⟨0x1D522, 0x1D522, .mapped, [0x65]⟩,
  ⟨0x1D523, 0x1D523, .mapped, [0x66]⟩,
  ⟨0x1D524, 0x1D524, .mapped, [0x67]⟩,
  ⟨0x1D525, 0x1D525, .mapped, [0x68]⟩,
  ⟨0x1D526, 0x1D526, .mapped, [0x69]⟩,
  ⟨0x1D527, 0x1D527, .mapped, [0x6A]⟩,
  ⟨0x1D528, 0x1D528, .mapped, [0x6B]⟩,
  ⟨0x1D529, 0x1D529, .mapped, [0x6C]⟩,
  ⟨0x1D52A, 0x1D52A, .mapped, [0x6D]⟩,
  ⟨0x1D52B, 0x1D52B, .mapped, [0x6E]⟩,
  ⟨0x1D52C, 0x1D52C, .mapped, [0x6F]⟩,
  ⟨0x1D52D, 0x1D52D, .mapped, [0x70]⟩,
  ⟨0x1D52E, 0x1D52E, .mapped, [0x71]⟩,
  ⟨0x1D52F, 0x1D52F, .mapped, [0x72]⟩,
  ⟨0x1D530, 0x1D530, .mapped, [0x73]⟩,
  ⟨0x1D531, 0x1D531, .mapped, [0x74]⟩,
  ⟨0x1D532, 0x1D532, .mapped, [0x75]⟩,
  ⟨0x1D533, 0x1D533, .mapped, [0x76]⟩,
  ⟨0x1D534, 0x1D534, .mapped, [0x77]⟩,
  ⟨0x1D535, 0x1D535, .mapped, [0x78]⟩,
  ⟨0x1D536, 0x1D536, .mapped, [0x79]⟩,
  ⟨0x1D537, 0x1D537, .mapped, [0x7A]⟩,
  ⟨0x1D538, 0x1D538, .mapped, [0x61]⟩,
  ⟨0x1D539, 0x1D539, .mapped, [0x62]⟩,
  ⟨0x1D53A, 0x1D53A, .disallowed, []⟩,
  ⟨0x1D53B, 0x1D53B, .mapped, [0x64]⟩,
  ⟨0x1D53C, 0x1D53C, .mapped, [0x65]⟩,
  ⟨0x1D53D, 0x1D53D, .mapped, [0x66]⟩,
  ⟨0x1D53E, 0x1D53E, .mapped, [0x67]⟩,
  ⟨0x1D53F, 0x1D53F, .disallowed, []⟩,
  ⟨0x1D540, 0x1D540, .mapped, [0x69]⟩,
  ⟨0x1D541, 0x1D541, .mapped, [0x6A]⟩,
  ⟨0x1D542, 0x1D542, .mapped, [0x6B]⟩,
  ⟨0x1D543, 0x1D543, .mapped, [0x6C]⟩,
  ⟨0x1D544, 0x1D544, .mapped, [0x6D]⟩,
  ⟨0x1D545, 0x1D545, .disallowed, []⟩,
  ⟨0x1D546, 0x1D546, .mapped, [0x6F]⟩,
  ⟨0x1D547, 0x1D549, .disallowed, []⟩,
  ⟨0x1D54A, 0x1D54A, .mapped, [0x73]⟩,
  ⟨0x1D54B, 0x1D54B, .mapped, [0x74]⟩,
  ⟨0x1D54C, 0x1D54C, .mapped, [0x75]⟩,
  ⟨0x1D54D, 0x1D54D, .mapped, [0x76]⟩,
  ⟨0x1D54E, 0x1D54E, .mapped, [0x77]⟩,
  ⟨0x1D54F, 0x1D54F, .mapped, [0x78]⟩,
  ⟨0x1D550, 0x1D550, .mapped, [0x79]⟩,
  ⟨0x1D551, 0x1D551, .disallowed, []⟩,
  ⟨0x1D552, 0x1D552, .mapped, [0x61]⟩,
  ⟨0x1D553, 0x1D553, .mapped, [0x62]⟩,
  ⟨0x1D554, 0x1D554, .mapped, [0x63]⟩,
  ⟨0x1D555, 0x1D555, .mapped, [0x64]⟩,
  ⟨0x1D556, 0x1D556, .mapped, [0x65]⟩,
  ⟨0x1D557, 0x1D557, .mapped, [0x66]⟩,
  ⟨0x1D558, 0x1D558, .mapped, [0x67]⟩,
  ⟨0x1D559, 0x1D559, .mapped, [0x68]⟩,
  ⟨0x1D55A, 0x1D55A, .mapped, [0x69]⟩,
  ⟨0x1D55B, 0x1D55B, .mapped, [0x6A]⟩,
  ⟨0x1D55C, 0x1D55C, .mapped, [0x6B]⟩,
  ⟨0x1D55D, 0x1D55D, .mapped, [0x6C]⟩,
  ⟨0x1D55E, 0x1D55E, .mapped, [0x6D]⟩,
  ⟨0x1D55F, 0x1D55F, .mapped, [0x6E]⟩,
  ⟨0x1D560, 0x1D560, .mapped, [0x6F]⟩,
  ⟨0x1D561, 0x1D561, .mapped, [0x70]⟩,
  ⟨0x1D562, 0x1D562, .mapped, [0x71]⟩,
  ⟨0x1D563, 0x1D563, .mapped, [0x72]⟩,
  ⟨0x1D564, 0x1D564, .mapped, [0x73]⟩,
  ⟨0x1D565, 0x1D565, .mapped, [0x74]⟩,
  ⟨0x1D566, 0x1D566, .mapped, [0x75]⟩,
  ⟨0x1D567, 0x1D567, .mapped, [0x76]⟩,
  ⟨0x1D568, 0x1D568, .mapped, [0x77]⟩,
  ⟨0x1D569, 0x1D569, .mapped, [0x78]⟩,
  ⟨0x1D56A, 0x1D56A, .mapped, [0x79]⟩,
  ⟨0x1D56B, 0x1D56B, .mapped, [0x7A]⟩,
  ⟨0x1D56C, 0x1D56C, .mapped, [0x61]⟩,
  ⟨0x1D56D, 0x1D56D, .mapped, [0x62]⟩,
  ⟨0x1D56E, 0x1D56E, .mapped, [0x63]⟩,
  ⟨0x1D56F, 0x1D56F, .mapped, [0x64]⟩,
  ⟨0x1D570, 0x1D570, .mapped, [0x65]⟩,
  ⟨0x1D571, 0x1D571, .mapped, [0x66]⟩,
  ⟨0x1D572, 0x1D572, .mapped, [0x67]⟩,
  ⟨0x1D573, 0x1D573, .mapped, [0x68]⟩,
  ⟨0x1D574, 0x1D574, .mapped, [0x69]⟩,
  ⟨0x1D575, 0x1D575, .mapped, [0x6A]⟩,
  ⟨0x1D576, 0x1D576, .mapped, [0x6B]⟩,
  ⟨0x1D577, 0x1D577, .mapped, [0x6C]⟩,
  ⟨0x1D578, 0x1D578, .mapped, [0x6D]⟩,
  ⟨0x1D579, 0x1D579, .mapped, [0x6E]⟩,
  ⟨0x1D57A, 0x1D57A, .mapped, [0x6F]⟩,
  ⟨0x1D57B, 0x1D57B, .mapped, [0x70]⟩,
  ⟨0x1D57C, 0x1D57C, .mapped, [0x71]⟩,
  ⟨0x1D57D, 0x1D57D, .mapped, [0x72]⟩,
  ⟨0x1D57E, 0x1D57E, .mapped, [0x73]⟩,
  ⟨0x1D57F, 0x1D57F, .mapped, [0x74]⟩,
  ⟨0x1D580, 0x1D580, .mapped, [0x75]⟩,
  ⟨0x1D581, 0x1D581, .mapped, [0x76]⟩,
  ⟨0x1D582, 0x1D582, .mapped, [0x77]⟩,
  ⟨0x1D583, 0x1D583, .mapped, [0x78]⟩,
  ⟨0x1D584, 0x1D584, .mapped, [0x79]⟩,
  ⟨0x1D585, 0x1D585, .mapped, [0x7A]⟩,
  ⟨0x1D586, 0x1D586, .mapped, [0x61]⟩,
  ⟨0x1D587, 0x1D587, .mapped, [0x62]⟩,
  ⟨0x1D588, 0x1D588, .mapped, [0x63]⟩,
  ⟨0x1D589, 0x1D589, .mapped, [0x64]⟩,
  ⟨0x1D58A, 0x1D58A, .mapped, [0x65]⟩,
  ⟨0x1D58B, 0x1D58B, .mapped, [0x66]⟩,
  ⟨0x1D58C, 0x1D58C, .mapped, [0x67]⟩,
  ⟨0x1D58D, 0x1D58D, .mapped, [0x68]⟩,
  ⟨0x1D58E, 0x1D58E, .mapped, [0x69]⟩,
  ⟨0x1D58F, 0x1D58F, .mapped, [0x6A]⟩,
  ⟨0x1D590, 0x1D590, .mapped, [0x6B]⟩,
  ⟨0x1D591, 0x1D591, .mapped, [0x6C]⟩,
  ⟨0x1D592, 0x1D592, .mapped, [0x6D]⟩,
  ⟨0x1D593, 0x1D593, .mapped, [0x6E]⟩,
  ⟨0x1D594, 0x1D594, .mapped, [0x6F]⟩,
  ⟨0x1D595, 0x1D595, .mapped, [0x70]⟩,
  ⟨0x1D596, 0x1D596, .mapped, [0x71]⟩,
  ⟨0x1D597, 0x1D597, .mapped, [0x72]⟩,
  ⟨0x1D598, 0x1D598, .mapped, [0x73]⟩,
  ⟨0x1D599, 0x1D599, .mapped, [0x74]⟩,
  ⟨0x1D59A, 0x1D59A, .mapped, [0x75]⟩,
  ⟨0x1D59B, 0x1D59B, .mapped, [0x76]⟩,
  ⟨0x1D59C, 0x1D59C, .mapped, [0x77]⟩,
  ⟨0x1D59D, 0x1D59D, .mapped, [0x78]⟩,
  ⟨0x1D59E, 0x1D59E, .mapped, [0x79]⟩,
  ⟨0x1D59F, 0x1D59F, .mapped, [0x7A]⟩,
  ⟨0x1D5A0, 0x1D5A0, .mapped, [0x61]⟩,
  ⟨0x1D5A1, 0x1D5A1, .mapped, [0x62]⟩,
  ⟨0x1D5A2, 0x1D5A2, .mapped, [0x63]⟩,
  ⟨0x1D5A3, 0x1D5A3, .mapped, [0x64]⟩,
  ⟨0x1D5A4, 0x1D5A4, .mapped, [0x65]⟩,
  ⟨0x1D5A5, 0x1D5A5, .mapped, [0x66]⟩,
  ⟨0x1D5A6, 0x1D5A6, .mapped, [0x67]⟩,
  ⟨0x1D5A7, 0x1D5A7, .mapped, [0x68]⟩,
  ⟨0x1D5A8, 0x1D5A8, .mapped, [0x69]⟩,
  ⟨0x1D5A9, 0x1D5A9, .mapped, [0x6A]⟩,
  ⟨0x1D5AA, 0x1D5AA, .mapped, [0x6B]⟩,
  ⟨0x1D5AB, 0x1D5AB, .mapped, [0x6C]⟩,
  ⟨0x1D5AC, 0x1D5AC, .mapped, [0x6D]⟩,
  ⟨0x1D5AD, 0x1D5AD, .mapped, [0x6E]⟩,
  ⟨0x1D5AE, 0x1D5AE, .mapped, [0x6F]⟩,
  ⟨0x1D5AF, 0x1D5AF, .mapped, [0x70]⟩,
  ⟨0x1D5B0, 0x1D5B0, .mapped, [0x71]⟩,
  ⟨0x1D5B1, 0x1D5B1, .mapped, [0x72]⟩,
  ⟨0x1D5B2, 0x1D5B2, .mapped, [0x73]⟩,
  ⟨0x1D5B3, 0x1D5B3, .mapped, [0x74]⟩,
  ⟨0x1D5B4, 0x1D5B4, .mapped, [0x75]⟩,
  ⟨0x1D5B5, 0x1D5B5, .mapped, [0x76]⟩,
  ⟨0x1D5B6, 0x1D5B6, .mapped, [0x77]⟩,
  ⟨0x1D5B7, 0x1D5B7, .mapped, [0x78]⟩,
  ⟨0x1D5B8, 0x1D5B8, .mapped, [0x79]⟩,
  ⟨0x1D5B9, 0x1D5B9, .mapped, [0x7A]⟩,
  ⟨0x1D5BA, 0x1D5BA, .mapped, [0x61]⟩,
  ⟨0x1D5BB, 0x1D5BB, .mapped, [0x62]⟩,
  ⟨0x1D5BC, 0x1D5BC, .mapped, [0x63]⟩,
  ⟨0x1D5BD, 0x1D5BD, .mapped, [0x64]⟩,
  ⟨0x1D5BE, 0x1D5BE, .mapped, [0x65]⟩,
  ⟨0x1D5BF, 0x1D5BF, .mapped, [0x66]⟩,
  ⟨0x1D5C0, 0x1D5C0, .mapped, [0x67]⟩,
  ⟨0x1D5C1, 0x1D5C1, .mapped, [0x68]⟩,
  ⟨0x1D5C2, 0x1D5C2, .mapped, [0x69]⟩,
  ⟨0x1D5C3, 0x1D5C3, .mapped, [0x6A]⟩,
  ⟨0x1D5C4, 0x1D5C4, .mapped, [0x6B]⟩,
  ⟨0x1D5C5, 0x1D5C5, .mapped, [0x6C]⟩,
  ⟨0x1D5C6, 0x1D5C6, .mapped, [0x6D]⟩,
  ⟨0x1D5C7, 0x1D5C7, .mapped, [0x6E]⟩,
  ⟨0x1D5C8, 0x1D5C8, .mapped, [0x6F]⟩,
  ⟨0x1D5C9, 0x1D5C9, .mapped, [0x70]⟩,
  ⟨0x1D5CA, 0x1D5CA, .mapped, [0x71]⟩,
  ⟨0x1D5CB, 0x1D5CB, .mapped, [0x72]⟩,
  ⟨0x1D5CC, 0x1D5CC, .mapped, [0x73]⟩,
  ⟨0x1D5CD, 0x1D5CD, .mapped, [0x74]⟩,
  ⟨0x1D5CE, 0x1D5CE, .mapped, [0x75]⟩,
  ⟨0x1D5CF, 0x1D5CF, .mapped, [0x76]⟩,
  ⟨0x1D5D0, 0x1D5D0, .mapped, [0x77]⟩,
  ⟨0x1D5D1, 0x1D5D1, .mapped, [0x78]⟩,
  ⟨0x1D5D2, 0x1D5D2, .mapped, [0x79]⟩,
  ⟨0x1D5D3, 0x1D5D3, .mapped, [0x7A]⟩,
  ⟨0x1D5D4, 0x1D5D4, .mapped, [0x61]⟩,
  ⟨0x1D5D5, 0x1D5D5, .mapped, [0x62]⟩,
  ⟨0x1D5D6, 0x1D5D6, .mapped, [0x63]⟩,
  ⟨0x1D5D7, 0x1D5D7, .mapped, [0x64]⟩,
  ⟨0x1D5D8, 0x1D5D8, .mapped, [0x65]⟩,
  ⟨0x1D5D9, 0x1D5D9, .mapped, [0x66]⟩,
  ⟨0x1D5DA, 0x1D5DA, .mapped, [0x67]⟩,
  ⟨0x1D5DB, 0x1D5DB, .mapped, [0x68]⟩,
  ⟨0x1D5DC, 0x1D5DC, .mapped, [0x69]⟩,
  ⟨0x1D5DD, 0x1D5DD, .mapped, [0x6A]⟩,
  ⟨0x1D5DE, 0x1D5DE, .mapped, [0x6B]⟩,
  ⟨0x1D5DF, 0x1D5DF, .mapped, [0x6C]⟩,
  ⟨0x1D5E0, 0x1D5E0, .mapped, [0x6D]⟩,
  ⟨0x1D5E1, 0x1D5E1, .mapped, [0x6E]⟩,
  ⟨0x1D5E2, 0x1D5E2, .mapped, [0x6F]⟩,
  ⟨0x1D5E3, 0x1D5E3, .mapped, [0x70]⟩,
  ⟨0x1D5E4, 0x1D5E4, .mapped, [0x71]⟩,
  ⟨0x1D5E5, 0x1D5E5, .mapped, [0x72]⟩,
  ⟨0x1D5E6, 0x1D5E6, .mapped, [0x73]⟩,
  ⟨0x1D5E7, 0x1D5E7, .mapped, [0x74]⟩,
  ⟨0x1D5E8, 0x1D5E8, .mapped, [0x75]⟩,
  ⟨0x1D5E9, 0x1D5E9, .mapped, [0x76]⟩,
  ⟨0x1D5EA, 0x1D5EA, .mapped, [0x77]⟩,
  ⟨0x1D5EB, 0x1D5EB, .mapped, [0x78]⟩,
  ⟨0x1D5EC, 0x1D5EC, .mapped, [0x79]⟩,
  ⟨0x1D5ED, 0x1D5ED, .mapped, [0x7A]⟩,
  ⟨0x1D5EE, 0x1D5EE, .mapped, [0x61]⟩,
  ⟨0x1D5EF, 0x1D5EF, .mapped, [0x62]⟩,
  ⟨0x1D5F0, 0x1D5F0, .mapped, [0x63]⟩]

def map28 : List MapRow := [
  ⟨0x1D5F1, 0x1D5F1, .mapped, [0x64]⟩,
  ⟨0x1D5F2, 0x1D5F2, .mapped, [0x65]⟩,
  ⟨0x1D5F3, 0x1D5F3, .mapped, [0x66]⟩,
  ⟨0x1D5F4, 0x1D5F4, .mapped, [0x67]⟩,
  ⟨0x1D5F5, 0x1D5F5, .mapped, [0x68]⟩,
  ⟨0x1D5F6, 0x1D5F6, .mapped, [0x69]⟩,
  ⟨0x1D5F7, 0x1D5F7, .mapped, [0x6A]⟩,
  ⟨0x1D5F8, 0x1D5F8, .mapped, [0x6B]⟩,
  ⟨0x1D5F9, 0x1D5F9, .mapped, [0x6C]⟩,
  ⟨0x1D5FA, 0x1D5FA, .mapped, [0x6D]⟩,
  ⟨0x1D5FB, 0x1D5FB, .mapped, [0x6E]⟩,
  ⟨0x1D5FC, 0x1D5FC, .mapped, [0x6F]⟩,
  ⟨0x1D5FD, 0x1D5FD, .mapped, [0x70]⟩,
  ⟨0x1D5FE, 0x1D5FE, .mapped, [0x71]⟩,
  ⟨0x1D5FF, 0x1D5FF, .mapped, [0x72]⟩,
  ⟨0x1D600, 0x1D600, .mapped, [0x73]⟩,
  ⟨0x1D601, 0x1D601, .mapped, [0x74]⟩,
  ⟨0x1D602, 0x1D602, .mapped, [0x75]⟩,
  ⟨0x1D603, 0x1D603, .mapped, [0x76]⟩,
  ⟨0x1D604, 0x1D604, .mapped, [0x77]⟩,
  ⟨0x1D605, 0x1D605, .mapped, [0x78]⟩,
  ⟨0x1D606, 0x1D606, .mapped, [0x79]⟩,
  ⟨0x1D607, 0x1D607, .mapped, [0x7A]⟩,
  ⟨0x1D608, 0x1D608, .mapped, [0x61]⟩,
  ⟨0x1D609, 0x1D609, .mapped, [0x62]⟩,
  ⟨0x1D60A, 0x1D60A, .mapped, [0x63]⟩,
  ⟨0x1D60B, 0x1D60B, .mapped, [0x64]⟩,
  ⟨0x1D60C, 0x1D60C, .mapped, [0x65]⟩,
  ⟨0x1D60D, 0x1D60D, .mapped, [0x66]⟩,
  ⟨0x1D60E, 0x1D60E, .mapped, [0x67]⟩,
  ⟨0x1D60F, 0x1D60F, .mapped, [0x68]⟩,
  ⟨0x1D610, 0x1D610, .mapped, [0x69]⟩,
  ⟨0x1D611, 0x1D611, .mapped, [0x6A]⟩,
  ⟨0x1D612, 0x1D612, .mapped, [0x6B]⟩,
  ⟨0x1D613, 0x1D613, .mapped, [0x6C]⟩,
  ⟨0x1D614, 0x1D614, .mapped, [0x6D]⟩,
  ⟨0x1D615, 0x1D615, .mapped, [0x6E]⟩,
  ⟨0x1D616, 0x1D616, .mapped, [0x6F]⟩,
  ⟨0x1D617, 0x1D617, .mapped, [0x70]⟩,
  ⟨0x1D618, 0x1D618, .mapped, [0x71]⟩,
  ⟨0x1D619, 0x1D619, .mapped, [0x72]⟩,
  ⟨0x1D61A, 0x1D61A, .mapped, [0x73]⟩,
  ⟨0x1D61B, 0x1D61B, .mapped, [0x74]⟩,
  ⟨0x1D61C, 0x1D61C, .mapped, [0x75]⟩,
  ⟨0x1D61D, 0x1D61D, .mapped, [0x76]⟩,
  ⟨0x1D61E, 0x1D61E, .mapped, [0x77]⟩,
  ⟨0x1D61F, 0x1D61F, .mapped, [0x78]⟩,
  ⟨0x1D620, 0x1D620, .mapped, [0x79]⟩,
  ⟨0x1D621, 0x1D621, .mapped, [0x7A]⟩,
  ⟨0x1D622, 0x1D622, .mapped, [0x61]⟩,
  ⟨0x1D623, 0x1D623, .mapped, [0x62]⟩,
  ⟨0x1D624, 0x1D624, .mapped, [0x63]⟩,
  ⟨0x1D625, 0x1D625, .mapped, [0x64]⟩,
  ⟨0x1D626, 0x1D626, .mapped, [0x65]⟩,
  ⟨0x1D627, 0x1D627, .mapped, [0x66]⟩,
  ⟨0x1D628, 0x1D628, .mapped, [0x67]⟩,
  ⟨0x1D629, 0x1D629, .mapped, [0x68]⟩,
  ⟨0x1D62A, 0x1D62A, .mapped, [0x69]⟩,
  ⟨0x1D62B, 0x1D62B, .mapped, [0x6A]⟩,
  ⟨0x1D62C, 0x1D62C, .mapped, [0x6B]⟩,
  ⟨0x1D62D, 0x1D62D, .mapped, [0x6C]⟩,
  ⟨0x1D62E, 0x1D62E, .mapped, [0x6D]⟩,
  ⟨0x1D62F, 0x1D62F, .mapped, [0x6E]⟩,
  ⟨0x1D630, 0x1D630, .mapped, [0x6F]⟩,
  ⟨0x1D631, 0x1D631, .mapped, [0x70]⟩,
  ⟨0x1D632, 0x1D632, .mapped, [0x71]⟩,
  ⟨0x1D633, 0x1D633, .mapped, [0x72]⟩,
  ⟨0x1D634, 0x1D634, .mapped, [0x73]⟩,
  ⟨0x1D635, 0x1D635, .mapped, [0x74]⟩,
  ⟨0x1D636, 0x1D636, .mapped, [0x75]⟩,
  ⟨0x1D637, 0x1D637, .mapped, [0x76]⟩,
  ⟨0x1D638, 0x1D638, .mapped, [0x77]⟩,
  ⟨0x1D639, 0x1D639, .mapped, [0x78]⟩,
  ⟨0x1D63A, 0x1D63A, .mapped, [0x79]⟩,
  ⟨0x1D63B, 0x1D63B, .mapped, [0x7A]⟩,
  ⟨0x1D63C, 0x1D63C, .mapped, [0x61]⟩,
  ⟨0x1D63D, 0x1D63D, .mapped, [0x62]⟩,
  ⟨0x1D63E, 0x1D63E, .mapped, [0x63]⟩,
  ⟨0x1D63F, 0x1D63F, .mapped, [0x64]⟩,
  ⟨0x1D640, 0x1D640, .mapped, [0x65]⟩,
  ⟨0x1D641, 0x1D641, .mapped, [0x66]⟩,
  ⟨0x1D642, 0x1D642, .mapped, [0x67]⟩,
  ⟨0x1D643, 0x1D643, .mapped, [0x68]⟩,
  ⟨0x1D644, 0x1D644, .mapped, [0x69]⟩,
  ⟨0x1D645, 0x1D645, .mapped, [0x6A]⟩,
  ⟨0x1D646, 0x1D646, .mapped, [0x6B]⟩,
  ⟨0x1D647, 0x1D647, .mapped, [0x6C]⟩,
  ⟨0x1D648, 0x1D648, .mapped, [0x6D]⟩,
  ⟨0x1D649, 0x1D649, .mapped, [0x6E]⟩,
  ⟨0x1D64A, 0x1D64A, .mapped, [0x6F]⟩,
  ⟨0x1D64B, 0x1D64B, .mapped, [0x70]⟩,
  ⟨0x1D64C, 0x1D64C, .mapped, [0x71]⟩,
  ⟨0x1D64D, 0x1D64D, .mapped, [0x72]⟩,
  ⟨0x1D64E, 0x1D64E, .mapped, [0x73]⟩,
  ⟨0x1D64F, 0x1D64F, .mapped, [0x74]⟩,
  ⟨0x1D650, 0x1D650, .mapped, [0x75]⟩,
  ⟨0x1D651, 0x1D651, .mapped, [0x76]⟩,
  ⟨0x1D652, 0x1D652, .mapped, [0x77]⟩,
  ⟨0x1D653, 0x1D653, .mapped, [0x78]⟩,
  ⟨0x1D654, 0x1D654, .mapped, [0x79]⟩,
  ⟨0x1D655, 0x1D655, .mapped, [0x7A]⟩,
  ⟨0x1D656, 0x1D656, .mapped, [0x61]⟩,
  ⟨0x1D657, 0x1D657, .mapped, [0x62]⟩,
  ⟨0x1D658, 0x1D658, .mapped, [0x63]⟩,
  ⟨0x1D659, 0x1D659, .mapped, [0x64]⟩,
  ⟨0x1D65A, 0x1D65A, .mapped, [0x65]⟩,
  ⟨0x1D65B, 0x1D65B, .mapped, [0x66]⟩,
  ⟨0x1D65C, 0x1D65C, .mapped, [0x67]⟩,
  ⟨0x1D65D, 0x1D65D, .mapped, [0x68]⟩,
  ⟨0x1D65E, 0x1D65E, .mapped, [0x69]⟩,
  ⟨0x1D65F, 0x1D65F, .mapped, [0x6A]⟩,
  ⟨0x1D660, 0x1D660, .mapped, [0x6B]⟩,
  ⟨0x1D661, 0x1D661, .mapped, [0x6C]⟩,
  ⟨0x1D662, 0x1D662, .mapped, [0x6D]⟩,
  ⟨0x1D663, 0x1D663, .mapped, [0x6E]⟩,
  ⟨0x1D664, 0x1D664, .mapped, [0x6F]⟩,
  ⟨0x1D665, 0x1D665, .mapped, [0x70]⟩,
  ⟨0x1D666, 0x1D666, .mapped, [0x71]⟩,
  ⟨0x1D667, 0x1D667, .mapped, [0x72]⟩,
  ⟨0x1D668, 0x1D668, .mapped, [0x73]⟩,
  ⟨0x1D669, 0x1D669, .mapped, [0x74]⟩,
  ⟨0x1D66A, 0x1D66A, .mapped, [0x75]⟩,
  ⟨0x1D66B, 0x1D66B, .mapped, [0x76]⟩,
  ⟨0x1D66C, 0x1D66C, .mapped, [0x77]⟩,
  ⟨0x1D66D, 0x1D66D, .mapped, [0x78]⟩,
  ⟨0x1D66E, 0x1D66E, .mapped, [0x79]⟩,
  ⟨0x1D66F, 0x1D66F, .mapped, [0x7A]⟩,
  ⟨0x1D670, 0x1D670, .mapped, [0x61]⟩,
  ⟨0x1D671, 0x1D671, .mapped, [0x62]⟩,
  ⟨0x1D672, 0x1D672, .mapped, [0x63]⟩,
  ⟨0x1D673, 0x1D673, .mapped, [0x64]⟩,
  ⟨0x1D674, 0x1D674, .mapped, [0x65]⟩,
  ⟨0x1D675, 0x1D675, .mapped, [0x66]⟩,
  ⟨0x1D676, 0x1D676, .mapped, [0x67]⟩,
  ⟨0x1D677, 0x1D677, .mapped, [0x68]⟩,
  ⟨0x1D678, 0x1D678, .mapped, [0x69]⟩,
  ⟨0x1D679, 0x1D679, .mapped, [0x6A]⟩,
  ⟨0x1D67A, 0x1D67A, .mapped, [0x6B]⟩,
  ⟨0x1D67B, 0x1D67B, .mapped, [0x6C]⟩,
  ⟨0x1D67C, 0x1D67C, .mapped, [0x6D]⟩,
  ⟨0x1D67D, 0x1D67D, .mapped, [0x6E]⟩,
  ⟨0x1D67E, 0x1D67E, .mapped, [0x6F]⟩,
  ⟨0x1D67F, 0x1D67F, .mapped, [0x70]⟩,
  ⟨0x1D680, 0x1D680, .mapped, [0x71]⟩,
  ⟨0x1D681, 0x1D681, .mapped, [0x72]⟩,
  ⟨0x1D682, 0x1D682, .mapped, [0x73]⟩,
  ⟨0x1D683, 0x1D683, .mapped, [0x74]⟩,
  ⟨0x1D684, 0x1D684, .mapped, [0x75]⟩,
  ⟨0x1D685, 0x1D685, .mapped, [0x76]⟩,
  ⟨0x1D686, 0x1D686, .mapped, [0x77]⟩,
  ⟨0x1D687, 0x1D687, .mapped, [0x78]⟩,
  ⟨0x1D688, 0x1D688, .mapped, [0x79]⟩,
  ⟨0x1D689, 0x1D689, .mapped, [0x7A]⟩,
  ⟨0x1D68A, 0x1D68A, .mapped, [0x61]⟩,
  ⟨0x1D68B, 0x1D68B, .mapped, [0x62]⟩,
  ⟨0x1D68C, 0x1D68C, .mapped, [0x63]⟩,
  ⟨0x1D68D, 0x1D68D, .mapped, [0x64]⟩,
  ⟨0x1D68E, 0x1D68E, .mapped, [0x65]⟩,
  ⟨0x1D68F, 0x1D68F, .mapped, [0x66]⟩,
  ⟨0x1D690, 0x1D690, .mapped, [0x67]⟩,
  ⟨0x1D691, 0x1D691, .mapped, [0x68]⟩,
  ⟨0x1D692, 0x1D692, .mapped, [0x69]⟩,
  ⟨0x1D693, 0x1D693, .mapped, [0x6A]⟩,
  ⟨0x1D694, 0x1D694, .mapped, [0x6B]⟩,
  ⟨0x1D695, 0x1D695, .mapped, [0x6C]⟩,
  ⟨0x1D696, 0x1D696, .mapped, [0x6D]⟩,
  ⟨0x1D697, 0x1D697, .mapped, [0x6E]⟩,
  ⟨0x1D698, 0x1D698, .mapped, [0x6F]⟩,
  ⟨0x1D699, 0x1D699, .mapped, [0x70]⟩,
  ⟨0x1D69A, 0x1D69A, .mapped, [0x71]⟩,
  ⟨0x1D69B, 0x1D69B, .mapped, [0x72]⟩,
  ⟨0x1D69C, 0x1D69C, .mapped, [0x73]⟩,
  ⟨0x1D69D, 0x1D69D, .mapped, [0x74]⟩,
  ⟨0x1D69E, 0x1D69E, .mapped, [0x75]⟩,
  ⟨0x1D69F, 0x1D69F, .mapped, [0x76]⟩,
  ⟨0x1D6A0, 0x1D6A0, .mapped, [0x77]⟩,
  ⟨0x1D6A1, 0x1D6A1, .mapped, [0x78]⟩,
  ⟨0x1D6A2, 0x1D6A2, .mapped, [0x79]⟩,
  ⟨0x1D6A3, 0x1D6A3, .mapped, [0x7A]⟩,
  ⟨0x1D6A4, 0x1D6A4, .mapped, [0x131]⟩,
  ⟨0x1D6A5, 0x1D6A5, .mapped, [0x237]⟩,
  ⟨0x1D6A6, 0x1D6A7, .disallowed, []⟩,
  ⟨0x1D6A8, 0x1D6A8, .mapped, [0x3B1]⟩,
  ⟨0x1D6A9, 0x1D6A9, .mapped, [0x3B2]⟩,
  ⟨0x1D6AA, 0x1D6AA, .mapped, [0x3B3]⟩,
  ⟨0x1D6AB, 0x1D6AB, .mapped, [0x3B4]⟩,
  ⟨0x1D6AC, 0x1D6AC, .mapped, [0x3B5]⟩,
  ⟨0x1D6AD, 0x1D6AD, .mapped, [0x3B6]⟩,
  ⟨0x1D6AE, 0x1D6AE, .mapped, [0x3B7]⟩,
  ⟨0x1D6AF, 0x1D6AF, .mapped, [0x3B8]⟩,
  ⟨0x1D6B0, 0x1D6B0, .mapped, [0x3B9]⟩,
  ⟨0x1D6B1, 0x1D6B1, .mapped, [0x3BA]⟩,
  ⟨0x1D6B2, 0x1D6B2, .mapped, [0x3BB]⟩,
  ⟨0x1D6B3, 0x1D6B3, .mapped, [0x3BC]⟩,
  ⟨0x1D6B4, 0x1D6B4, .mapped, [0x3BD]⟩,
  ⟨0x1D6B5, 0x1D6B5, .mapped, [0x3BE]⟩,
  ⟨0x1D6B6, 0x1D6B6, .mapped, [0x3BF]⟩,
  ⟨0x1D6B7, 0x1D6B7, .mapped, [0x3C0]⟩,
  ⟨0x1D6B8, 0x1D6B8, .mapped, [0x3C1]⟩,
  ⟨0x1D6B9, 0x1D6B9, .mapped, [0x3B8]⟩,
  ⟨0x1D6BA, 0x1D6BA, .mapped, [0x3C3]⟩,
  ⟨0x1D6BB, 0x1D6BB, .mapped, [0x3C4]⟩,
  ⟨0x1D6BC, 0x1D6BC, .mapped, [0x3C5]⟩,
  ⟨0x1D6BD, 0x1D6BD, .mapped, [0x3C6]⟩,
  ⟨0x1D6BE, 0x1D6BE, .mapped, [0x3C7]⟩,
  ⟨0x1D6BF, 0x1D6BF, .mapped, [0x3C8]⟩,
  ⟨0x1D6C0, 0x1D6C0, .mapped, [0x3C9]⟩,
  ⟨0x1D6C1, 0x1D6C1, .mapped, [0x2207]⟩,
  ⟨0x1D6C2, 0x1D6C2, .mapped, [0x3B1]⟩,
  ⟨0x1D6C3, 0x1D6C3, .mapped, [0x3B2]⟩,
  ⟨0x1D6C4, 0x1D6C4, .mapped, [0x3B3]⟩,
  ⟨0x1D6C5, 0x1D6C5, .mapped, [0x3B4]⟩,
  ⟨0x1D6C6, 0x1D6C6, .mapped, [0x3B5]⟩,
  ⟨0x1D6C7, 0x1D6C7, .mapped, [0x3B6]⟩,
  ⟨0x1D6C8, 0x1D6C8, .mapped, [0x3B7]⟩,
  ⟨0x1D6C9, 0x1D6C9, .mapped, [0x3B8]⟩,
  ⟨0x1D6CA, 0x1D6CA, .mapped, [0x3B9]⟩,
  ⟨0x1D6CB, 0x1D6CB, .mapped, [0x3BA]⟩,
  ⟨0x1D6CC, 0x1D6CC, .mapped, [0x3BB]⟩,
  ⟨0x1D6CD, 0x1D6CD, .mapped, [0x3BC]⟩,
  ⟨0x1D6CE, 0x1D6CE, .mapped, [0x3BD]⟩,
  ⟨0x1D6CF, 0x1D6CF, .mapped, [0x3BE]⟩,
  ⟨0x1D6D0, 0x1D6D0, .mapped, [0x3BF]⟩,
  ⟨0x1D6D1, 0x1D6D1, .mapped, [0x3C0]⟩,
  ⟨0x1D6D2, 0x1D6D2, .mapped, [0x3C1]⟩,
  ⟨0x1D6D3, 0x1D6D4, .mapped, [0x3C3]⟩,
  ⟨0x1D6D5, 0x1D6D5, .mapped, [0x3C4]⟩,
  ⟨0x1D6D6, 0x1D6D6, .mapped, [0x3C5]⟩,
  ⟨0x1D6D7, 0x1D6D7, .mapped, [0x3C6]⟩,
  ⟨0x1D6D8, 0x1D6D8, .mapped, [0x3C7]⟩,
  ⟨0x1D6D9, 0x1D6D9, .mapped, [0x3C8]⟩,
  ⟨0x1D6DA, 0x1D6DA, .mapped, [0x3C9]⟩,
  ⟨0x1D6DB, 0x1D6DB, .mapped, [0x2202]⟩,
  ⟨0x1D6DC, 0x1D6DC, .mapped, [0x3B5]⟩,
  ⟨0x1D6DD, 0x1D6DD, .mapped, [0x3B8]⟩,
  ⟨0x1D6DE, 0x1D6DE, .mapped, [0x3BA]⟩,
  ⟨0x1D6DF, 0x1D6DF, .mapped, [0x3C6]⟩,
  ⟨0x1D6E0, 0x1D6E0, .mapped, [0x3C1]⟩,
  ⟨0x1D6E1, 0x1D6E1, .mapped, [0x3C0]⟩,
  ⟨0x1D6E2, 0x1D6E2, .mapped, [0x3B1]⟩,
  ⟨0x1D6E3, 0x1D6E3, .mapped, [0x3B2]⟩,
  ⟨0x1D6E4, 0x1D6E4, .mapped, [0x3B3]⟩,
  ⟨0x1D6E5, 0x1D6E5, .mapped, [0x3B4]⟩,
  ⟨0x1D6E6, 0x1D6E6, .mapped, [0x3B5]⟩,
  ⟨0x1D6E7, 0x1D6E7, .mapped, [0x3B6]⟩,
  ⟨0x1D6E8, 0x1D6E8, .mapped, [0x3B7]⟩,
  ⟨0x1D6E9, 0x1D6E9, .mapped, [0x3B8]⟩,
  ⟨0x1D6EA, 0x1D6EA, .mapped, [0x3B9]⟩,
  ⟨0x1D6EB, 0x1D6EB, .mapped, [0x3BA]⟩,
  ⟨0x1D6EC, 0x1D6EC, .mapped, [0x3BB]⟩]

def map29 : List MapRow := [
  ⟨0x1D6ED, 0x1D6ED, .mapped, [0x3BC]⟩,
  ⟨0x1D6EE, 0x1D6EE, .mapped, [0x3BD]⟩,
  ⟨0x1D6EF, 0x1D6EF, .mapped, [0x3BE]⟩,
  ⟨0x1D6F0, 0x1D6F0, .mapped, [0x3BF]⟩,
  ⟨0x1D6F1, 0x1D6F1, .mapped, [0x3C0]⟩,
  ⟨0x1D6F2, 0x1D6F2, .mapped, [0x3C1]⟩,
  ⟨0x1D6F3, 0x1D6F3, .mapped, [0x3B8]⟩,
  ⟨0x1D6F4, 0x1D6F4, .mapped, [0x3C3]⟩,
  ⟨0x1D6F5, 0x1D6F5, .mapped, [0x3C4]⟩,
  ⟨0x1D6F6, 0x1D6F6, .mapped, [0x3C5]⟩,
  ⟨0x1D6F7, 0x1D6F7, .mapped, [0x3C6]⟩,
  ⟨0x1D6F8, 0x1D6F8, .mapped, [0x3C7]⟩,
  ⟨0x1D6F9, 0x1D6F9, .mapped, [0x3C8]⟩,
  ⟨0x1D6FA, 0x1D6FA, .mapped, [0x3C9]⟩,
  ⟨0x1D6FB, 0x1D6FB, .mapped, [0x2207]⟩,
  ⟨0x1D6FC, 0x1D6FC, .mapped, [0x3B1]⟩,
  ⟨0x1D6FD, 0x1D6FD, .mapped, [0x3B2]⟩,
  ⟨0x1D6FE, 0x1D6FE, .mapped, [0x3B3]⟩,
  ⟨0x1D6FF, 0x1D6FF, .mapped, [0x3B4]⟩,
  ⟨0x1D700, 0x1D700, .mapped, [0x3B5]⟩,
  ⟨0x1D701, 0x1D701, .mapped, [0x3B6]⟩,
  ⟨0x1D702, 0x1D702, .mapped, [0x3B7]⟩,
  ⟨0x1D703, 0x1D703, .mapped, [0x3B8]⟩,
  ⟨0x1D704, 0x1D704, .mapped, [0x3B9]⟩,
  ⟨0x1D705, 0x1D705, .mapped, [0x3BA]⟩,
  ⟨0x1D706, 0x1D706, .mapped, [0x3BB]⟩,
  ⟨0x1D707, 0x1D707, .mapped, [0x3BC]⟩,
  ⟨0x1D708, 0x1D708, .mapped, [0x3BD]⟩,
  ⟨0x1D709, 0x1D709, .mapped, [0x3BE]⟩,
  ⟨0x1D70A, 0x1D70A, .mapped, [0x3BF]⟩,
  ⟨0x1D70B, 0x1D70B, .mapped, [0x3C0]⟩,
  ⟨0x1D70C, 0x1D70C, .mapped, [0x3C1]⟩,
  ⟨0x1D70D, 0x1D70E, .mapped, [0x3C3]⟩,
  ⟨0x1D70F, 0x1D70F, .mapped, [0x3C4]⟩,
  ⟨0x1D710, 0x1D710, .mapped, [0x3C5]⟩,
  ⟨0x1D711, 0x1D711, .mapped, [0x3C6]⟩,
  ⟨0x1D712, 0x1D712, .mapped, [0x3C7]⟩,
  ⟨0x1D713, 0x1D713, .mapped, [0x3C8]⟩,
  ⟨0x1D714, 0x1D714, .mapped, [0x3C9]⟩,
  ⟨0x1D715, 0x1D715, .mapped, [0x2202]⟩,
  ⟨0x1D716, 0x1D716, .mapped, [0x3B5]⟩,
  ⟨0x1D717, 0x1D717, .mapped, [0x3B8]⟩,
  ⟨0x1D718, 0x1D718, .mapped, [0x3BA]⟩,
  ⟨0x1D719, 0x1D719, .mapped, [0x3C6]⟩,
  ⟨0x1D71A, 0x1D71A, .mapped, [0x3C1]⟩,
  ⟨0x1D71B, 0x1D71B, .mapped, [0x3C0]⟩,
  ⟨0x1D71C, 0x1D71C, .mapped, [0x3B1]⟩,
  ⟨0x1D71D, 0x1D71D, .mapped, [0x3B2]⟩,
  ⟨0x1D71E, 0x1D71E, .mapped, [0x3B3]⟩,
  ⟨0x1D71F, 0x1D71F, .mapped, [0x3B4]⟩,
  ⟨0x1D720, 0x1D720, .mapped, [0x3B5]⟩,
  ⟨0x1D721, 0x1D721, .mapped, [0x3B6]⟩,
  ⟨0x1D722, 0x1D722, .mapped, [0x3B7]⟩,
  ⟨0x1D723, 0x1D723, .mapped, [0x3B8]⟩,
  ⟨0x1D724, 0x1D724, .mapped, [0x3B9]⟩,
  ⟨0x1D725, 0x1D725, .mapped, [0x3BA]⟩,
  ⟨0x1D726, 0x1D726, .mapped, [0x3BB]⟩,
  ⟨0x1D727, 0x1D727, .mapped, [0x3BC]⟩,
  ⟨0x1D728, 0x1D728, .mapped, [0x3BD]⟩,
  ⟨0x1D729, 0x1D729, .mapped, [0x3BE]⟩,
  ⟨0x1D72A, 0x1D72A, .mapped, [0x3BF]⟩,
  ⟨0x1D72B, 0x1D72B, .mapped, [0x3C0]⟩,
  ⟨0x1D72C, 0x1D72C, .mapped, [0x3C1]⟩,
  ⟨0x1D72D, 0x1D72D, .mapped, [0x3B8]⟩,
  ⟨0x1D72E, 0x1D72E, .mapped, [0x3C3]⟩,
  ⟨0x1D72F, 0x1D72F, .mapped, [0x3C4]⟩,
  ⟨0x1D730, 0x1D730, .mapped, [0x3C5]⟩,
  ⟨0x1D731, 0x1D731, .mapped, [0x3C6]⟩,
  ⟨0x1D732, 0x1D732, .mapped, [0x3C7]⟩,
  ⟨0x1D733, 0x1D733, .mapped, [0x3C8]⟩,
  ⟨0x1D734, 0x1D734, .mapped, [0x3C9]⟩,
  ⟨0x1D735, 0x1D735, .mapped, [0x2207]⟩,
  ⟨0x1D736, 0x1D736, .mapped, [0x3B1]⟩,
  ⟨0x1D737, 0x1D737, .mapped, [0x3B2]⟩,
  ⟨0x1D738, 0x1D738, .mapped, [0x3B3]⟩,
  ⟨0x1D739, 0x1D739, .mapped, [0x3B4]⟩,
  ⟨0x1D73A, 0x1D73A, .mapped, [0x3B5]⟩,
  ⟨0x1D73B, 0x1D73B, .mapped, [0x3B6]⟩,
  ⟨0x1D73C, 0x1D73C, .mapped, [0x3B7]⟩,
  ⟨0x1D73D, 0x1D73D, .mapped, [0x3B8]⟩,
  ⟨0x1D73E, 0x1D73E, .mapped, [0x3B9]⟩,
  ⟨0x1D73F, 0x1D73F, .mapped, [0x3BA]⟩,
  ⟨0x1D740, 0x1D740, .mapped, [0x3BB]⟩,
  ⟨0x1D741, 0x1D741, .mapped, [0x3BC]⟩,
  ⟨0x1D742, 0x1D742, .mapped, [0x3BD]⟩,
  ⟨0x1D743, 0x1D743, .mapped, [0x3BE]⟩,
  ⟨0x1D744, 0x1D744, .mapped, [0x3BF]⟩,
  ⟨0x1D745, 0x1D745, .mapped, [0x3C0]⟩,
  ⟨0x1D746, 0x1D746, .mapped, [0x3C1]⟩,
  ⟨0x1D747, 0x1D748, .mapped, [0x3C3]⟩,
  ⟨0x1D749, 0x1D749, .mapped, [0x3C4]⟩,
  ⟨0x1D74A, 0x1D74A, .mapped, [0x3C5]⟩,
  ⟨0x1D74B, 0x1D74B, .mapped, [0x3C6]⟩,
  ⟨0x1D74C, 0x1D74C, .mapped, [0x3C7]⟩,
  ⟨0x1D74D, 0x1D74D, .mapped, [0x3C8]⟩,
  ⟨0x1D74E, 0x1D74E, .mapped, [0x3C9]⟩,
  ⟨0x1D74F, 0x1D74F, .mapped, [0x2202]⟩,
  ⟨0x1D750, 0x1D750, .mapped, [0x3B5]⟩,
  ⟨0x1D751, 0x1D751, .mapped, [0x3B8]⟩,
  ⟨0x1D752, 0x1D752, .mapped, [0x3BA]⟩,
  ⟨0x1D753, 0x1D753, .mapped, [0x3C6]⟩,
  ⟨0x1D754, 0x1D754, .mapped, [0x3C1]⟩,
  ⟨0x1D755, 0x1D755, .mapped, [0x3C0]⟩,
  ⟨0x1D756, 0x1D756, .mapped, [0x3B1]⟩,
  ⟨0x1D757, 0x1D757, .mapped, [0x3B2]⟩,
  ⟨0x1D758, 0x1D758, .mapped, [0x3B3]⟩,
  ⟨0x1D759, 0x1D759, .mapped, [0x3B4]⟩,
  ⟨0x1D75A, 0x1D75A, .mapped, [0x3B5]⟩,
  ⟨0x1D75B, 0x1D75B, .mapped, [0x3B6]⟩,
  ⟨0x1D75C, 0x1D75C, .mapped, [0x3B7]⟩,
  ⟨0x1D75D, 0x1D75D, .mapped, [0x3B8]⟩,
  ⟨0x1D75E, 0x1D75E, .mapped, [0x3B9]⟩,
  ⟨0x1D75F, 0x1D75F, .mapped, [0x3BA]⟩,
  ⟨0x1D760, 0x1D760, .mapped, [0x3BB]⟩,
  ⟨0x1D761, 0x1D761, .mapped, [0x3BC]⟩,
  ⟨0x1D762, 0x1D762, .mapped, [0x3BD]⟩,
  ⟨0x1D763, 0x1D763, .mapped, [0x3BE]⟩,
  ⟨0x1D764, 0x1D764, .mapped, [0x3BF]⟩,
  ⟨0x1D765, 0x1D765, .mapped, [0x3C0]⟩,
  ⟨0x1D766, 0x1D766, .mapped, [0x3C1]⟩,
  ⟨0x1D767, 0x1D767, .mapped, [0x3B8]⟩,
  ⟨0x1D768, 0x1D768, .mapped, [0x3C3]⟩,
  ⟨0x1D769, 0x1D769, .mapped, [0x3C4]⟩,
  ⟨0x1D76A, 0x1D76A, .mapped, [0x3C5]⟩,
  ⟨0x1D76B, 0x1D76B, .mapped, [0x3C6]⟩,
  ⟨0x1D76C, 0x1D76C, .mapped, [0x3C7]⟩,
  ⟨0x1D76D, 0x1D76D, .mapped, [0x3C8]⟩,
  ⟨0x1D76E, 0x1D76E, .mapped, [0x3C9]⟩,
  ⟨0x1D76F, 0x1D76F, .mapped, [0x2207]⟩,
  ⟨0x1D770, 0x1D770, .mapped, [0x3B1]⟩,
  ⟨0x1D771, 0x1D771, .mapped, [0x3B2]⟩,
  ⟨0x1D772, 0x1D772, .mapped, [0x3B3]⟩,
  ⟨0x1D773, 0x1D773, .mapped, [0x3B4]⟩,
  ⟨0x1D774, 0x1D774, .mapped, [0x3B5]⟩,
  ⟨0x1D775, 0x1D775, .mapped, [0x3B6]⟩,
  ⟨0x1D776, 0x1D776, .mapped, [0x3B7]⟩,
  ⟨0x1D777, 0x1D777, .mapped, [0x3B8]⟩,
  ⟨0x1D778, 0x1D778, .mapped, [0x3B9]⟩,
  ⟨0x1D779, 0x1D779, .mapped, [0x3BA]⟩,
  ⟨0x1D77A, 0x1D77A, .mapped, [0x3BB]⟩,
  ⟨0x1D77B, 0x1D77B, .mapped, [0x3BC]⟩,
  ⟨0x1D77C, 0x1D77C, .mapped, [0x3BD]⟩,
  ⟨0x1D77D, 0x1D77D, .mapped, [0x3BE]⟩,
  ⟨0x1D77E, 0x1D77E, .mapped, [0x3BF]⟩,
  ⟨0x1D77F, 0x1D77F, .mapped, [0x3C0]⟩,
  ⟨0x1D780, 0x1D780, .mapped, [0x3C1]⟩,
  ⟨0x1D781, 0x1D782, .mapped, [0x3C3]⟩,
  ⟨0x1D783, 0x1D783, .mapped, [0x3C4]⟩,
  ⟨0x1D784, 0x1D784, .mapped, [0x3C5]⟩,
  ⟨0x1D785, 0x1D785, .mapped, [0x3C6]⟩,
  ⟨0x1D786, 0x1D786, .mapped, [0x3C7]⟩,
  ⟨0x1D787, 0x1D787, .mapped, [0x3C8]⟩,
  ⟨0x1D788, 0x1D788, .mapped, [0x3C9]⟩,
  ⟨0x1D789, 0x1D789, .mapped, [0x2202]⟩,
  ⟨0x1D78A, 0x1D78A, .mapped, [0x3B5]⟩,
  ⟨0x1D78B, 0x1D78B, .mapped, [0x3B8]⟩,
  ⟨0x1D78C, 0x1D78C, .mapped, [0x3BA]⟩,
  ⟨0x1D78D, 0x1D78D, .mapped, [0x3C6]⟩,
  ⟨0x1D78E, 0x1D78E, .mapped, [0x3C1]⟩,
  ⟨0x1D78F, 0x1D78F, .mapped, [0x3C0]⟩,
  ⟨0x1D790, 0x1D790, .mapped, [0x3B1]⟩,
  ⟨0x1D791, 0x1D791, .mapped, [0x3B2]⟩,
  ⟨0x1D792, 0x1D792, .mapped, [0x3B3]⟩,
  ⟨0x1D793, 0x1D793, .mapped, [0x3B4]⟩,
  ⟨0x1D794, 0x1D794, .mapped, [0x3B5]⟩,
  ⟨0x1D795, 0x1D795, .mapped, [0x3B6]⟩,
  ⟨0x1D796, 0x1D796, .mapped, [0x3B7]⟩,
  ⟨0x1D797, 0x1D797, .mapped, [0x3B8]⟩,
  ⟨0x1D798, 0x1D798, .mapped, [0x3B9]⟩,
  ⟨0x1D799, 0x1D799, .mapped, [0x3BA]⟩,
  ⟨0x1D79A, 0x1D79A, .mapped, [0x3BB]⟩,
  ⟨0x1D79B, 0x1D79B, .mapped, [0x3BC]⟩,
  ⟨0x1D79C, 0x1D79C, .mapped, [0x3BD]⟩,
  ⟨0x1D79D, 0x1D79D, .mapped, [0x3BE]⟩,
  ⟨0x1D79E, 0x1D79E, .mapped, [0x3BF]⟩,
  ⟨0x1D79F, 0x1D79F, .mapped, [0x3C0]⟩,
  ⟨0x1D7A0, 0x1D7A0, .mapped, [0x3C1]⟩,
  ⟨0x1D7A1, 0x1D7A1, .mapped, [0x3B8]⟩,
  ⟨0x1D7A2, 0x1D7A2, .mapped, [0x3C3]⟩,
  ⟨0x1D7A3, 0x1D7A3, .mapped, [0x3C4]⟩,
  ⟨0x1D7A4, 0x1D7A4, .mapped, [0x3C5]⟩,
  ⟨0x1D7A5, 0x1D7A5, .mapped, [0x3C6]⟩,
  ⟨0x1D7A6, 0x1D7A6, .mapped, [0x3C7]⟩,
  ⟨0x1D7A7, 0x1D7A7, .mapped, [0x3C8]⟩,
  ⟨0x1D7A8, 0x1D7A8, .mapped, [0x3C9]⟩,
  ⟨0x1D7A9, 0x1D7A9, .mapped, [0x2207]⟩,
  ⟨0x1D7AA, 0x1D7AA, .mapped, [0x3B1]⟩,
  ⟨0x1D7AB, 0x1D7AB, .mapped, [0x3B2]⟩,
  ⟨0x1D7AC, 0x1D7AC, .mapped, [0x3B3]⟩,
  ⟨0x1D7AD, 0x1D7AD, .mapped, [0x3B4]⟩,
  ⟨0x1D7AE, 0x1D7AE, .mapped, [0x3B5]⟩,
  ⟨0x1D7AF, 0x1D7AF, .mapped, [0x3B6]⟩,
  ⟨0x1D7B0, 0x1D7B0, .mapped, [0x3B7]⟩,
  ⟨0x1D7B1, 0x1D7B1, .mapped, [0x3B8]⟩,
  ⟨0x1D7B2, 0x1D7B2, .mapped, [0x3B9]⟩,
  ⟨0x1D7B3, 0x1D7B3, .mapped, [0x3BA]⟩,
  ⟨0x1D7B4, 0x1D7B4, .mapped, [0x3BB]⟩,
  ⟨0x1D7B5, 0x1D7B5, .mapped, [0x3BC]⟩,
  ⟨0x1D7B6, 0x1D7B6, .mapped, [0x3BD]⟩,
  ⟨0x1D7B7, 0x1D7B7, .mapped, [0x3BE]⟩,
  ⟨0x1D7B8, 0x1D7B8, .mapped, [0x3BF]⟩,
  ⟨0x1D7B9, 0x1D7B9, .mapped, [0x3C0]⟩,
  ⟨0x1D7BA, 0x1D7BA, .mapped, [0x3C1]⟩,
  ⟨0x1D7BB, 0x1D7BC, .mapped, [0x3C3]⟩,
  ⟨0x1D7BD, 0x1D7BD, .mapped, [0x3C4]⟩,
  ⟨0x1D7BE, 0x1D7BE, .mapped, [0x3C5]⟩,
  ⟨0x1D7BF, 0x1D7BF, .mapped, [0x3C6]⟩,
  ⟨0x1D7C0, 0x1D7C0, .mapped, [0x3C7]⟩,
  ⟨0x1D7C1, 0x1D7C1, .mapped, [0x3C8]⟩,
  ⟨0x1D7C2, 0x1D7C2, .mapped, [0x3C9]⟩,
  ⟨0x1D7C3, 0x1D7C3, .mapped, [0x2202]⟩,
  ⟨0x1D7C4, 0x1D7C4, .mapped, [0x3B5]⟩,
  ⟨0x1D7C5, 0x1D7C5, .mapped, [0x3B8]⟩,
  ⟨0x1D7C6, 0x1D7C6, .mapped, [0x3BA]⟩,
  ⟨0x1D7C7, 0x1D7C7, .mapped, [0x3C6]⟩,
  ⟨0x1D7C8, 0x1D7C8, .mapped, [0x3C1]⟩,
  ⟨0x1D7C9, 0x1D7C9, .mapped, [0x3C0]⟩,
  ⟨0x1D7CA, 0x1D7CB, .mapped, [0x3DD]⟩,
  ⟨0x1D7CC, 0x1D7CD, .disallowed, []⟩,
  ⟨0x1D7CE, 0x1D7CE, .mapped, [0x30]⟩,
  ⟨0x1D7CF, 0x1D7CF, .mapped, [0x31]⟩,
  ⟨0x1D7D0, 0x1D7D0, .mapped, [0x32]⟩,
  ⟨0x1D7D1, 0x1D7D1, .mapped, [0x33]⟩,
  ⟨0x1D7D2, 0x1D7D2, .mapped, [0x34]⟩,
  ⟨0x1D7D3, 0x1D7D3, .mapped, [0x35]⟩,
  ⟨0x1D7D4, 0x1D7D4, .mapped, [0x36]⟩,
  ⟨0x1D7D5, 0x1D7D5, .mapped, [0x37]⟩,
  ⟨0x1D7D6, 0x1D7D6, .mapped, [0x38]⟩,
  ⟨0x1D7D7, 0x1D7D7, .mapped, [0x39]⟩,
  ⟨0x1D7D8, 0x1D7D8, .mapped, [0x30]⟩,
  ⟨0x1D7D9, 0x1D7D9, .mapped, [0x31]⟩,
  ⟨0x1D7DA, 0x1D7DA, .mapped, [0x32]⟩,
  ⟨0x1D7DB, 0x1D7DB, .mapped, [0x33]⟩,
  ⟨0x1D7DC, 0x1D7DC, .mapped, [0x34]⟩,
  ⟨0x1D7DD, 0x1D7DD, .mapped, [0x35]⟩,
  ⟨0x1D7DE, 0x1D7DE, .mapped, [0x36]⟩,
  ⟨0x1D7DF, 0x1D7DF, .mapped, [0x37]⟩,
  ⟨0x1D7E0, 0x1D7E0, .mapped, [0x38]⟩,
  ⟨0x1D7E1, 0x1D7E1, .mapped, [0x39]⟩,
  ⟨0x1D7E2, 0x1D7E2, .mapped, [0x30]⟩,
  ⟨0x1D7E3, 0x1D7E3, .mapped, [0x31]⟩,
  ⟨0x1D7E4, 0x1D7E4, .mapped, [0x32]⟩,
  ⟨0x1D7E5, 0x1D7E5, .mapped, [0x33]⟩,
  ⟨0x1D7E6, 0x1D7E6, .mapped, [0x34]⟩,
  ⟨0x1D7E7, 0x1D7E7, .mapped, [0x35]⟩,
  ⟨0x1D7E8, 0x1D7E8, .mapped, [0x36]⟩,
  ⟨0x1D7E9, 0x1D7E9, .mapped, [0x37]⟩,
  ⟨0x1D7EA, 0x1D7EA, .mapped, [0x38]⟩,
  ⟨0x1D7EB, 0x1D7EB, .mapped, [0x39]⟩,
  ⟨0x1D7EC, 0x1D7EC, .mapped, [0x30]⟩]

def map30 : List MapRow := [
  ⟨0x1D7ED, 0x1D7ED, .mapped, [0x31]⟩,
  ⟨0x1D7EE, 0x1D7EE, .mapped, [0x32]⟩,
  ⟨0x1D7EF, 0x1D7EF, .mapped, [0x33]⟩,
  ⟨0x1D7F0, 0x1D7F0, .mapped, [0x34]⟩,
  ⟨0x1D7F1, 0x1D7F1, .mapped, [0x35]⟩,
  ⟨0x1D7F2, 0x1D7F2, .mapped, [0x36]⟩,
  ⟨0x1D7F3, 0x1D7F3, .mapped, [0x37]⟩,
  ⟨0x1D7F4, 0x1D7F4, .mapped, [0x38]⟩,
  ⟨0x1D7F5, 0x1D7F5, .mapped, [0x39]⟩,
  ⟨0x1D7F6, 0x1D7F6, .mapped, [0x30]⟩,
  ⟨0x1D7F7, 0x1D7F7, .mapped, [0x31]⟩,
  ⟨0x1D7F8, 0x1D7F8, .mapped, [0x32]⟩,
  ⟨0x1D7F9, 0x1D7F9, .mapped, [0x33]⟩,
  ⟨0x1D7FA, 0x1D7FA, .mapped, [0x34]⟩,
  ⟨0x1D7FB, 0x1D7FB, .mapped, [0x35]⟩,
  ⟨0x1D7FC, 0x1D7FC, .mapped, [0x36]⟩,
  ⟨0x1D7FD, 0x1D7FD, .mapped, [0x37]⟩,
  ⟨0x1D7FE, 0x1D7FE, .mapped, [0x38]⟩,
  ⟨0x1D7FF, 0x1D7FF, .mapped, [0x39]⟩,
  ⟨0x1D800, 0x1D9FF, .valid, []⟩,
  ⟨0x1DA00, 0x1DA36, .valid, []⟩,
  ⟨0x1DA37, 0x1DA3A, .valid, []⟩,
  ⟨0x1DA3B, 0x1DA6C, .valid, []⟩,
  ⟨0x1DA6D, 0x1DA74, .valid, []⟩,
  ⟨0x1DA75, 0x1DA75, .valid, []⟩,
  ⟨0x1DA76, 0x1DA83, .valid, []⟩,
  ⟨0x1DA84, 0x1DA84, .valid, []⟩,
  ⟨0x1DA85, 0x1DA8B, .valid, []⟩,
  ⟨0x1DA8C, 0x1DA9A, .disallowed, []⟩,
  ⟨0x1DA9B, 0x1DA9F, .valid, []⟩,
  ⟨0x1DAA0, 0x1DAA0, .disallowed, []⟩,
  ⟨0x1DAA1, 0x1DAAF, .valid, []⟩,
  ⟨0x1DAB0, 0x1DFFF, .disallowed, []⟩,
  ⟨0x1E000, 0x1E006, .valid, []⟩,
  ⟨0x1E007, 0x1E007, .disallowed, []⟩,
  ⟨0x1E008, 0x1E018, .valid, []⟩,
  ⟨0x1E019, 0x1E01A, .disallowed, []⟩,
  ⟨0x1E01B, 0x1E021, .valid, []⟩,
  ⟨0x1E022, 0x1E022, .disallowed, []⟩,
  ⟨0x1E023, 0x1E024, .valid, []⟩,
  ⟨0x1E025, 0x1E025, .disallowed, []⟩,
  ⟨0x1E026, 0x1E02A, .valid, []⟩,
  ⟨0x1E02B, 0x1E0FF, .disallowed, []⟩,
  ⟨0x1E100, 0x1E12C, .valid, []⟩,
  ⟨0x1E12D, 0x1E12F, .disallowed, []⟩,
  ⟨0x1E130, 0x1E13D, .valid, []⟩,
  ⟨0x1E13E, 0x1E13F, .disallowed, []⟩,
  ⟨0x1E140, 0x1E149, .valid, []⟩,
  ⟨0x1E14A, 0x1E14D, .disallowed, []⟩,
  ⟨0x1E14E, 0x1E14E, .valid, []⟩,
  ⟨0x1E14F, 0x1E14F, .valid, []⟩,
  ⟨0x1E150, 0x1E2BF, .disallowed, []⟩,
  ⟨0x1E2C0, 0x1E2F9, .valid, []⟩,
  ⟨0x1E2FA, 0x1E2FE, .disallowed, []⟩,
  ⟨0x1E2FF, 0x1E2FF, .valid, []⟩,
  ⟨0x1E300, 0x1E7FF, .disallowed, []⟩,
  ⟨0x1E800, 0x1E8C4, .valid, []⟩,
  ⟨0x1E8C5, 0x1E8C6, .disallowed, []⟩,
  ⟨0x1E8C7, 0x1E8CF, .valid, []⟩,
  ⟨0x1E8D0, 0x1E8D6, .valid, []⟩,
  ⟨0x1E8D7, 0x1E8FF, .disallowed, []⟩,
  ⟨0x1E900, 0x1E900, .mapped, [0x1E922]⟩,
  ⟨0x1E901, 0x1E901, .mapped, [0x1E923]⟩,
  ⟨0x1E902, 0x1E902, .mapped, [0x1E924]⟩,
  ⟨0x1E903, 0x1E903, .mapped, [0x1E925]⟩,
  ⟨0x1E904, 0x1E904, .mapped, [0x1E926]⟩,
  ⟨0x1E905, 0x1E905, .mapped, [0x1E927]⟩,
  ⟨0x1E906, 0x1E906, .mapped, [0x1E928]⟩,
  ⟨0x1E907, 0x1E907, .mapped, [0x1E929]⟩,
  ⟨0x1E908, 0x1E908, .mapped, [0x1E92A]⟩,
  ⟨0x1E909, 0x1E909, .mapped, [0x1E92B]⟩,
  ⟨0x1E90A, 0x1E90A, .mapped, [0x1E92C]⟩,
  ⟨0x1E90B, 0x1E90B, .mapped, [0x1E92D]⟩,
  ⟨0x1E90C, 0x1E90C, .mapped, [0x1E92E]⟩,
  ⟨0x1E90D, 0x1E90D, .mapped, [0x1E92F]⟩,
  ⟨0x1E90E, 0x1E90E, .mapped, [0x1E930]⟩,
  ⟨0x1E90F, 0x1E90F, .mapped, [0x1E931]⟩,
  ⟨0x1E910, 0x1E910, .mapped, [0x1E932]⟩,
  ⟨0x1E911, 0x1E911, .mapped, [0x1E933]⟩,
  ⟨0x1E912, 0x1E912, .mapped, [0x1E934]⟩,
  ⟨0x1E913, 0x1E913, .mapped, [0x1E935]⟩,
  ⟨0x1E914, 0x1E914, .mapped, [0x1E936]⟩,
  ⟨0x1E915, 0x1E915, .mapped, [0x1E937]⟩,
  ⟨0x1E916, 0x1E916, .mapped, [0x1E938]⟩,
  ⟨0x1E917, 0x1E917, .mapped, [0x1E939]⟩,
  ⟨0x1E918, 0x1E918, .mapped, [0x1E93A]⟩,
  ⟨0x1E919, 0x1E919, .mapped, [0x1E93B]⟩,
  ⟨0x1E91A, 0x1E91A, .mapped, [0x1E93C]⟩,
  ⟨0x1E91B, 0x1E91B, .mapped, [0x1E93D]⟩,
  ⟨0x1E91C, 0x1E91C, .mapped, [0x1E93E]⟩,
  ⟨0x1E91D, 0x1E91D, .mapped, [0x1E93F]⟩,
  ⟨0x1E91E, 0x1E91E, .mapped, [0x1E940]⟩,
  ⟨0x1E91F, 0x1E91F, .mapped, [0x1E941]⟩,
  ⟨0x1E920, 0x1E920, .mapped, [0x1E942]⟩,
  ⟨0x1E921, 0x1E921, .mapped, [0x1E943]⟩,
  ⟨0x1E922, 0x1E94A, .valid, []⟩,
  ⟨0x1E94B, 0x1E94B, .valid, []⟩,
  ⟨0x1E94C, 0x1E94F, .disallowed, []⟩,
  ⟨0x1E950, 0x1E959, .valid, []⟩,
  ⟨0x1E95A, 0x1E95D, .disallowed, []⟩,
  ⟨0x1E95E, 0x1E95F, .valid, []⟩,
  ⟨0x1E960, 0x1EC70, .disallowed, []⟩,
  ⟨0x1EC71, 0x1ECB4, .valid, []⟩,
  ⟨0x1ECB5, 0x1ED00, .disallowed, []⟩,
  ⟨0x1ED01, 0x1ED3D, .valid, []⟩,
  ⟨0x1ED3E, 0x1EDFF, .disallowed, []⟩,
  ⟨0x1EE00, 0x1EE00, .mapped, [0x627]⟩,
  ⟨0x1EE01, 0x1EE01, .mapped, [0x628]⟩,
  ⟨0x1EE02, 0x1EE02, .mapped, [0x62C]⟩,
  ⟨0x1EE03, 0x1EE03, .mapped, [0x62F]⟩,
  ⟨0x1EE04, 0x1EE04, .disallowed, []⟩,
  ⟨0x1EE05, 0x1EE05, .mapped, [0x648]⟩,
  ⟨0x1EE06, 0x1EE06, .mapped, [0x632]⟩,
  ⟨0x1EE07, 0x1EE07, .mapped, [0x62D]⟩,
  ⟨0x1EE08, 0x1EE08, .mapped, [0x637]⟩,
  ⟨0x1EE09, 0x1EE09, .mapped, [0x64A]⟩,
  ⟨0x1EE0A, 0x1EE0A, .mapped, [0x643]⟩,
  ⟨0x1EE0B, 0x1EE0B, .mapped, [0x644]⟩,
  ⟨0x1EE0C, 0x1EE0C, .mapped, [0x645]⟩,
  ⟨0x1EE0D, 0x1EE0D, .mapped, [0x646]⟩,
  ⟨0x1EE0E, 0x1EE0E, .mapped, [0x633]⟩,
  ⟨0x1EE0F, 0x1EE0F, .mapped, [0x639]⟩,
  ⟨0x1EE10, 0x1EE10, .mapped, [0x641]⟩,
  ⟨0x1EE11, 0x1EE11, .mapped, [0x635]⟩,
  ⟨0x1EE12, 0x1EE12, .mapped, [0x642]⟩,
  ⟨0x1EE13, 0x1EE13, .mapped, [0x631]⟩,
  ⟨0x1EE14, 0x1EE14, .mapped, [0x634]⟩,
  ⟨0x1EE15, 0x1EE15, .mapped, [0x62A]⟩,
  ⟨0x1EE16, 0x1EE16, .mapped, [0x62B]⟩,
  ⟨0x1EE17, 0x1EE17, .mapped, [0x62E]⟩,
  ⟨0x1EE18, 0x1EE18, .mapped, [0x630]⟩,
  ⟨0x1EE19, 0x1EE19, .mapped, [0x636]⟩,
  ⟨0x1EE1A, 0x1EE1A, .mapped, [0x638]⟩,
  ⟨0x1EE1B, 0x1EE1B, .mapped, [0x63A]⟩,
  ⟨0x1EE1C, 0x1EE1C, .mapped, [0x66E]⟩,
  ⟨0x1EE1D, 0x1EE1D, .mapped, [0x6BA]⟩,
  ⟨0x1EE1E, 0x1EE1E, .mapped, [0x6A1]⟩,
  ⟨0x1EE1F, 0x1EE1F, .mapped, [0x66F]⟩,
  ⟨0x1EE20, 0x1EE20, .disallowed, []⟩,
  ⟨0x1EE21, 0x1EE21, .mapped, [0x628]⟩,
  ⟨0x1EE22, 0x1EE22, .mapped, [0x62C]⟩,
  ⟨0x1EE23, 0x1EE23, .disallowed, []⟩,
  ⟨0x1EE24, 0x1EE24, .mapped, [0x647]⟩,
  ⟨0x1EE25, 0x1EE26, .disallowed, []⟩,
  ⟨0x1EE27, 0x1EE27, .mapped, [0x62D]⟩,
  ⟨0x1EE28, 0x1EE28, .disallowed, []⟩,
  ⟨0x1EE29, 0x1EE29, .mapped, [0x64A]⟩,
  ⟨0x1EE2A, 0x1EE2A, .mapped, [0x643]⟩,
  ⟨0x1EE2B, 0x1EE2B, .mapped, [0x644]⟩,
  ⟨0x1EE2C, 0x1EE2C, .mapped, [0x645]⟩,
  ⟨0x1EE2D, 0x1EE2D, .mapped, [0x646]⟩,
  ⟨0x1EE2E, 0x1EE2E, .mapped, [0x633]⟩,
  ⟨0x1EE2F, 0x1EE2F, .mapped, [0x639]⟩,
  ⟨0x1EE30, 0x1EE30, .mapped, [0x641]⟩,
  ⟨0x1EE31, 0x1EE31, .mapped, [0x635]⟩,
  ⟨0x1EE32, 0x1EE32, .mapped, [0x642]⟩,
  ⟨0x1EE33, 0x1EE33, .disallowed, []⟩,
  ⟨0x1EE34, 0x1EE34, .mapped, [0x634]⟩,
  ⟨0x1EE35, 0x1EE35, .mapped, [0x62A]⟩,
  ⟨0x1EE36, 0x1EE36, .mapped, [0x62B]⟩,
  ⟨0x1EE37, 0x1EE37, .mapped, [0x62E]⟩,
  ⟨0x1EE38, 0x1EE38, .disallowed, []⟩,
  ⟨0x1EE39, 0x1EE39, .mapped, [0x636]⟩,
  ⟨0x1EE3A, 0x1EE3A, .disallowed, []⟩,
  ⟨0x1EE3B, 0x1EE3B, .mapped, [0x63A]⟩,
  ⟨0x1EE3C, 0x1EE41, .disallowed, []⟩,
  ⟨0x1EE42, 0x1EE42, .mapped, [0x62C]⟩,
  ⟨0x1EE43, 0x1EE46, .disallowed, []⟩,
  ⟨0x1EE47, 0x1EE47, .mapped, [0x62D]⟩,
  ⟨0x1EE48, 0x1EE48, .disallowed, []⟩,
  ⟨0x1EE49, 0x1EE49, .mapped, [0x64A]⟩,
  ⟨0x1EE4A, 0x1EE4A, .disallowed, []⟩,
  ⟨0x1EE4B, 0x1EE4B, .mapped, [0x644]⟩,
  ⟨0x1EE4C, 0x1EE4C, .disallowed, []⟩,
  ⟨0x1EE4D, 0x1EE4D, .mapped, [0x646]⟩,
  ⟨0x1EE4E, 0x1EE4E, .mapped, [0x633]⟩,
  ⟨0x1EE4F, 0x1EE4F, .mapped, [0x639]⟩,
  ⟨0x1EE50, 0x1EE50, .disallowed, []⟩,
  ⟨0x1EE51, 0x1EE51, .mapped, [0x635]⟩,
  ⟨0x1EE52, 0x1EE52, .mapped, [0x642]⟩,
  ⟨0x1EE53, 0x1EE53, .disallowed, []⟩,
  ⟨0x1EE54, 0x1EE54, .mapped, [0x634]⟩,
  ⟨0x1EE55, 0x1EE56, .disallowed, []⟩,
  ⟨0x1EE57, 0x1EE57, .mapped, [0x62E]⟩,
  ⟨0x1EE58, 0x1EE58, .disallowed, []⟩,
  ⟨0x1EE59, 0x1EE59, .mapped, [0x636]⟩,
  ⟨0x1EE5A, 0x1EE5A, .disallowed, []⟩,
  ⟨0x1EE5B, 0x1EE5B, .mapped, [0x63A]⟩,
  ⟨0x1EE5C, 0x1EE5C, .disallowed, []⟩,
  ⟨0x1EE5D, 0x1EE5D, .mapped, [0x6BA]⟩,
  ⟨0x1EE5E, 0x1EE5E, .disallowed, []⟩,
  ⟨0x1EE5F, 0x1EE5F, .mapped, [0x66F]⟩,
  ⟨0x1EE60, 0x1EE60, .disallowed, []⟩,
  ⟨0x1EE61, 0x1EE61, .mapped, [0x628]⟩,
  ⟨0x1EE62, 0x1EE62, .mapped, [0x62C]⟩,
  ⟨0x1EE63, 0x1EE63, .disallowed, []⟩,
  ⟨0x1EE64, 0x1EE64, .mapped, [0x647]⟩,
  ⟨0x1EE65, 0x1EE66, .disallowed, []⟩,
  ⟨0x1EE67, 0x1EE67, .mapped, [0x62D]⟩,
  ⟨0x1EE68, 0x1EE68, .mapped, [0x637]⟩,
  ⟨0x1EE69, 0x1EE69, .mapped, [0x64A]⟩,
  ⟨0x1EE6A, 0x1EE6A, .mapped, [0x643]⟩,
  ⟨0x1EE6B, 0x1EE6B, .disallowed, []⟩,
  ⟨0x1EE6C, 0x1EE6C, .mapped, [0x645]⟩,
  ⟨0x1EE6D, 0x1EE6D, .mapped, [0x646]⟩,
  ⟨0x1EE6E, 0x1EE6E, .mapped, [0x633]⟩,
  ⟨0x1EE6F, 0x1EE6F, .mapped, [0x639]⟩,
  ⟨0x1EE70, 0x1EE70, .mapped, [0x641]⟩,
  ⟨0x1EE71, 0x1EE71, .mapped, [0x635]⟩,
  ⟨0x1EE72, 0x1EE72, .mapped, [0x642]⟩,
  ⟨0x1EE73, 0x1EE73, .disallowed, []⟩,
  ⟨0x1EE74, 0x1EE74, .mapped, [0x634]⟩,
  ⟨0x1EE75, 0x1EE75, .mapped, [0x62A]⟩,
  ⟨0x1EE76, 0x1EE76, .mapped, [0x62B]⟩,
  ⟨0x1EE77, 0x1EE77, .mapped, [0x62E]⟩,
  ⟨0x1EE78, 0x1EE78, .disallowed, []⟩,
  ⟨0x1EE79, 0x1EE79, .mapped, [0x636]⟩,
  ⟨0x1EE7A, 0x1EE7A, .mapped, [0x638]⟩,
  ⟨0x1EE7B, 0x1EE7B, .mapped, [0x63A]⟩,
  ⟨0x1EE7C, 0x1EE7C, .mapped, [0x66E]⟩,
  ⟨0x1EE7D, 0x1EE7D, .disallowed, []⟩,
  ⟨0x1EE7E, 0x1EE7E, .mapped, [0x6A1]⟩,
  ⟨0x1EE7F, 0x1EE7F, .disallowed, []⟩,
  ⟨0x1EE80, 0x1EE80, .mapped, [0x627]⟩,
  ⟨0x1EE81, 0x1EE81, .mapped, [0x628]⟩,
  ⟨0x1EE82, 0x1EE82, .mapped, [0x62C]⟩,
  ⟨0x1EE83, 0x1EE83, .mapped, [0x62F]⟩,
  ⟨0x1EE84, 0x1EE84, .mapped, [0x647]⟩,
  ⟨0x1EE85, 0x1EE85, .mapped, [0x648]⟩,
  ⟨0x1EE86, 0x1EE86, .mapped, [0x632]⟩,
  ⟨0x1EE87, 0x1EE87, .mapped, [0x62D]⟩,
  ⟨0x1EE88, 0x1EE88, .mapped, [0x637]⟩,
  ⟨0x1EE89, 0x1EE89, .mapped, [0x64A]⟩,
  ⟨0x1EE8A, 0x1EE8A, .disallowed, []⟩,
  ⟨0x1EE8B, 0x1EE8B, .mapped, [0x644]⟩,
  ⟨0x1EE8C, 0x1EE8C, .mapped, [0x645]⟩,
  ⟨0x1EE8D, 0x1EE8D, .mapped, [0x646]⟩,
  ⟨0x1EE8E, 0x1EE8E, .mapped, [0x633]⟩,
  ⟨0x1EE8F, 0x1EE8F, .mapped, [0x639]⟩,
  ⟨0x1EE90, 0x1EE90, .mapped, [0x641]⟩,
  ⟨0x1EE91, 0x1EE91, .mapped, [0x635]⟩,
  ⟨0x1EE92, 0x1EE92, .mapped, [0x642]⟩,
  ⟨0x1EE93, 0x1EE93, .mapped, [0x631]⟩,
  ⟨0x1EE94, 0x1EE94, .mapped, [0x634]⟩,
  ⟨0x1EE95, 0x1EE95, .mapped, [0x62A]⟩,
  ⟨0x1EE96, 0x1EE96, .mapped, [0x62B]⟩,
  ⟨0x1EE97, 0x1EE97, .mapped, [0x62E]⟩,
  ⟨0x1EE98, 0x1EE98, .mapped, [0x630]⟩,
  ⟨0x1EE99, 0x1EE99, .mapped, [0x636]⟩,
  ⟨0x1EE9A, 0x1EE9A, .mapped, [0x638]⟩]

def map31 : List MapRow := [
  ⟨0x1EE9B, 0x1EE9B, .mapped, [0x63A]⟩,
  ⟨0x1EE9C, 0x1EEA0, .disallowed, []⟩,
  ⟨0x1EEA1, 0x1EEA1, .mapped, [0x628]⟩,
  ⟨0x1EEA2, 0x1EEA2, .mapped, [0x62C]⟩,
  ⟨0x1EEA3, 0x1EEA3, .mapped, [0x62F]⟩,
  ⟨0x1EEA4, 0x1EEA4, .disallowed, []⟩,
  ⟨0x1EEA5, 0x1EEA5, .mapped, [0x648]⟩,
  ⟨0x1EEA6, 0x1EEA6, .mapped, [0x632]⟩,
  ⟨0x1EEA7, 0x1EEA7, .mapped, [0x62D]⟩,
  ⟨0x1EEA8, 0x1EEA8, .mapped, [0x637]⟩,
  ⟨0x1EEA9, 0x1EEA9, .mapped, [0x64A]⟩,
  ⟨0x1EEAA, 0x1EEAA, .disallowed, []⟩,
  ⟨0x1EEAB, 0x1EEAB, .mapped, [0x644]⟩,
  ⟨0x1EEAC, 0x1EEAC, .mapped, [0x645]⟩,
  ⟨0x1EEAD, 0x1EEAD, .mapped, [0x646]⟩,
  ⟨0x1EEAE, 0x1EEAE, .mapped, [0x633]⟩,
  ⟨0x1EEAF, 0x1EEAF, .mapped, [0x639]⟩,
  ⟨0x1EEB0, 0x1EEB0, .mapped, [0x641]⟩,
  ⟨0x1EEB1, 0x1EEB1, .mapped, [0x635]⟩,
  ⟨0x1EEB2, 0x1EEB2, .mapped, [0x642]⟩,
  ⟨0x1EEB3, 0x1EEB3, .mapped, [0x631]⟩,
  ⟨0x1EEB4, 0x1EEB4, .mapped, [0x634]⟩,
  ⟨0x1EEB5, 0x1EEB5, .mapped, [0x62A]⟩,
  ⟨0x1EEB6, 0x1EEB6, .mapped, [0x62B]⟩,
  ⟨0x1EEB7, 0x1EEB7, .mapped, [0x62E]⟩,
  ⟨0x1EEB8, 0x1EEB8, .mapped, [0x630]⟩,
  ⟨0x1EEB9, 0x1EEB9, .mapped, [0x636]⟩,
  ⟨0x1EEBA, 0x1EEBA, .mapped, [0x638]⟩,
  ⟨0x1EEBB, 0x1EEBB, .mapped, [0x63A]⟩,
  ⟨0x1EEBC, 0x1EEEF, .disallowed, []⟩,
  ⟨0x1EEF0, 0x1EEF1, .valid, []⟩,
  ⟨0x1EEF2, 0x1EFFF, .disallowed, []⟩,
  ⟨0x1F000, 0x1F02B, .valid, []⟩,
  ⟨0x1F02C, 0x1F02F, .disallowed, []⟩,
  ⟨0x1F030, 0x1F093, .valid, []⟩,
  ⟨0x1F094, 0x1F09F, .disallowed, []⟩,
  ⟨0x1F0A0, 0x1F0AE, .valid, []⟩,
  ⟨0x1F0AF, 0x1F0B0, .disallowed, []⟩,
  ⟨0x1F0B1, 0x1F0BE, .valid, []⟩,
  ⟨0x1F0BF, 0x1F0BF, .valid, []⟩,
  ⟨0x1F0C0, 0x1F0C0, .disallowed, []⟩,
  ⟨0x1F0C1, 0x1F0CF, .valid, []⟩,
  ⟨0x1F0D0, 0x1F0D0, .disallowed, []⟩,
  ⟨0x1F0D1, 0x1F0DF, .valid, []⟩,
  ⟨0x1F0E0, 0x1F0F5, .valid, []⟩,
  ⟨0x1F0F6, 0x1F0FF, .disallowed, []⟩,
  ⟨0x1F100, 0x1F100, .disallowed, []⟩,
  ⟨0x1F101, 0x1F101, .std3Mapped, [0x30, 0x2C]⟩,
  ⟨0x1F102, 0x1F102, .std3Mapped, [0x31, 0x2C]⟩,
  ⟨0x1F103, 0x1F103, .std3Mapped, [0x32, 0x2C]⟩,
  ⟨0x1F104, 0x1F104, .std3Mapped, [0x33, 0x2C]⟩,
  ⟨0x1F105, 0x1F105, .std3Mapped, [0x34, 0x2C]⟩,
  ⟨0x1F106, 0x1F106, .std3Mapped, [0x35, 0x2C]⟩,
  ⟨0x1F107, 0x1F107, .std3Mapped, [0x36, 0x2C]⟩,
  ⟨0x1F108, 0x1F108, .std3Mapped, [0x37, 0x2C]⟩,
  ⟨0x1F109, 0x1F109, .std3Mapped, [0x38, 0x2C]⟩,
  ⟨0x1F10A, 0x1F10A, .std3Mapped, [0x39, 0x2C]⟩,
  ⟨0x1F10B, 0x1F10C, .valid, []⟩,
  ⟨0x1F10D, 0x1F10F, .valid, []⟩,
  ⟨0x1F110, 0x1F110, .std3Mapped, [0x28, 0x61, 0x29]⟩,
  ⟨0x1F111, 0x1F111, .std3Mapped, [0x28, 0x62, 0x29]⟩,
  ⟨0x1F112, 0x1F112, .std3Mapped, [0x28, 0x63, 0x29]⟩,
  ⟨0x1F113, 0x1F113, .std3Mapped, [0x28, 0x64, 0x29]⟩,
  ⟨0x1F114, 0x1F114, .std3Mapped, [0x28, 0x65, 0x29]⟩,
  ⟨0x1F115, 0x1F115, .std3Mapped, [0x28, 0x66, 0x29]⟩,
  ⟨0x1F116, 0x1F116, .std3Mapped, [0x28, 0x67, 0x29]⟩,
  ⟨0x1F117, 0x1F117, .std3Mapped, [0x28, 0x68, 0x29]⟩,
  ⟨0x1F118, 0x1F118, .std3Mapped, [0x28, 0x69, 0x29]⟩,
  ⟨0x1F119, 0x1F119, .std3Mapped, [0x28, 0x6A, 0x29]⟩,
  ⟨0x1F11A, 0x1F11A, .std3Mapped, [0x28, 0x6B, 0x29]⟩,
  ⟨0x1F11B, 0x1F11B, .std3Mapped, [0x28, 0x6C, 0x29]⟩,
  ⟨0x1F11C, 0x1F11C, .std3Mapped, [0x28, 0x6D, 0x29]⟩,
  ⟨0x1F11D, 0x1F11D, .std3Mapped, [0x28, 0x6E, 0x29]⟩,
  ⟨0x1F11E, 0x1F11E, .std3Mapped, [0x28, 0x6F, 0x29]⟩,
  ⟨0x1F11F, 0x1F11F, .std3Mapped, [0x28, 0x70, 0x29]⟩,
  ⟨0x1F120, 0x1F120, .std3Mapped, [0x28, 0x71, 0x29]⟩,
  ⟨0x1F121, 0x1F121, .std3Mapped, [0x28, 0x72, 0x29]⟩,
  ⟨0x1F122, 0x1F122, .std3Mapped, [0x28, 0x73, 0x29]⟩,
  ⟨0x1F123, 0x1F123, .std3Mapped, [0x28, 0x74, 0x29]⟩,
  ⟨0x1F124, 0x1F124, .std3Mapped, [0x28, 0x75, 0x29]⟩,
  ⟨0x1F125, 0x1F125, .std3Mapped, [0x28, 0x76, 0x29]⟩,
  ⟨0x1F126, 0x1F126, .std3Mapped, [0x28, 0x77, 0x29]⟩,
  ⟨0x1F127, 0x1F127, .std3Mapped, [0x28, 0x78, 0x29]⟩,
  ⟨0x1F128, 0x1F128, .std3Mapped, [0x28, 0x79, 0x29]⟩,
  ⟨0x1F129, 0x1F129, .std3Mapped, [0x28, 0x7A, 0x29]⟩,
  ⟨0x1F12A, 0x1F12A, .mapped, [0x3014, 0x73, 0x3015]⟩,
  ⟨0x1F12B, 0x1F12B, .mapped, [0x63]⟩,
  ⟨0x1F12C, 0x1F12C, .mapped, [0x72]⟩,
  ⟨0x1F12D, 0x1F12D, .mapped, [0x63, 0x64]⟩,
  ⟨0x1F12E, 0x1F12E, .mapped, [0x77, 0x7A]⟩,
  ⟨0x1F12F, 0x1F12F, .valid, []⟩,
  ⟨0x1F130, 0x1F130, .mapped, [0x61]⟩,
  ⟨0x1F131, 0x1F131, .mapped, [0x62]⟩,
  ⟨0x1F132, 0x1F132, .mapped, [0x63]⟩,
  ⟨0x1F133, 0x1F133, .mapped, [0x64]⟩,
  ⟨0x1F134, 0x1F134, .mapped, [0x65]⟩,
  ⟨0x1F135, 0x1F135, .mapped, [0x66]⟩,
  ⟨0x1F136, 0x1F136, .mapped, [0x67]⟩,
  ⟨0x1F137, 0x1F137, .mapped, [0x68]⟩,
  ⟨0x1F138, 0x1F138, .mapped, [0x69]⟩,
  ⟨0x1F139, 0x1F139, .mapped, [0x6A]⟩,
  ⟨0x1F13A, 0x1F13A, .mapped, [0x6B]⟩,
  ⟨0x1F13B, 0x1F13B, .mapped, [0x6C]⟩,
  ⟨0x1F13C, 0x1F13C, .mapped, [0x6D]⟩,
  ⟨0x1F13D, 0x1F13D, .mapped, [0x6E]⟩,
  ⟨0x1F13E, 0x1F13E, .mapped, [0x6F]⟩,
  ⟨0x1F13F, 0x1F13F, .mapped, [0x70]⟩,
  ⟨0x1F140, 0x1F140, .mapped, [0x71]⟩,
  ⟨0x1F141, 0x1F141, .mapped, [0x72]⟩,
  ⟨0x1F142, 0x1F142, .mapped, [0x73]⟩,
  ⟨0x1F143, 0x1F143, .mapped, [0x74]⟩,
  ⟨0x1F144, 0x1F144, .mapped, [0x75]⟩,
  ⟨0x1F145, 0x1F145, .mapped, [0x76]⟩,
  ⟨0x1F146, 0x1F146, .mapped, [0x77]⟩,
  ⟨0x1F147, 0x1F147, .mapped, [0x78]⟩,
  ⟨0x1F148, 0x1F148, .mapped, [0x79]⟩,
  ⟨0x1F149, 0x1F149, .mapped, [0x7A]⟩,
  ⟨0x1F14A, 0x1F14A, .mapped, [0x68, 0x76]⟩,
  ⟨0x1F14B, 0x1F14B, .mapped, [0x6D, 0x76]⟩,
  ⟨0x1F14C, 0x1F14C, .mapped, [0x73, 0x64]⟩,
  ⟨0x1F14D, 0x1F14D, .mapped, [0x73, 0x73]⟩,
  ⟨0x1F14E, 0x1F14E, .mapped, [0x70, 0x70, 0x76]⟩,
  ⟨0x1F14F, 0x1F14F, .mapped, [0x77, 0x63]⟩,
  ⟨0x1F150, 0x1F156, .valid, []⟩,
  ⟨0x1F157, 0x1F157, .valid, []⟩,
  ⟨0x1F158, 0x1F15E, .valid, []⟩,
  ⟨0x1F15F, 0x1F15F, .valid, []⟩,
  ⟨0x1F160, 0x1F169, .valid, []⟩,
  ⟨0x1F16A, 0x1F16A, .mapped, [0x6D, 0x63]⟩,
  ⟨0x1F16B, 0x1F16B, .mapped, [0x6D, 0x64]⟩,
  ⟨0x1F16C, 0x1F16C, .mapped, [0x6D, 0x72]⟩,
  ⟨0x1F16D, 0x1F16F, .valid, []⟩,
  ⟨0x1F170, 0x1F178, .valid, []⟩,
  ⟨0x1F179, 0x1F179, .valid, []⟩,
  ⟨0x1F17A, 0x1F17A, .valid, []⟩,
  ⟨0x1F17B, 0x1F17C, .valid, []⟩,
  ⟨0x1F17D, 0x1F17E, .valid, []⟩,
  ⟨0x1F17F, 0x1F17F, .valid, []⟩,
  ⟨0x1F180, 0x1F189, .valid, []⟩,
  ⟨0x1F18A, 0x1F18D, .valid, []⟩,
  ⟨0x1F18E, 0x1F18F, .valid, []⟩,
  ⟨0x1F190, 0x1F190, .mapped, [0x64, 0x6A]⟩,
  ⟨0x1F191, 0x1F19A, .valid, []⟩,
  ⟨0x1F19B, 0x1F1AC, .valid, []⟩,
  ⟨0x1F1AD, 0x1F1AD, .valid, []⟩,
  ⟨0x1F1AE, 0x1F1E5, .disallowed, []⟩,
  ⟨0x1F1E6, 0x1F1FF, .valid, []⟩,
  ⟨0x1F200, 0x1F200, .mapped, [0x307B, 0x304B]⟩,
  ⟨0x1F201, 0x1F201, .mapped, [0x30B3, 0x30B3]⟩,
  ⟨0x1F202, 0x1F202, .mapped, [0x30B5]⟩,
  ⟨0x1F203, 0x1F20F, .disallowed, []⟩,
  ⟨0x1F210, 0x1F210, .mapped, [0x624B]⟩,
  ⟨0x1F211, 0x1F211, .mapped, [0x5B57]⟩,
  ⟨0x1F212, 0x1F212, .mapped, [0x53CC]⟩,
  ⟨0x1F213, 0x1F213, .mapped, [0x30C7]⟩,
  ⟨0x1F214, 0x1F214, .mapped, [0x4E8C]⟩,
  ⟨0x1F215, 0x1F215, .mapped, [0x591A]⟩,
  ⟨0x1F216, 0x1F216, .mapped, [0x89E3]⟩,
  ⟨0x1F217, 0x1F217, .mapped, [0x5929]⟩,
  ⟨0x1F218, 0x1F218, .mapped, [0x4EA4]⟩,
  ⟨0x1F219, 0x1F219, .mapped, [0x6620]⟩,
  ⟨0x1F21A, 0x1F21A, .mapped, [0x7121]⟩,
  ⟨0x1F21B, 0x1F21B, .mapped, [0x6599]⟩,
  ⟨0x1F21C, 0x1F21C, .mapped, [0x524D]⟩,
  ⟨0x1F21D, 0x1F21D, .mapped, [0x5F8C]⟩,
  ⟨0x1F21E, 0x1F21E, .mapped, [0x518D]⟩,
  ⟨0x1F21F, 0x1F21F, .mapped, [0x65B0]⟩,
  ⟨0x1F220, 0x1F220, .mapped, [0x521D]⟩,
  ⟨0x1F221, 0x1F221, .mapped, [0x7D42]⟩,
  ⟨0x1F222, 0x1F222, .mapped, [0x751F]⟩,
  ⟨0x1F223, 0x1F223, .mapped, [0x8CA9]⟩,
  ⟨0x1F224, 0x1F224, .mapped, [0x58F0]⟩,
  ⟨0x1F225, 0x1F225, .mapped, [0x5439]⟩,
  ⟨0x1F226, 0x1F226, .mapped, [0x6F14]⟩,
  ⟨0x1F227, 0x1F227, .mapped, [0x6295]⟩,
  ⟨0x1F228, 0x1F228, .mapped, [0x6355]⟩,
  ⟨0x1F229, 0x1F229, .mapped, [0x4E00]⟩,
  ⟨0x1F22A, 0x1F22A, .mapped, [0x4E09]⟩,
  ⟨0x1F22B, 0x1F22B, .mapped, [0x904A]⟩,
  ⟨0x1F22C, 0x1F22C, .mapped, [0x5DE6]⟩,
  ⟨0x1F22D, 0x1F22D, .mapped, [0x4E2D]⟩,
  ⟨0x1F22E, 0x1F22E, .mapped, [0x53F3]⟩,
  ⟨0x1F22F, 0x1F22F, .mapped, [0x6307]⟩,
  ⟨0x1F230, 0x1F230, .mapped, [0x8D70]⟩,
  ⟨0x1F231, 0x1F231, .mapped, [0x6253]⟩,
  ⟨0x1F232, 0x1F232, .mapped, [0x7981]⟩,
  ⟨0x1F233, 0x1F233, .mapped, [0x7A7A]⟩,
  ⟨0x1F234, 0x1F234, .mapped, [0x5408]⟩,
  ⟨0x1F235, 0x1F235, .mapped, [0x6E80]⟩,
  ⟨0x1F236, 0x1F236, .mapped, [0x6709]⟩,
  ⟨0x1F237, 0x1F237, .mapped, [0x6708]⟩,
  ⟨0x1F238, 0x1F238, .mapped, [0x7533]⟩,
  ⟨0x1F239, 0x1F239, .mapped, [0x5272]⟩,
  ⟨0x1F23A, 0x1F23A, .mapped, [0x55B6]⟩,
  ⟨0x1F23B, 0x1F23B, .mapped, [0x914D]⟩,
  ⟨0x1F23C, 0x1F23F, .disallowed, []⟩,
  ⟨0x1F240, 0x1F240, .mapped, [0x3014, 0x672C, 0x3015]⟩,
  ⟨0x1F241, 0x1F241, .mapped, [0x3014, 0x4E09, 0x3015]⟩,
  ⟨0x1F242, 0x1F242, .mapped, [0x3014, 0x4E8C, 0x3015]⟩,
  ⟨0x1F243, 0x1F243, .mapped, [0x3014, 0x5B89, 0x3015]⟩,
  ⟨0x1F244, 0x1F244, .mapped, [0x3014, 0x70B9, 0x3015]⟩,
  ⟨0x1F245, 0x1F245, .mapped, [0x3014, 0x6253, 0x3015]⟩,
  ⟨0x1F246, 0x1F246, .mapped, [0x3014, 0x76D7, 0x3015]⟩,
  ⟨0x1F247, 0x1F247, .mapped, [0x3014, 0x52DD, 0x3015]⟩,
  ⟨0x1F248, 0x1F248, .mapped, [0x3014, 0x6557, 0x3015]⟩,
  ⟨0x1F249, 0x1F24F, .disallowed, []⟩,
  ⟨0x1F250, 0x1F250, .mapped, [0x5F97]⟩,
  ⟨0x1F251, 0x1F251, .mapped, [0x53EF]⟩,
  ⟨0x1F252, 0x1F25F, .disallowed, []⟩,
  ⟨0x1F260, 0x1F265, .valid, []⟩,
  ⟨0x1F266, 0x1F2FF, .disallowed, []⟩,
  ⟨0x1F300, 0x1F320, .valid, []⟩,
  ⟨0x1F321, 0x1F32C, .valid, []⟩,
  ⟨0x1F32D, 0x1F32F, .valid, []⟩,
  ⟨0x1F330, 0x1F335, .valid, []⟩,
  ⟨0x1F336, 0x1F336, .valid, []⟩,
  ⟨0x1F337, 0x1F37C, .valid, []⟩,
  ⟨0x1F37D, 0x1F37D, .valid, []⟩,
  ⟨0x1F37E, 0x1F37F, .valid, []⟩,
  ⟨0x1F380, 0x1F393, .valid, []⟩,
  ⟨0x1F394, 0x1F39F, .valid, []⟩,
  ⟨0x1F3A0, 0x1F3C4, .valid, []⟩,
  ⟨0x1F3C5, 0x1F3C5, .valid, []⟩,
  ⟨0x1F3C6, 0x1F3CA, .valid, []⟩,
  ⟨0x1F3CB, 0x1F3CE, .valid, []⟩,
  ⟨0x1F3CF, 0x1F3D3, .valid, []⟩,
  ⟨0x1F3D4, 0x1F3DF, .valid, []⟩,
  ⟨0x1F3E0, 0x1F3F0, .valid, []⟩,
  ⟨0x1F3F1, 0x1F3F7, .valid, []⟩,
  ⟨0x1F3F8, 0x1F3FF, .valid, []⟩,
  ⟨0x1F400, 0x1F43E, .valid, []⟩,
  ⟨0x1F43F, 0x1F43F, .valid, []⟩,
  ⟨0x1F440, 0x1F440, .valid, []⟩,
  ⟨0x1F441, 0x1F441, .valid, []⟩,
  ⟨0x1F442, 0x1F4F7, .valid, []⟩,
  ⟨0x1F4F8, 0x1F4F8, .valid, []⟩,
  ⟨0x1F4F9, 0x1F4FC, .valid, []⟩,
  ⟨0x1F4FD, 0x1F4FE, .valid, []⟩,
  ⟨0x1F4FF, 0x1F4FF, .valid, []⟩,
  ⟨0x1F500, 0x1F53D, .valid, []⟩,
  ⟨0x1F53E, 0x1F53F, .valid, []⟩,
  ⟨0x1F540, 0x1F543, .valid, []⟩,
  ⟨0x1F544, 0x1F54A, .valid, []⟩,
  ⟨0x1F54B, 0x1F54F, .valid, []⟩,
  ⟨0x1F550, 0x1F567, .valid, []⟩,
  ⟨0x1F568, 0x1F579, .valid, []⟩,
  ⟨0x1F57A, 0x1F57A, .valid, []⟩,
  ⟨0x1F57B, 0x1F5A3, .valid, []⟩,
  ⟨0x1F5A4, 0x1F5A4, .valid, []⟩,
  ⟨0x1F5A5, 0x1F5FA, .valid, []⟩]

def map32 : List MapRow := [
  ⟨0x1F5FB, 0x1F5FF, .valid, []⟩,
  ⟨0x1F600, 0x1F600, .valid, []⟩,
  ⟨0x1F601, 0x1F610, .valid, []⟩,
  ⟨0x1F611, 0x1F611, .valid, []⟩,
  ⟨0x1F612, 0x1F614, .valid, []⟩,
  ⟨0x1F615, 0x1F615, .valid, []⟩,
  ⟨0x1F616, 0x1F616, .valid, []⟩,
  ⟨0x1F617, 0x1F617, .valid, []⟩,
  ⟨0x1F618, 0x1F618, .valid, []⟩,
  ⟨0x1F619, 0x1F619, .valid, []⟩,
  ⟨0x1F61A, 0x1F61A, .valid, []⟩,
  ⟨0x1F61B, 0x1F61B, .valid, []⟩,
  ⟨0x1F61C, 0x1F61E, .valid, []⟩,
  ⟨0x1F61F, 0x1F61F, .valid, []⟩,
  ⟨0x1F620, 0x1F625, .valid, []⟩,
  ⟨0x1F626, 0x1F627, .valid, []⟩,
  ⟨0x1F628, 0x1F62B, .valid, []⟩,
  ⟨0x1F62C, 0x1F62C, .valid, []⟩,
  ⟨0x1F62D, 0x1F62D, .valid, []⟩,
  ⟨0x1F62E, 0x1F62F, .valid, []⟩,
  ⟨0x1F630, 0x1F633, .valid, []⟩,
  ⟨0x1F634, 0x1F634, .valid, []⟩,
  ⟨0x1F635, 0x1F640, .valid, []⟩,
  ⟨0x1F641, 0x1F642, .valid, []⟩,
  ⟨0x1F643, 0x1F644, .valid, []⟩,
  ⟨0x1F645, 0x1F64F, .valid, []⟩,
  ⟨0x1F650, 0x1F67F, .valid, []⟩,
  ⟨0x1F680, 0x1F6C5, .valid, []⟩,
  ⟨0x1F6C6, 0x1F6CF, .valid, []⟩,
  ⟨0x1F6D0, 0x1F6D0, .valid, []⟩,
  ⟨0x1F6D1, 0x1F6D2, .valid, []⟩,
  ⟨0x1F6D3, 0x1F6D4, .valid, []⟩,
  ⟨0x1F6D5, 0x1F6D5, .valid, []⟩,
  ⟨0x1F6D6, 0x1F6D7, .valid, []⟩,
  ⟨0x1F6D8, 0x1F6DF, .disallowed, []⟩,
  ⟨0x1F6E0, 0x1F6EC, .valid, []⟩,
  ⟨0x1F6ED, 0x1F6EF, .disallowed, []⟩,
  ⟨0x1F6F0, 0x1F6F3, .valid, []⟩,
  ⟨0x1F6F4, 0x1F6F6, .valid, []⟩,
  ⟨0x1F6F7, 0x1F6F8, .valid, []⟩,
  ⟨0x1F6F9, 0x1F6F9, .valid, []⟩,
  ⟨0x1F6FA, 0x1F6FA, .valid, []⟩,
  ⟨0x1F6FB, 0x1F6FC, .valid, []⟩,
  ⟨0x1F6FD, 0x1F6FF, .disallowed, []⟩,
  ⟨0x1F700, 0x1F773, .valid, []⟩,
  ⟨0x1F774, 0x1F77F, .disallowed, []⟩,
  ⟨0x1F780, 0x1F7D4, .valid, []⟩,
  ⟨0x1F7D5, 0x1F7D8, .valid, []⟩,
  ⟨0x1F7D9, 0x1F7DF, .disallowed, []⟩,
  ⟨0x1F7E0, 0x1F7EB, .valid, []⟩,
  ⟨0x1F7EC, 0x1F7FF, .disallowed, []⟩,
  ⟨0x1F800, 0x1F80B, .valid, []⟩,
  ⟨0x1F80C, 0x1F80F, .disallowed, []⟩,
  ⟨0x1F810, 0x1F847, .valid, []⟩,
  ⟨0x1F848, 0x1F84F, .disallowed, []⟩,
  ⟨0x1F850, 0x1F859, .valid, []⟩,
  ⟨0x1F85A, 0x1F85F, .disallowed, []⟩,
  ⟨0x1F860, 0x1F887, .valid, []⟩,
  ⟨0x1F888, 0x1F88F, .disallowed, []⟩,
  ⟨0x1F890, 0x1F8AD, .valid, []⟩,
  ⟨0x1F8AE, 0x1F8AF, .disallowed, []⟩,
  ⟨0x1F8B0, 0x1F8B1, .valid, []⟩,
  ⟨0x1F8B2, 0x1F8FF, .disallowed, []⟩,
  ⟨0x1F900, 0x1F90B, .valid, []⟩,
  ⟨0x1F90C, 0x1F90C, .valid, []⟩,
  ⟨0x1F90D, 0x1F90F, .valid, []⟩,
  ⟨0x1F910, 0x1F918, .valid, []⟩,
  ⟨0x1F919, 0x1F91E, .valid, []⟩,
  ⟨0x1F91F, 0x1F91F, .valid, []⟩,
  ⟨0x1F920, 0x1F927, .valid, []⟩,
  ⟨0x1F928, 0x1F92F, .valid, []⟩,
  ⟨0x1F930, 0x1F930, .valid, []⟩,
  ⟨0x1F931, 0x1F932, .valid, []⟩,
  ⟨0x1F933, 0x1F93E, .valid, []⟩,
  ⟨0x1F93F, 0x1F93F, .valid, []⟩,
  ⟨0x1F940, 0x1F94B, .valid, []⟩,
  ⟨0x1F94C, 0x1F94C, .valid, []⟩,
  ⟨0x1F94D, 0x1F94F, .valid, []⟩,
  ⟨0x1F950, 0x1F95E, .valid, []⟩,
  ⟨0x1F95F, 0x1F96B, .valid, []⟩,
  ⟨0x1F96C, 0x1F970, .valid, []⟩,
  ⟨0x1F971, 0x1F971, .valid, []⟩,
  ⟨0x1F972, 0x1F972, .valid, []⟩,
  ⟨0x1F973, 0x1F976, .valid, []⟩,
  ⟨0x1F977, 0x1F978, .valid, []⟩,
  ⟨0x1F979, 0x1F979, .disallowed, []⟩,
  ⟨0x1F97A, 0x1F97A, .valid, []⟩,
  ⟨0x1F97B, 0x1F97B, .valid, []⟩,
  ⟨0x1F97C, 0x1F97F, .valid, []⟩,
  ⟨0x1F980, 0x1F984, .valid, []⟩,
  ⟨0x1F985, 0x1F991, .valid, []⟩,
  ⟨0x1F992, 0x1F997, .valid, []⟩,
  ⟨0x1F998, 0x1F9A2, .valid, []⟩,
  ⟨0x1F9A3, 0x1F9A4, .valid, []⟩,
  ⟨0x1F9A5, 0x1F9AA, .valid, []⟩,
  ⟨0x1F9AB, 0x1F9AD, .valid, []⟩,
  ⟨0x1F9AE, 0x1F9AF, .valid, []⟩,
  ⟨0x1F9B0, 0x1F9B9, .valid, []⟩,
  ⟨0x1F9BA, 0x1F9BF, .valid, []⟩,
  ⟨0x1F9C0, 0x1F9C0, .valid, []⟩,
  ⟨0x1F9C1, 0x1F9C2, .valid, []⟩,
  ⟨0x1F9C3, 0x1F9CA, .valid, []⟩,
  ⟨0x1F9CB, 0x1F9CB, .valid, []⟩,
  ⟨0x1F9CC, 0x1F9CC, .disallowed, []⟩,
  ⟨0x1F9CD, 0x1F9CF, .valid, []⟩,
  ⟨0x1F9D0, 0x1F9E6, .valid, []⟩,
  ⟨0x1F9E7, 0x1F9FF, .valid, []⟩,
  ⟨0x1FA00, 0x1FA53, .valid, []⟩,
  ⟨0x1FA54, 0x1FA5F, .disallowed, []⟩,
  ⟨0x1FA60, 0x1FA6D, .valid, []⟩,
  ⟨0x1FA6E, 0x1FA6F, .disallowed, []⟩,
  ⟨0x1FA70, 0x1FA73, .valid, []⟩,
  ⟨0x1FA74, 0x1FA74, .valid, []⟩,
  ⟨0x1FA75, 0x1FA77, .disallowed, []⟩,
  ⟨0x1FA78, 0x1FA7A, .valid, []⟩,
  ⟨0x1FA7B, 0x1FA7F, .disallowed, []⟩,
  ⟨0x1FA80, 0x1FA82, .valid, []⟩,
  ⟨0x1FA83, 0x1FA86, .valid, []⟩,
  ⟨0x1FA87, 0x1FA8F, .disallowed, []⟩,
  ⟨0x1FA90, 0x1FA95, .valid, []⟩,
  ⟨0x1FA96, 0x1FAA8, .valid, []⟩,
  ⟨0x1FAA9, 0x1FAAF, .disallowed, []⟩,
  ⟨0x1FAB0, 0x1FAB6, .valid, []⟩,
  ⟨0x1FAB7, 0x1FABF, .disallowed, []⟩,
  ⟨0x1FAC0, 0x1FAC2, .valid, []⟩,
  ⟨0x1FAC3, 0x1FACF, .disallowed, []⟩,
  ⟨0x1FAD0, 0x1FAD6, .valid, []⟩,
  ⟨0x1FAD7, 0x1FAFF, .disallowed, []⟩,
  ⟨0x1FB00, 0x1FB92, .valid, []⟩,
  ⟨0x1FB93, 0x1FB93, .disallowed, []⟩,
  ⟨0x1FB94, 0x1FBCA, .valid, []⟩,
  ⟨0x1FBCB, 0x1FBEF, .disallowed, []⟩,
  ⟨0x1FBF0, 0x1FBF0, .mapped, [0x30]⟩,
  ⟨0x1FBF1, 0x1FBF1, .mapped, [0x31]⟩,
  ⟨0x1FBF2, 0x1FBF2, .mapped, [0x32]⟩,
  ⟨0x1FBF3, 0x1FBF3, .mapped, [0x33]⟩,
  ⟨0x1FBF4, 0x1FBF4, .mapped, [0x34]⟩,
  ⟨0x1FBF5, 0x1FBF5, .mapped, [0x35]⟩,
  ⟨0x1FBF6, 0x1FBF6, .mapped, [0x36]⟩,
  ⟨0x1FBF7, 0x1FBF7, .mapped, [0x37]⟩,
  ⟨0x1FBF8, 0x1FBF8, .mapped, [0x38]⟩,
  ⟨0x1FBF9, 0x1FBF9, .mapped, [0x39]⟩,
  ⟨0x1FBFA, 0x1FFFD, .disallowed, []⟩,
  ⟨0x1FFFE, 0x1FFFF, .disallowed, []⟩,
  ⟨0x20000, 0x2A6D6, .valid, []⟩,
  ⟨0x2A6D7, 0x2A6DD, .valid, []⟩,
  ⟨0x2A6DE, 0x2A6FF, .disallowed, []⟩,
  ⟨0x2A700, 0x2B734, .valid, []⟩,
  ⟨0x2B735, 0x2B73F, .disallowed, []⟩,
  ⟨0x2B740, 0x2B81D, .valid, []⟩,
  ⟨0x2B81E, 0x2B81F, .disallowed, []⟩,
  ⟨0x2B820, 0x2CEA1, .valid, []⟩,
  ⟨0x2CEA2, 0x2CEAF, .disallowed, []⟩,
  ⟨0x2CEB0, 0x2EBE0, .valid, []⟩,
  ⟨0x2EBE1, 0x2F7FF, .disallowed, []⟩,
  ⟨0x2F800, 0x2F800, .mapped, [0x4E3D]⟩,
  ⟨0x2F801, 0x2F801, .mapped, [0x4E38]⟩,
  ⟨0x2F802, 0x2F802, .mapped, [0x4E41]⟩,
  ⟨0x2F803, 0x2F803, .mapped, [0x20122]⟩,
  ⟨0x2F804, 0x2F804, .mapped, [0x4F60]⟩,
  ⟨0x2F805, 0x2F805, .mapped, [0x4FAE]⟩,
  ⟨0x2F806, 0x2F806, .mapped, [0x4FBB]⟩,
  ⟨0x2F807, 0x2F807, .mapped, [0x5002]⟩,
  ⟨0x2F808, 0x2F808, .mapped, [0x507A]⟩,
  ⟨0x2F809, 0x2F809, .mapped, [0x5099]⟩,
  ⟨0x2F80A, 0x2F80A, .mapped, [0x50E7]⟩,
  ⟨0x2F80B, 0x2F80B, .mapped, [0x50CF]⟩,
  ⟨0x2F80C, 0x2F80C, .mapped, [0x349E]⟩,
  ⟨0x2F80D, 0x2F80D, .mapped, [0x2063A]⟩,
  ⟨0x2F80E, 0x2F80E, .mapped, [0x514D]⟩,
  ⟨0x2F80F, 0x2F80F, .mapped, [0x5154]⟩,
  ⟨0x2F810, 0x2F810, .mapped, [0x5164]⟩,
  ⟨0x2F811, 0x2F811, .mapped, [0x5177]⟩,
  ⟨0x2F812, 0x2F812, .mapped, [0x2051C]⟩,
  ⟨0x2F813, 0x2F813, .mapped, [0x34B9]⟩,
  ⟨0x2F814, 0x2F814, .mapped, [0x5167]⟩,
  ⟨0x2F815, 0x2F815, .mapped, [0x518D]⟩,
  ⟨0x2F816, 0x2F816, .mapped, [0x2054B]⟩,
  ⟨0x2F817, 0x2F817, .mapped, [0x5197]⟩,
  ⟨0x2F818, 0x2F818, .mapped, [0x51A4]⟩,
  ⟨0x2F819, 0x2F819, .mapped, [0x4ECC]⟩,
  ⟨0x2F81A, 0x2F81A, .mapped, [0x51AC]⟩,
  ⟨0x2F81B, 0x2F81B, .mapped, [0x51B5]⟩,
  ⟨0x2F81C, 0x2F81C, .mapped, [0x291DF]⟩,
  ⟨0x2F81D, 0x2F81D, .mapped, [0x51F5]⟩,
  ⟨0x2F81E, 0x2F81E, .mapped, [0x5203]⟩,
  ⟨0x2F81F, 0x2F81F, .mapped, [0x34DF]⟩,
  ⟨0x2F820, 0x2F820, .mapped, [0x523B]⟩,
  ⟨0x2F821, 0x2F821, .mapped, [0x5246]⟩,
  ⟨0x2F822, 0x2F822, .mapped, [0x5272]⟩,
  ⟨0x2F823, 0x2F823, .mapped, [0x5277]⟩,
  ⟨0x2F824, 0x2F824, .mapped, [0x3515]⟩,
  ⟨0x2F825, 0x2F825, .mapped, [0x52C7]⟩,
  ⟨0x2F826, 0x2F826, .mapped, [0x52C9]⟩,
  ⟨0x2F827, 0x2F827, .mapped, [0x52E4]⟩,
  ⟨0x2F828, 0x2F828, .mapped, [0x52FA]⟩,
  ⟨0x2F829, 0x2F829, .mapped, [0x5305]⟩,
  ⟨0x2F82A, 0x2F82A, .mapped, [0x5306]⟩,
  ⟨0x2F82B, 0x2F82B, .mapped, [0x5317]⟩,
  ⟨0x2F82C, 0x2F82C, .mapped, [0x5349]⟩,
  ⟨0x2F82D, 0x2F82D, .mapped, [0x5351]⟩,
  ⟨0x2F82E, 0x2F82E, .mapped, [0x535A]⟩,
  ⟨0x2F82F, 0x2F82F, .mapped, [0x5373]⟩,
  ⟨0x2F830, 0x2F830, .mapped, [0x537D]⟩,
  ⟨0x2F831, 0x2F833, .mapped, [0x537F]⟩,
  ⟨0x2F834, 0x2F834, .mapped, [0x20A2C]⟩,
  ⟨0x2F835, 0x2F835, .mapped, [0x7070]⟩,
  ⟨0x2F836, 0x2F836, .mapped, [0x53CA]⟩,
  ⟨0x2F837, 0x2F837, .mapped, [0x53DF]⟩,
  ⟨0x2F838, 0x2F838, .mapped, [0x20B63]⟩,
  ⟨0x2F839, 0x2F839, .mapped, [0x53EB]⟩,
  ⟨0x2F83A, 0x2F83A, .mapped, [0x53F1]⟩,
  ⟨0x2F83B, 0x2F83B, .mapped, [0x5406]⟩,
  ⟨0x2F83C, 0x2F83C, .mapped, [0x549E]⟩,
  ⟨0x2F83D, 0x2F83D, .mapped, [0x5438]⟩,
  ⟨0x2F83E, 0x2F83E, .mapped, [0x5448]⟩,
  ⟨0x2F83F, 0x2F83F, .mapped, [0x5468]⟩,
  ⟨0x2F840, 0x2F840, .mapped, [0x54A2]⟩,
  ⟨0x2F841, 0x2F841, .mapped, [0x54F6]⟩,
  ⟨0x2F842, 0x2F842, .mapped, [0x5510]⟩,
  ⟨0x2F843, 0x2F843, .mapped, [0x5553]⟩,
  ⟨0x2F844, 0x2F844, .mapped, [0x5563]⟩,
  ⟨0x2F845, 0x2F846, .mapped, [0x5584]⟩,
  ⟨0x2F847, 0x2F847, .mapped, [0x5599]⟩,
  ⟨0x2F848, 0x2F848, .mapped, [0x55AB]⟩,
  ⟨0x2F849, 0x2F849, .mapped, [0x55B3]⟩,
  ⟨0x2F84A, 0x2F84A, .mapped, [0x55C2]⟩,
  ⟨0x2F84B, 0x2F84B, .mapped, [0x5716]⟩,
  ⟨0x2F84C, 0x2F84C, .mapped, [0x5606]⟩,
  ⟨0x2F84D, 0x2F84D, .mapped, [0x5717]⟩,
  ⟨0x2F84E, 0x2F84E, .mapped, [0x5651]⟩,
  ⟨0x2F84F, 0x2F84F, .mapped, [0x5674]⟩,
  ⟨0x2F850, 0x2F850, .mapped, [0x5207]⟩,
  ⟨0x2F851, 0x2F851, .mapped, [0x58EE]⟩,
  ⟨0x2F852, 0x2F852, .mapped, [0x57CE]⟩,
  ⟨0x2F853, 0x2F853, .mapped, [0x57F4]⟩,
  ⟨0x2F854, 0x2F854, .mapped, [0x580D]⟩,
  ⟨0x2F855, 0x2F855, .mapped, [0x578B]⟩,
  ⟨0x2F856, 0x2F856, .mapped, [0x5832]⟩,
  ⟨0x2F857, 0x2F857, .mapped, [0x5831]⟩,
  ⟨0x2F858, 0x2F858, .mapped, [0x58AC]⟩,
  ⟨0x2F859, 0x2F859, .mapped, [0x214E4]⟩,
  ⟨0x2F85A, 0x2F85A, .mapped, [0x58F2]⟩,
  ⟨0x2F85B, 0x2F85B, .mapped, [0x58F7]⟩,
  ⟨0x2F85C, 0x2F85C, .mapped, [0x5906]⟩,
  ⟨0x2F85D, 0x2F85D, .mapped, [0x591A]⟩,
  ⟨0x2F85E, 0x2F85E, .mapped, [0x5922]⟩,
  ⟨0x2F85F, 0x2F85F, .mapped, [0x5962]⟩,
  ⟨0x2F860, 0x2F860, .mapped, [0x216A8]⟩,
  ⟨0x2F861, 0x2F861, .mapped, [0x216EA]⟩]

def map33 : List MapRow := [
  ⟨0x2F862, 0x2F862, .mapped, [0x59EC]⟩,
  ⟨0x2F863, 0x2F863, .mapped, [0x5A1B]⟩,
  ⟨0x2F864, 0x2F864, .mapped, [0x5A27]⟩,
  ⟨0x2F865, 0x2F865, .mapped, [0x59D8]⟩,
  ⟨0x2F866, 0x2F866, .mapped, [0x5A66]⟩,
  ⟨0x2F867, 0x2F867, .mapped, [0x36EE]⟩,
  ⟨0x2F868, 0x2F868, .disallowed, []⟩,
  ⟨0x2F869, 0x2F869, .mapped, [0x5B08]⟩,
  ⟨0x2F86A, 0x2F86B, .mapped, [0x5B3E]⟩,
  ⟨0x2F86C, 0x2F86C, .mapped, [0x219C8]⟩,
  ⟨0x2F86D, 0x2F86D, .mapped, [0x5BC3]⟩,
  ⟨0x2F86E, 0x2F86E, .mapped, [0x5BD8]⟩,
  ⟨0x2F86F, 0x2F86F, .mapped, [0x5BE7]⟩,
  ⟨0x2F870, 0x2F870, .mapped, [0x5BF3]⟩,
  ⟨0x2F871, 0x2F871, .mapped, [0x21B18]⟩,
  ⟨0x2F872, 0x2F872, .mapped, [0x5BFF]⟩,
  ⟨0x2F873, 0x2F873, .mapped, [0x5C06]⟩,
  ⟨0x2F874, 0x2F874, .disallowed, []⟩,
  ⟨0x2F875, 0x2F875, .mapped, [0x5C22]⟩,
  ⟨0x2F876, 0x2F876, .mapped, [0x3781]⟩,
  ⟨0x2F877, 0x2F877, .mapped, [0x5C60]⟩,
  ⟨0x2F878, 0x2F878, .mapped, [0x5C6E]⟩,
  ⟨0x2F879, 0x2F879, .mapped, [0x5CC0]⟩,
  ⟨0x2F87A, 0x2F87A, .mapped, [0x5C8D]⟩,
  ⟨0x2F87B, 0x2F87B, .mapped, [0x21DE4]⟩,
  ⟨0x2F87C, 0x2F87C, .mapped, [0x5D43]⟩,
  ⟨0x2F87D, 0x2F87D, .mapped, [0x21DE6]⟩,
  ⟨0x2F87E, 0x2F87E, .mapped, [0x5D6E]⟩,
  ⟨0x2F87F, 0x2F87F, .mapped, [0x5D6B]⟩,
  ⟨0x2F880, 0x2F880, .mapped, [0x5D7C]⟩,
  ⟨0x2F881, 0x2F881, .mapped, [0x5DE1]⟩,
  ⟨0x2F882, 0x2F882, .mapped, [0x5DE2]⟩,
  ⟨0x2F883, 0x2F883, .mapped, [0x382F]⟩,
  ⟨0x2F884, 0x2F884, .mapped, [0x5DFD]⟩,
  ⟨0x2F885, 0x2F885, .mapped, [0x5E28]⟩,
  ⟨0x2F886, 0x2F886, .mapped, [0x5E3D]⟩,
  ⟨0x2F887, 0x2F887, .mapped, [0x5E69]⟩,
  ⟨0x2F888, 0x2F888, .mapped, [0x3862]⟩,
  ⟨0x2F889, 0x2F889, .mapped, [0x22183]⟩,
  ⟨0x2F88A, 0x2F88A, .mapped, [0x387C]⟩,
  ⟨0x2F88B, 0x2F88B, .mapped, [0x5EB0]⟩,
  ⟨0x2F88C, 0x2F88C, .mapped, [0x5EB3]⟩,
  ⟨0x2F88D, 0x2F88D, .mapped, [0x5EB6]⟩,
  ⟨0x2F88E, 0x2F88E, .mapped, [0x5ECA]⟩,
  ⟨0x2F88F, 0x2F88F, .mapped, [0x2A392]⟩,
  ⟨0x2F890, 0x2F890, .mapped, [0x5EFE]⟩,
  ⟨0x2F891, 0x2F892, .mapped, [0x22331]⟩,
  ⟨0x2F893, 0x2F893, .mapped, [0x8201]⟩,
  ⟨0x2F894, 0x2F895, .mapped, [0x5F22]⟩,
  ⟨0x2F896, 0x2F896, .mapped, [0x38C7]⟩,
  ⟨0x2F897, 0x2F897, .mapped, [0x232B8]⟩,
  ⟨0x2F898, 0x2F898, .mapped, [0x261DA]⟩,
  ⟨0x2F899, 0x2F899, .mapped, [0x5F62]⟩,
  ⟨0x2F89A, 0x2F89A, .mapped, [0x5F6B]⟩,
  ⟨0x2F89B, 0x2F89B, .mapped, [0x38E3]⟩,
  ⟨0x2F89C, 0x2F89C, .mapped, [0x5F9A]⟩,
  ⟨0x2F89D, 0x2F89D, .mapped, [0x5FCD]⟩,
  ⟨0x2F89E, 0x2F89E, .mapped, [0x5FD7]⟩,
  ⟨0x2F89F, 0x2F89F, .mapped, [0x5FF9]⟩,
  ⟨0x2F8A0, 0x2F8A0, .mapped, [0x6081]⟩,
  ⟨0x2F8A1, 0x2F8A1, .mapped, [0x393A]⟩,
  ⟨0x2F8A2, 0x2F8A2, .mapped, [0x391C]⟩,
  ⟨0x2F8A3, 0x2F8A3, .mapped, [0x6094]⟩,
  ⟨0x2F8A4, 0x2F8A4, .mapped, [0x226D4]⟩,
  ⟨0x2F8A5, 0x2F8A5, .mapped, [0x60C7]⟩,
  ⟨0x2F8A6, 0x2F8A6, .mapped, [0x6148]⟩,
  ⟨0x2F8A7, 0x2F8A7, .mapped, [0x614C]⟩,
  ⟨0x2F8A8, 0x2F8A8, .mapped, [0x614E]⟩,
  ⟨0x2F8A9, 0x2F8A9, .mapped, [0x614C]⟩,
  ⟨0x2F8AA, 0x2F8AA, .mapped, [0x617A]⟩,
  ⟨0x2F8AB, 0x2F8AB, .mapped, [0x618E]⟩,
  ⟨0x2F8AC, 0x2F8AC, .mapped, [0x61B2]⟩,
  ⟨0x2F8AD, 0x2F8AD, .mapped, [0x61A4]⟩,
  ⟨0x2F8AE, 0x2F8AE, .mapped, [0x61AF]⟩,
  ⟨0x2F8AF, 0x2F8AF, .mapped, [0x61DE]⟩,
  ⟨0x2F8B0, 0x2F8B0, .mapped, [0x61F2]⟩,
  ⟨0x2F8B1, 0x2F8B1, .mapped, [0x61F6]⟩,
  ⟨0x2F8B2, 0x2F8B2, .mapped, [0x6210]⟩,
  ⟨0x2F8B3, 0x2F8B3, .mapped, [0x621B]⟩,
  ⟨0x2F8B4, 0x2F8B4, .mapped, [0x625D]⟩,
  ⟨0x2F8B5, 0x2F8B5, .mapped, [0x62B1]⟩,
  ⟨0x2F8B6, 0x2F8B6, .mapped, [0x62D4]⟩,
  ⟨0x2F8B7, 0x2F8B7, .mapped, [0x6350]⟩,
  ⟨0x2F8B8, 0x2F8B8, .mapped, [0x22B0C]⟩,
  ⟨0x2F8B9, 0x2F8B9, .mapped, [0x633D]⟩,
  ⟨0x2F8BA, 0x2F8BA, .mapped, [0x62FC]⟩,
  ⟨0x2F8BB, 0x2F8BB, .mapped, [0x6368]⟩,
  ⟨0x2F8BC, 0x2F8BC, .mapped, [0x6383]⟩,
  ⟨0x2F8BD, 0x2F8BD, .mapped, [0x63E4]⟩,
  ⟨0x2F8BE, 0x2F8BE, .mapped, [0x22BF1]⟩,
  ⟨0x2F8BF, 0x2F8BF, .mapped, [0x6422]⟩,
  ⟨0x2F8C0, 0x2F8C0, .mapped, [0x63C5]⟩,
  ⟨0x2F8C1, 0x2F8C1, .mapped, [0x63A9]⟩,
  ⟨0x2F8C2, 0x2F8C2, .mapped, [0x3A2E]⟩,
  ⟨0x2F8C3, 0x2F8C3, .mapped, [0x6469]⟩,
  ⟨0x2F8C4, 0x2F8C4, .mapped, [0x647E]⟩,
  ⟨0x2F8C5, 0x2F8C5, .mapped, [0x649D]⟩,
  ⟨0x2F8C6, 0x2F8C6, .mapped, [0x6477]⟩,
  ⟨0x2F8C7, 0x2F8C7, .mapped, [0x3A6C]⟩,
  ⟨0x2F8C8, 0x2F8C8, .mapped, [0x654F]⟩,
  ⟨0x2F8C9, 0x2F8C9, .mapped, [0x656C]⟩,
  ⟨0x2F8CA, 0x2F8CA, .mapped, [0x2300A]⟩,
  ⟨0x2F8CB, 0x2F8CB, .mapped, [0x65E3]⟩,
  ⟨0x2F8CC, 0x2F8CC, .mapped, [0x66F8]⟩,
  ⟨0x2F8CD, 0x2F8CD, .mapped, [0x6649]⟩,
  ⟨0x2F8CE, 0x2F8CE, .mapped, [0x3B19]⟩,
  ⟨0x2F8CF, 0x2F8CF, .mapped, [0x6691]⟩,
  ⟨0x2F8D0, 0x2F8D0, .mapped, [0x3B08]⟩,
  ⟨0x2F8D1, 0x2F8D1, .mapped, [0x3AE4]⟩,
  ⟨0x2F8D2, 0x2F8D2, .mapped, [0x5192]⟩,
  ⟨0x2F8D3, 0x2F8D3, .mapped, [0x5195]⟩,
  ⟨0x2F8D4, 0x2F8D4, .mapped, [0x6700]⟩,
  ⟨0x2F8D5, 0x2F8D5, .mapped, [0x669C]⟩,
  ⟨0x2F8D6, 0x2F8D6, .mapped, [0x80AD]⟩,
  ⟨0x2F8D7, 0x2F8D7, .mapped, [0x43D9]⟩,
  ⟨0x2F8D8, 0x2F8D8, .mapped, [0x6717]⟩,
  ⟨0x2F8D9, 0x2F8D9, .mapped, [0x671B]⟩,
  ⟨0x2F8DA, 0x2F8DA, .mapped, [0x6721]⟩,
  ⟨0x2F8DB, 0x2F8DB, .mapped, [0x675E]⟩,
  ⟨0x2F8DC, 0x2F8DC, .mapped, [0x6753]⟩,
  ⟨0x2F8DD, 0x2F8DD, .mapped, [0x233C3]⟩,
  ⟨0x2F8DE, 0x2F8DE, .mapped, [0x3B49]⟩,
  ⟨0x2F8DF, 0x2F8DF, .mapped, [0x67FA]⟩,
  ⟨0x2F8E0, 0x2F8E0, .mapped, [0x6785]⟩,
  ⟨0x2F8E1, 0x2F8E1, .mapped, [0x6852]⟩,
  ⟨0x2F8E2, 0x2F8E2, .mapped, [0x6885]⟩,
  ⟨0x2F8E3, 0x2F8E3, .mapped, [0x2346D]⟩,
  ⟨0x2F8E4, 0x2F8E4, .mapped, [0x688E]⟩,
  ⟨0x2F8E5, 0x2F8E5, .mapped, [0x681F]⟩,
  ⟨0x2F8E6, 0x2F8E6, .mapped, [0x6914]⟩,
  ⟨0x2F8E7, 0x2F8E7, .mapped, [0x3B9D]⟩,
  ⟨0x2F8E8, 0x2F8E8, .mapped, [0x6942]⟩,
  ⟨0x2F8E9, 0x2F8E9, .mapped, [0x69A3]⟩,
  ⟨0x2F8EA, 0x2F8EA, .mapped, [0x69EA]⟩,
  ⟨0x2F8EB, 0x2F8EB, .mapped, [0x6AA8]⟩,
  ⟨0x2F8EC, 0x2F8EC, .mapped, [0x236A3]⟩,
  ⟨0x2F8ED, 0x2F8ED, .mapped, [0x6ADB]⟩,
  ⟨0x2F8EE, 0x2F8EE, .mapped, [0x3C18]⟩,
  ⟨0x2F8EF, 0x2F8EF, .mapped, [0x6B21]⟩,
  ⟨0x2F8F0, 0x2F8F0, .mapped, [0x238A7]⟩,
  ⟨0x2F8F1, 0x2F8F1, .mapped, [0x6B54]⟩,
  ⟨0x2F8F2, 0x2F8F2, .mapped, [0x3C4E]⟩,
  ⟨0x2F8F3, 0x2F8F3, .mapped, [0x6B72]⟩,
  ⟨0x2F8F4, 0x2F8F4, .mapped, [0x6B9F]⟩,
  ⟨0x2F8F5, 0x2F8F5, .mapped, [0x6BBA]⟩,
  ⟨0x2F8F6, 0x2F8F6, .mapped, [0x6BBB]⟩,
  ⟨0x2F8F7, 0x2F8F7, .mapped, [0x23A8D]⟩,
  ⟨0x2F8F8, 0x2F8F8, .mapped, [0x21D0B]⟩,
  ⟨0x2F8F9, 0x2F8F9, .mapped, [0x23AFA]⟩,
  ⟨0x2F8FA, 0x2F8FA, .mapped, [0x6C4E]⟩,
  ⟨0x2F8FB, 0x2F8FB, .mapped, [0x23CBC]⟩,
  ⟨0x2F8FC, 0x2F8FC, .mapped, [0x6CBF]⟩,
  ⟨0x2F8FD, 0x2F8FD, .mapped, [0x6CCD]⟩,
  ⟨0x2F8FE, 0x2F8FE, .mapped, [0x6C67]⟩,
  ⟨0x2F8FF, 0x2F8FF, .mapped, [0x6D16]⟩,
  ⟨0x2F900, 0x2F900, .mapped, [0x6D3E]⟩,
  ⟨0x2F901, 0x2F901, .mapped, [0x6D77]⟩,
  ⟨0x2F902, 0x2F902, .mapped, [0x6D41]⟩,
  ⟨0x2F903, 0x2F903, .mapped, [0x6D69]⟩,
  ⟨0x2F904, 0x2F904, .mapped, [0x6D78]⟩,
  ⟨0x2F905, 0x2F905, .mapped, [0x6D85]⟩,
  ⟨0x2F906, 0x2F906, .mapped, [0x23D1E]⟩,
  ⟨0x2F907, 0x2F907, .mapped, [0x6D34]⟩,
  ⟨0x2F908, 0x2F908, .mapped, [0x6E2F]⟩,
  ⟨0x2F909, 0x2F909, .mapped, [0x6E6E]⟩,
  ⟨0x2F90A, 0x2F90A, .mapped, [0x3D33]⟩,
  ⟨0x2F90B, 0x2F90B, .mapped, [0x6ECB]⟩,
  ⟨0x2F90C, 0x2F90C, .mapped, [0x6EC7]⟩,
  ⟨0x2F90D, 0x2F90D, .mapped, [0x23ED1]⟩,
  ⟨0x2F90E, 0x2F90E, .mapped, [0x6DF9]⟩,
  ⟨0x2F90F, 0x2F90F, .mapped, [0x6F6E]⟩,
  ⟨0x2F910, 0x2F910, .mapped, [0x23F5E]⟩,
  ⟨0x2F911, 0x2F911, .mapped, [0x23F8E]⟩,
  ⟨0x2F912, 0x2F912, .mapped, [0x6FC6]⟩,
  ⟨0x2F913, 0x2F913, .mapped, [0x7039]⟩,
  ⟨0x2F914, 0x2F914, .mapped, [0x701E]⟩,
  ⟨0x2F915, 0x2F915, .mapped, [0x701B]⟩,
  ⟨0x2F916, 0x2F916, .mapped, [0x3D96]⟩,
  ⟨0x2F917, 0x2F917, .mapped, [0x704A]⟩,
  ⟨0x2F918, 0x2F918, .mapped, [0x707D]⟩,
  ⟨0x2F919, 0x2F919, .mapped, [0x7077]⟩,
  ⟨0x2F91A, 0x2F91A, .mapped, [0x70AD]⟩,
  ⟨0x2F91B, 0x2F91B, .mapped, [0x20525]⟩,
  ⟨0x2F91C, 0x2F91C, .mapped, [0x7145]⟩,
  ⟨0x2F91D, 0x2F91D, .mapped, [0x24263]⟩,
  ⟨0x2F91E, 0x2F91E, .mapped, [0x719C]⟩,
  ⟨0x2F91F, 0x2F91F, .disallowed, []⟩,
  ⟨0x2F920, 0x2F920, .mapped, [0x7228]⟩,
  ⟨0x2F921, 0x2F921, .mapped, [0x7235]⟩,
  ⟨0x2F922, 0x2F922, .mapped, [0x7250]⟩,
  ⟨0x2F923, 0x2F923, .mapped, [0x24608]⟩,
  ⟨0x2F924, 0x2F924, .mapped, [0x7280]⟩,
  ⟨0x2F925, 0x2F925, .mapped, [0x7295]⟩,
  ⟨0x2F926, 0x2F926, .mapped, [0x24735]⟩,
  ⟨0x2F927, 0x2F927, .mapped, [0x24814]⟩,
  ⟨0x2F928, 0x2F928, .mapped, [0x737A]⟩,
  ⟨0x2F929, 0x2F929, .mapped, [0x738B]⟩,
  ⟨0x2F92A, 0x2F92A, .mapped, [0x3EAC]⟩,
  ⟨0x2F92B, 0x2F92B, .mapped, [0x73A5]⟩,
  ⟨0x2F92C, 0x2F92D, .mapped, [0x3EB8]⟩,
  ⟨0x2F92E, 0x2F92E, .mapped, [0x7447]⟩,
  ⟨0x2F92F, 0x2F92F, .mapped, [0x745C]⟩,
  ⟨0x2F930, 0x2F930, .mapped, [0x7471]⟩,
  ⟨0x2F931, 0x2F931, .mapped, [0x7485]⟩,
  ⟨0x2F932, 0x2F932, .mapped, [0x74CA]⟩,
  ⟨0x2F933, 0x2F933, .mapped, [0x3F1B]⟩,
  ⟨0x2F934, 0x2F934, .mapped, [0x7524]⟩,
  ⟨0x2F935, 0x2F935, .mapped, [0x24C36]⟩,
  ⟨0x2F936, 0x2F936, .mapped, [0x753E]⟩,
  ⟨0x2F937, 0x2F937, .mapped, [0x24C92]⟩,
  ⟨0x2F938, 0x2F938, .mapped, [0x7570]⟩,
  ⟨0x2F939, 0x2F939, .mapped, [0x2219F]⟩,
  ⟨0x2F93A, 0x2F93A, .mapped, [0x7610]⟩,
  ⟨0x2F93B, 0x2F93B, .mapped, [0x24FA1]⟩,
  ⟨0x2F93C, 0x2F93C, .mapped, [0x24FB8]⟩,
  ⟨0x2F93D, 0x2F93D, .mapped, [0x25044]⟩,
  ⟨0x2F93E, 0x2F93E, .mapped, [0x3FFC]⟩,
  ⟨0x2F93F, 0x2F93F, .mapped, [0x4008]⟩,
  ⟨0x2F940, 0x2F940, .mapped, [0x76F4]⟩,
  ⟨0x2F941, 0x2F941, .mapped, [0x250F3]⟩,
  ⟨0x2F942, 0x2F942, .mapped, [0x250F2]⟩,
  ⟨0x2F943, 0x2F943, .mapped, [0x25119]⟩,
  ⟨0x2F944, 0x2F944, .mapped, [0x25133]⟩,
  ⟨0x2F945, 0x2F945, .mapped, [0x771E]⟩,
  ⟨0x2F946, 0x2F947, .mapped, [0x771F]⟩,
  ⟨0x2F948, 0x2F948, .mapped, [0x774A]⟩,
  ⟨0x2F949, 0x2F949, .mapped, [0x4039]⟩,
  ⟨0x2F94A, 0x2F94A, .mapped, [0x778B]⟩,
  ⟨0x2F94B, 0x2F94B, .mapped, [0x4046]⟩,
  ⟨0x2F94C, 0x2F94C, .mapped, [0x4096]⟩,
  ⟨0x2F94D, 0x2F94D, .mapped, [0x2541D]⟩,
  ⟨0x2F94E, 0x2F94E, .mapped, [0x784E]⟩,
  ⟨0x2F94F, 0x2F94F, .mapped, [0x788C]⟩,
  ⟨0x2F950, 0x2F950, .mapped, [0x78CC]⟩,
  ⟨0x2F951, 0x2F951, .mapped, [0x40E3]⟩,
  ⟨0x2F952, 0x2F952, .mapped, [0x25626]⟩,
  ⟨0x2F953, 0x2F953, .mapped, [0x7956]⟩,
  ⟨0x2F954, 0x2F954, .mapped, [0x2569A]⟩,
  ⟨0x2F955, 0x2F955, .mapped, [0x256C5]⟩,
  ⟨0x2F956, 0x2F956, .mapped, [0x798F]⟩,
  ⟨0x2F957, 0x2F957, .mapped, [0x79EB]⟩,
  ⟨0x2F958, 0x2F958, .mapped, [0x412F]⟩,
  ⟨0x2F959, 0x2F959, .mapped, [0x7A40]⟩,
  ⟨0x2F95A, 0x2F95A, .mapped, [0x7A4A]⟩,
  ⟨0x2F95B, 0x2F95B, .mapped, [0x7A4F]⟩,
  ⟨0x2F95C, 0x2F95C, .mapped, [0x2597C]⟩,
  ⟨0x2F95D, 0x2F95E, .mapped, [0x25AA7]⟩,
  ⟨0x2F95F, 0x2F95F, .disallowed, []⟩,
  ⟨0x2F960, 0x2F960, .mapped, [0x4202]⟩,
  ⟨0x2F961, 0x2F961, .mapped, [0x25BAB]⟩]

def map34 : List MapRow := [
  ⟨0x2F962, 0x2F962, .mapped, [0x7BC6]⟩,
  ⟨0x2F963, 0x2F963, .mapped, [0x7BC9]⟩,
  ⟨0x2F964, 0x2F964, .mapped, [0x4227]⟩,
  ⟨0x2F965, 0x2F965, .mapped, [0x25C80]⟩,
  ⟨0x2F966, 0x2F966, .mapped, [0x7CD2]⟩,
  ⟨0x2F967, 0x2F967, .mapped, [0x42A0]⟩,
  ⟨0x2F968, 0x2F968, .mapped, [0x7CE8]⟩,
  ⟨0x2F969, 0x2F969, .mapped, [0x7CE3]⟩,
  ⟨0x2F96A, 0x2F96A, .mapped, [0x7D00]⟩,
  ⟨0x2F96B, 0x2F96B, .mapped, [0x25F86]⟩,
  ⟨0x2F96C, 0x2F96C, .mapped, [0x7D63]⟩,
  ⟨0x2F96D, 0x2F96D, .mapped, [0x4301]⟩,
  ⟨0x2F96E, 0x2F96E, .mapped, [0x7DC7]⟩,
  ⟨0x2F96F, 0x2F96F, .mapped, [0x7E02]⟩,
  ⟨0x2F970, 0x2F970, .mapped, [0x7E45]⟩,
  ⟨0x2F971, 0x2F971, .mapped, [0x4334]⟩,
  ⟨0x2F972, 0x2F972, .mapped, [0x26228]⟩,
  ⟨0x2F973, 0x2F973, .mapped, [0x26247]⟩,
  ⟨0x2F974, 0x2F974, .mapped, [0x4359]⟩,
  ⟨0x2F975, 0x2F975, .mapped, [0x262D9]⟩,
  ⟨0x2F976, 0x2F976, .mapped, [0x7F7A]⟩,
  ⟨0x2F977, 0x2F977, .mapped, [0x2633E]⟩,
  ⟨0x2F978, 0x2F978, .mapped, [0x7F95]⟩,
  ⟨0x2F979, 0x2F979, .mapped, [0x7FFA]⟩,
  ⟨0x2F97A, 0x2F97A, .mapped, [0x8005]⟩,
  ⟨0x2F97B, 0x2F97B, .mapped, [0x264DA]⟩,
  ⟨0x2F97C, 0x2F97C, .mapped, [0x26523]⟩,
  ⟨0x2F97D, 0x2F97D, .mapped, [0x8060]⟩,
  ⟨0x2F97E, 0x2F97E, .mapped, [0x265A8]⟩,
  ⟨0x2F97F, 0x2F97F, .mapped, [0x8070]⟩,
  ⟨0x2F980, 0x2F980, .mapped, [0x2335F]⟩,
  ⟨0x2F981, 0x2F981, .mapped, [0x43D5]⟩,
  ⟨0x2F982, 0x2F982, .mapped, [0x80B2]⟩,
  ⟨0x2F983, 0x2F983, .mapped, [0x8103]⟩,
  ⟨0x2F984, 0x2F984, .mapped, [0x440B]⟩,
  ⟨0x2F985, 0x2F985, .mapped, [0x813E]⟩,
  ⟨0x2F986, 0x2F986, .mapped, [0x5AB5]⟩,
  ⟨0x2F987, 0x2F987, .mapped, [0x267A7]⟩,
  ⟨0x2F988, 0x2F988, .mapped, [0x267B5]⟩,
  ⟨0x2F989, 0x2F989, .mapped, [0x23393]⟩,
  ⟨0x2F98A, 0x2F98A, .mapped, [0x2339C]⟩,
  ⟨0x2F98B, 0x2F98B, .mapped, [0x8201]⟩,
  ⟨0x2F98C, 0x2F98C, .mapped, [0x8204]⟩,
  ⟨0x2F98D, 0x2F98D, .mapped, [0x8F9E]⟩,
  ⟨0x2F98E, 0x2F98E, .mapped, [0x446B]⟩,
  ⟨0x2F98F, 0x2F98F, .mapped, [0x8291]⟩,
  ⟨0x2F990, 0x2F990, .mapped, [0x828B]⟩,
  ⟨0x2F991, 0x2F991, .mapped, [0x829D]⟩,
  ⟨0x2F992, 0x2F992, .mapped, [0x52B3]⟩,
  ⟨0x2F993, 0x2F993, .mapped, [0x82B1]⟩,
  ⟨0x2F994, 0x2F994, .mapped, [0x82B3]⟩,
  ⟨0x2F995, 0x2F995, .mapped, [0x82BD]⟩,
  ⟨0x2F996, 0x2F996, .mapped, [0x82E6]⟩,
  ⟨0x2F997, 0x2F997, .mapped, [0x26B3C]⟩,
  ⟨0x2F998, 0x2F998, .mapped, [0x82E5]⟩,
  ⟨0x2F999, 0x2F999, .mapped, [0x831D]⟩,
  ⟨0x2F99A, 0x2F99A, .mapped, [0x8363]⟩,
  ⟨0x2F99B, 0x2F99B, .mapped, [0x83AD]⟩,
  ⟨0x2F99C, 0x2F99C, .mapped, [0x8323]⟩,
  ⟨0x2F99D, 0x2F99D, .mapped, [0x83BD]⟩,
  ⟨0x2F99E, 0x2F99E, .mapped, [0x83E7]⟩,
  ⟨0x2F99F, 0x2F99F, .mapped, [0x8457]⟩,
  ⟨0x2F9A0, 0x2F9A0, .mapped, [0x8353]⟩,
  ⟨0x2F9A1, 0x2F9A1, .mapped, [0x83CA]⟩,
  ⟨0x2F9A2, 0x2F9A2, .mapped, [0x83CC]⟩,
  ⟨0x2F9A3, 0x2F9A3, .mapped, [0x83DC]⟩,
  ⟨0x2F9A4, 0x2F9A4, .mapped, [0x26C36]⟩,
  ⟨0x2F9A5, 0x2F9A5, .mapped, [0x26D6B]⟩,
  ⟨0x2F9A6, 0x2F9A6, .mapped, [0x26CD5]⟩,
  ⟨0x2F9A7, 0x2F9A7, .mapped, [0x452B]⟩,
  ⟨0x2F9A8, 0x2F9A8, .mapped, [0x84F1]⟩,
  ⟨0x2F9A9, 0x2F9A9, .mapped, [0x84F3]⟩,
  ⟨0x2F9AA, 0x2F9AA, .mapped, [0x8516]⟩,
  ⟨0x2F9AB, 0x2F9AB, .mapped, [0x273CA]⟩,
  ⟨0x2F9AC, 0x2F9AC, .mapped, [0x8564]⟩,
  ⟨0x2F9AD, 0x2F9AD, .mapped, [0x26F2C]⟩,
  ⟨0x2F9AE, 0x2F9AE, .mapped, [0x455D]⟩,
  ⟨0x2F9AF, 0x2F9AF, .mapped, [0x4561]⟩,
  ⟨0x2F9B0, 0x2F9B0, .mapped, [0x26FB1]⟩,
  ⟨0x2F9B1, 0x2F9B1, .mapped, [0x270D2]⟩,
  ⟨0x2F9B2, 0x2F9B2, .mapped, [0x456B]⟩,
  ⟨0x2F9B3, 0x2F9B3, .mapped, [0x8650]⟩,
  ⟨0x2F9B4, 0x2F9B4, .mapped, [0x865C]⟩,
  ⟨0x2F9B5, 0x2F9B5, .mapped, [0x8667]⟩,
  ⟨0x2F9B6, 0x2F9B6, .mapped, [0x8669]⟩,
  ⟨0x2F9B7, 0x2F9B7, .mapped, [0x86A9]⟩,
  ⟨0x2F9B8, 0x2F9B8, .mapped, [0x8688]⟩,
  ⟨0x2F9B9, 0x2F9B9, .mapped, [0x870E]⟩,
  ⟨0x2F9BA, 0x2F9BA, .mapped, [0x86E2]⟩,
  ⟨0x2F9BB, 0x2F9BB, .mapped, [0x8779]⟩,
  ⟨0x2F9BC, 0x2F9BC, .mapped, [0x8728]⟩,
  ⟨0x2F9BD, 0x2F9BD, .mapped, [0x876B]⟩,
  ⟨0x2F9BE, 0x2F9BE, .mapped, [0x8786]⟩,
  ⟨0x2F9BF, 0x2F9BF, .disallowed, []⟩,
  ⟨0x2F9C0, 0x2F9C0, .mapped, [0x87E1]⟩,
  ⟨0x2F9C1, 0x2F9C1, .mapped, [0x8801]⟩,
  ⟨0x2F9C2, 0x2F9C2, .mapped, [0x45F9]⟩,
  ⟨0x2F9C3, 0x2F9C3, .mapped, [0x8860]⟩,
  ⟨0x2F9C4, 0x2F9C4, .mapped, [0x8863]⟩,
  ⟨0x2F9C5, 0x2F9C5, .mapped, [0x27667]⟩,
  ⟨0x2F9C6, 0x2F9C6, .mapped, [0x88D7]⟩,
  ⟨0x2F9C7, 0x2F9C7, .mapped, [0x88DE]⟩,
  ⟨0x2F9C8, 0x2F9C8, .mapped, [0x4635]⟩,
  ⟨0x2F9C9, 0x2F9C9, .mapped, [0x88FA]⟩,
  ⟨0x2F9CA, 0x2F9CA, .mapped, [0x34BB]⟩,
  ⟨0x2F9CB, 0x2F9CB, .mapped, [0x278AE]⟩,
  ⟨0x2F9CC, 0x2F9CC, .mapped, [0x27966]⟩,
  ⟨0x2F9CD, 0x2F9CD, .mapped, [0x46BE]⟩,
  ⟨0x2F9CE, 0x2F9CE, .mapped, [0x46C7]⟩,
  ⟨0x2F9CF, 0x2F9CF, .mapped, [0x8AA0]⟩,
  ⟨0x2F9D0, 0x2F9D0, .mapped, [0x8AED]⟩,
  ⟨0x2F9D1, 0x2F9D1, .mapped, [0x8B8A]⟩,
  ⟨0x2F9D2, 0x2F9D2, .mapped, [0x8C55]⟩,
  ⟨0x2F9D3, 0x2F9D3, .mapped, [0x27CA8]⟩,
  ⟨0x2F9D4, 0x2F9D4, .mapped, [0x8CAB]⟩,
  ⟨0x2F9D5, 0x2F9D5, .mapped, [0x8CC1]⟩,
  ⟨0x2F9D6, 0x2F9D6, .mapped, [0x8D1B]⟩,
  ⟨0x2F9D7, 0x2F9D7, .mapped, [0x8D77]⟩,
  ⟨0x2F9D8, 0x2F9D8, .mapped, [0x27F2F]⟩,
  ⟨0x2F9D9, 0x2F9D9, .mapped, [0x20804]⟩,
  ⟨0x2F9DA, 0x2F9DA, .mapped, [0x8DCB]⟩,
  ⟨0x2F9DB, 0x2F9DB, .mapped, [0x8DBC]⟩,
  ⟨0x2F9DC, 0x2F9DC, .mapped, [0x8DF0]⟩,
  ⟨0x2F9DD, 0x2F9DD, .mapped, [0x208DE]⟩,
  ⟨0x2F9DE, 0x2F9DE, .mapped, [0x8ED4]⟩,
  ⟨0x2F9DF, 0x2F9DF, .mapped, [0x8F38]⟩,
  ⟨0x2F9E0, 0x2F9E0, .mapped, [0x285D2]⟩,
  ⟨0x2F9E1, 0x2F9E1, .mapped, [0x285ED]⟩,
  ⟨0x2F9E2, 0x2F9E2, .mapped, [0x9094]⟩,
  ⟨0x2F9E3, 0x2F9E3, .mapped, [0x90F1]⟩,
  ⟨0x2F9E4, 0x2F9E4, .mapped, [0x9111]⟩,
  ⟨0x2F9E5, 0x2F9E5, .mapped, [0x2872E]⟩,
  ⟨0x2F9E6, 0x2F9E6, .mapped, [0x911B]⟩,
  ⟨0x2F9E7, 0x2F9E7, .mapped, [0x9238]⟩,
  ⟨0x2F9E8, 0x2F9E8, .mapped, [0x92D7]⟩,
  ⟨0x2F9E9, 0x2F9E9, .mapped, [0x92D8]⟩,
  ⟨0x2F9EA, 0x2F9EA, .mapped, [0x927C]⟩,
  ⟨0x2F9EB, 0x2F9EB, .mapped, [0x93F9]⟩,
  ⟨0x2F9EC, 0x2F9EC, .mapped, [0x9415]⟩,
  ⟨0x2F9ED, 0x2F9ED, .mapped, [0x28BFA]⟩,
  ⟨0x2F9EE, 0x2F9EE, .mapped, [0x958B]⟩,
  ⟨0x2F9EF, 0x2F9EF, .mapped, [0x4995]⟩,
  ⟨0x2F9F0, 0x2F9F0, .mapped, [0x95B7]⟩,
  ⟨0x2F9F1, 0x2F9F1, .mapped, [0x28D77]⟩,
  ⟨0x2F9F2, 0x2F9F2, .mapped, [0x49E6]⟩,
  ⟨0x2F9F3, 0x2F9F3, .mapped, [0x96C3]⟩,
  ⟨0x2F9F4, 0x2F9F4, .mapped, [0x5DB2]⟩,
  ⟨0x2F9F5, 0x2F9F5, .mapped, [0x9723]⟩,
  ⟨0x2F9F6, 0x2F9F6, .mapped, [0x29145]⟩,
  ⟨0x2F9F7, 0x2F9F7, .mapped, [0x2921A]⟩,
  ⟨0x2F9F8, 0x2F9F8, .mapped, [0x4A6E]⟩,
  ⟨0x2F9F9, 0x2F9F9, .mapped, [0x4A76]⟩,
  ⟨0x2F9FA, 0x2F9FA, .mapped, [0x97E0]⟩,
  ⟨0x2F9FB, 0x2F9FB, .mapped, [0x2940A]⟩,
  ⟨0x2F9FC, 0x2F9FC, .mapped, [0x4AB2]⟩,
  ⟨0x2F9FD, 0x2F9FD, .mapped, [0x29496]⟩,
  ⟨0x2F9FE, 0x2F9FF, .mapped, [0x980B]⟩,
  ⟨0x2FA00, 0x2FA00, .mapped, [0x9829]⟩,
  ⟨0x2FA01, 0x2FA01, .mapped, [0x295B6]⟩,
  ⟨0x2FA02, 0x2FA02, .mapped, [0x98E2]⟩,
  ⟨0x2FA03, 0x2FA03, .mapped, [0x4B33]⟩,
  ⟨0x2FA04, 0x2FA04, .mapped, [0x9929]⟩,
  ⟨0x2FA05, 0x2FA05, .mapped, [0x99A7]⟩,
  ⟨0x2FA06, 0x2FA06, .mapped, [0x99C2]⟩,
  ⟨0x2FA07, 0x2FA07, .mapped, [0x99FE]⟩,
  ⟨0x2FA08, 0x2FA08, .mapped, [0x4BCE]⟩,
  ⟨0x2FA09, 0x2FA09, .mapped, [0x29B30]⟩,
  ⟨0x2FA0A, 0x2FA0A, .mapped, [0x9B12]⟩,
  ⟨0x2FA0B, 0x2FA0B, .mapped, [0x9C40]⟩,
  ⟨0x2FA0C, 0x2FA0C, .mapped, [0x9CFD]⟩,
  ⟨0x2FA0D, 0x2FA0D, .mapped, [0x4CCE]⟩,
  ⟨0x2FA0E, 0x2FA0E, .mapped, [0x4CED]⟩,
  ⟨0x2FA0F, 0x2FA0F, .mapped, [0x9D67]⟩,
  ⟨0x2FA10, 0x2FA10, .mapped, [0x2A0CE]⟩,
  ⟨0x2FA11, 0x2FA11, .mapped, [0x4CF8]⟩,
  ⟨0x2FA12, 0x2FA12, .mapped, [0x2A105]⟩,
  ⟨0x2FA13, 0x2FA13, .mapped, [0x2A20E]⟩,
  ⟨0x2FA14, 0x2FA14, .mapped, [0x2A291]⟩,
  ⟨0x2FA15, 0x2FA15, .mapped, [0x9EBB]⟩,
  ⟨0x2FA16, 0x2FA16, .mapped, [0x4D56]⟩,
  ⟨0x2FA17, 0x2FA17, .mapped, [0x9EF9]⟩,
  ⟨0x2FA18, 0x2FA18, .mapped, [0x9EFE]⟩,
  ⟨0x2FA19, 0x2FA19, .mapped, [0x9F05]⟩,
  ⟨0x2FA1A, 0x2FA1A, .mapped, [0x9F0F]⟩,
  ⟨0x2FA1B, 0x2FA1B, .mapped, [0x9F16]⟩,
  ⟨0x2FA1C, 0x2FA1C, .mapped, [0x9F3B]⟩,
  ⟨0x2FA1D, 0x2FA1D, .mapped, [0x2A600]⟩,
  ⟨0x2FA1E, 0x2FFFD, .disallowed, []⟩,
  ⟨0x2FFFE, 0x2FFFF, .disallowed, []⟩,
  ⟨0x30000, 0x3134A, .valid, []⟩,
  ⟨0x3134B, 0x3FFFD, .disallowed, []⟩,
  ⟨0x3FFFE, 0x3FFFF, .disallowed, []⟩,
  ⟨0x40000, 0x4FFFD, .disallowed, []⟩,
  ⟨0x4FFFE, 0x4FFFF, .disallowed, []⟩,
  ⟨0x50000, 0x5FFFD, .disallowed, []⟩,
  ⟨0x5FFFE, 0x5FFFF, .disallowed, []⟩,
  ⟨0x60000, 0x6FFFD, .disallowed, []⟩,
  ⟨0x6FFFE, 0x6FFFF, .disallowed, []⟩,
  ⟨0x70000, 0x7FFFD, .disallowed, []⟩,
  ⟨0x7FFFE, 0x7FFFF, .disallowed, []⟩,
  ⟨0x80000, 0x8FFFD, .disallowed, []⟩,
  ⟨0x8FFFE, 0x8FFFF, .disallowed, []⟩,
  ⟨0x90000, 0x9FFFD, .disallowed, []⟩,
  ⟨0x9FFFE, 0x9FFFF, .disallowed, []⟩,
  ⟨0xA0000, 0xAFFFD, .disallowed, []⟩,
  ⟨0xAFFFE, 0xAFFFF, .disallowed, []⟩,
  ⟨0xB0000, 0xBFFFD, .disallowed, []⟩,
  ⟨0xBFFFE, 0xBFFFF, .disallowed, []⟩,
  ⟨0xC0000, 0xCFFFD, .disallowed, []⟩,
  ⟨0xCFFFE, 0xCFFFF, .disallowed, []⟩,
  ⟨0xD0000, 0xDFFFD, .disallowed, []⟩,
  ⟨0xDFFFE, 0xDFFFF, .disallowed, []⟩,
  ⟨0xE0000, 0xE0000, .disallowed, []⟩,
  ⟨0xE0001, 0xE0001, .disallowed, []⟩,
  ⟨0xE0002, 0xE001F, .disallowed, []⟩,
  ⟨0xE0020, 0xE007F, .disallowed, []⟩,
  ⟨0xE0080, 0xE00FF, .disallowed, []⟩,
  ⟨0xE0100, 0xE01EF, .ignored, []⟩,
  ⟨0xE01F0, 0xEFFFD, .disallowed, []⟩,
  ⟨0xEFFFE, 0xEFFFF, .disallowed, []⟩,
  ⟨0xF0000, 0xFFFFD, .disallowed, []⟩,
  ⟨0xFFFFE, 0xFFFFF, .disallowed, []⟩,
  ⟨0x100000, 0x10FFFD, .disallowed, []⟩,
  ⟨0x10FFFE, 0x10FFFF, .disallowed, []⟩]

/-- All the lines, in chunks. -/
def mapChunks : List (List MapRow) := [
  map0, map1, map2, map3, map4, map5, map6, map7,
  map8, map9, map10, map11, map12, map13, map14, map15,
  map16, map17, map18, map19, map20, map21, map22, map23,
  map24, map25, map26, map27, map28, map29, map30, map31,
  map32, map33, map34]

/-- All the lines. -/
def map : List MapRow := mapChunks.flatten

end Idn2.Shipped
