import Verif.Model.Gen

/-
The lines of lib/idna-tables-properties.csv.
Written by tools/gen_data.py; do not edit.
-/

namespace Idn2.Shipped

def csv0 : List CsvRow := [
  ⟨0x0, 0x2C, .disallowed⟩,
  ⟨0x2D, 0x2D, .pvalid⟩,
  ⟨0x2E, 0x2F, .disallowed⟩,
  ⟨0x30, 0x39, .pvalid⟩,
  ⟨0x3A, 0x60, .disallowed⟩,
  ⟨0x61, 0x7A, .pvalid⟩,
  ⟨0x7B, 0xB6, .disallowed⟩,
  ⟨0xB7, 0xB7, .contexto⟩,
  ⟨0xB8, 0xDE, .disallowed⟩,
  ⟨0xDF, 0xF6, .pvalid⟩,
  ⟨0xF7, 0xF7, .disallowed⟩,
  ⟨0xF8, 0xFF, .pvalid⟩,
  ⟨0x100, 0x100, .disallowed⟩,
  ⟨0x101, 0x101, .pvalid⟩,
  ⟨0x102, 0x102, .disallowed⟩,
  ⟨0x103, 0x103, .pvalid⟩,
  ⟨0x104, 0x104, .disallowed⟩,
  ⟨0x105, 0x105, .pvalid⟩,
  ⟨0x106, 0x106, .disallowed⟩,
  ⟨0x107, 0x107, .pvalid⟩,
  ⟨0x108, 0x108, .disallowed⟩,
  ⟨0x109, 0x109, .pvalid⟩,
  ⟨0x10A, 0x10A, .disallowed⟩,
  ⟨0x10B, 0x10B, .pvalid⟩,
  ⟨0x10C, 0x10C, .disallowed⟩,
  ⟨0x10D, 0x10D, .pvalid⟩,
  ⟨0x10E, 0x10E, .disallowed⟩,
  ⟨0x10F, 0x10F, .pvalid⟩,
  ⟨0x110, 0x110, .disallowed⟩,
  ⟨0x111, 0x111, .pvalid⟩,
  ⟨0x112, 0x112, .disallowed⟩,
  ⟨0x113, 0x113, .pvalid⟩,
  ⟨0x114, 0x114, .disallowed⟩,
  ⟨0x115, 0x115, .pvalid⟩,
  ⟨0x116, 0x116, .disallowed⟩,
  ⟨0x117, 0x117, .pvalid⟩,
  ⟨0x118, 0x118, .disallowed⟩,
  ⟨0x119, 0x119, .pvalid⟩,
  ⟨0x11A, 0x11A, .disallowed⟩,
  ⟨0x11B, 0x11B, .pvalid⟩,
  ⟨0x11C, 0x11C, .disallowed⟩,
  ⟨0x11D, 0x11D, .pvalid⟩,
  ⟨0x11E, 0x11E, .disallowed⟩,
  ⟨0x11F, 0x11F, .pvalid⟩,
  ⟨0x120, 0x120, .disallowed⟩,
  ⟨0x121, 0x121, .pvalid⟩,
  ⟨0x122, 0x122, .disallowed⟩,
  ⟨0x123, 0x123, .pvalid⟩,
  ⟨0x124, 0x124, .disallowed⟩,
  ⟨0x125, 0x125, .pvalid⟩,
  ⟨0x126, 0x126, .disallowed⟩,
  ⟨0x127, 0x127, .pvalid⟩,
  ⟨0x128, 0x128, .disallowed⟩,
  ⟨0x129, 0x129, .pvalid⟩,
  ⟨0x12A, 0x12A, .disallowed⟩,
  ⟨0x12B, 0x12B, .pvalid⟩,
  ⟨0x12C, 0x12C, .disallowed⟩,
  ⟨0x12D, 0x12D, .pvalid⟩,
  ⟨0x12E, 0x12E, .disallowed⟩,
  ⟨0x12F, 0x12F, .pvalid⟩,
  ⟨0x130, 0x130, .disallowed⟩,
  ⟨0x131, 0x131, .pvalid⟩,
  ⟨0x132, 0x134, .disallowed⟩,
  ⟨0x135, 0x135, .pvalid⟩,
  ⟨0x136, 0x136, .disallowed⟩,
  ⟨0x137, 0x138, .pvalid⟩,
  ⟨0x139, 0x139, .disallowed⟩,
  ⟨0x13A, 0x13A, .pvalid⟩,
  ⟨0x13B, 0x13B, .disallowed⟩,
  ⟨0x13C, 0x13C, .pvalid⟩,
  ⟨0x13D, 0x13D, .disallowed⟩,
  ⟨0x13E, 0x13E, .pvalid⟩,
  ⟨0x13F, 0x141, .disallowed⟩,
  ⟨0x142, 0x142, .pvalid⟩,
  ⟨0x143, 0x143, .disallowed⟩,
  ⟨0x144, 0x144, .pvalid⟩,
  ⟨0x145, 0x145, .disallowed⟩,
  ⟨0x146, 0x146, .pvalid⟩,
  ⟨0x147, 0x147, .disallowed⟩,
  ⟨0x148, 0x148, .pvalid⟩,
  ⟨0x149, 0x14A, .disallowed⟩,
  ⟨0x14B, 0x14B, .pvalid⟩,
  ⟨0x14C, 0x14C, .disallowed⟩,
  ⟨0x14D, 0x14D, .pvalid⟩,
  ⟨0x14E, 0x14E, .disallowed⟩,
  ⟨0x14F, 0x14F, .pvalid⟩,
  ⟨0x150, 0x150, .disallowed⟩,
  ⟨0x151, 0x151, .pvalid⟩,
  ⟨0x152, 0x152, .disallowed⟩,
  ⟨0x153, 0x153, .pvalid⟩,
  ⟨0x154, 0x154, .disallowed⟩,
  ⟨0x155, 0x155, .pvalid⟩,
  ⟨0x156, 0x156, .disallowed⟩,
  ⟨0x157, 0x157, .pvalid⟩,
  ⟨0x158, 0x158, .disallowed⟩,
  ⟨0x159, 0x159, .pvalid⟩,
  ⟨0x15A, 0x15A, .disallowed⟩,
  ⟨0x15B, 0x15B, .pvalid⟩,
  ⟨0x15C, 0x15C, .disallowed⟩,
  ⟨0x15D, 0x15D, .pvalid⟩,
  ⟨0x15E, 0x15E, .disallowed⟩,
  ⟨0x15F, 0x15F, .pvalid⟩,
  ⟨0x160, 0x160, .disallowed⟩,
  ⟨0x161, 0x161, .pvalid⟩,
  ⟨0x162, 0x162, .disallowed⟩,
  ⟨0x163, 0x163, .pvalid⟩,
  ⟨0x164, 0x164, .disallowed⟩,
  ⟨0x165, 0x165, .pvalid⟩,
  ⟨0x166, 0x166, .disallowed⟩,
  ⟨0x167, 0x167, .pvalid⟩,
  ⟨0x168, 0x168, .disallowed⟩,
  ⟨0x169, 0x169, .pvalid⟩,
  ⟨0x16A, 0x16A, .disallowed⟩,
  ⟨0x16B, 0x16B, .pvalid⟩,
  ⟨0x16C, 0x16C, .disallowed⟩,
  ⟨0x16D, 0x16D, .pvalid⟩,
  ⟨0x16E, 0x16E, .disallowed⟩,
  ⟨0x16F, 0x16F, .pvalid⟩,
  ⟨0x170, 0x170, .disallowed⟩,
  ⟨0x171, 0x171, .pvalid⟩,
  ⟨0x172, 0x172, .disallowed⟩,
  ⟨0x173, 0x173, .pvalid⟩,
  ⟨0x174, 0x174, .disallowed⟩,
  ⟨0x175, 0x175, .pvalid⟩,
  ⟨0x176, 0x176, .disallowed⟩,
  ⟨0x177, 0x177, .pvalid⟩,
  ⟨0x178, 0x179, .disallowed⟩,
  ⟨0x17A, 0x17A, .pvalid⟩,
  ⟨0x17B, 0x17B, .disallowed⟩,
  ⟨0x17C, 0x17C, .pvalid⟩,
  ⟨0x17D, 0x17D, .disallowed⟩,
  ⟨0x17E, 0x17E, .pvalid⟩,
  ⟨0x17F, 0x17F, .disallowed⟩,
  ⟨0x180, 0x180, .pvalid⟩,
  ⟨0x181, 0x182, .disallowed⟩,
  ⟨0x183, 0x183, .pvalid⟩,
  ⟨0x184, 0x184, .disallowed⟩,
  ⟨0x185, 0x185, .pvalid⟩,
  ⟨0x186, 0x187, .disallowed⟩,
  ⟨0x188, 0x188, .pvalid⟩,
  ⟨0x189, 0x18B, .disallowed⟩,
  ⟨0x18C, 0x18D, .pvalid⟩,
  ⟨0x18E, 0x191, .disallowed⟩,
  ⟨0x192, 0x192, .pvalid⟩,
  ⟨0x193, 0x194, .disallowed⟩,
  ⟨0x195, 0x195, .pvalid⟩,
  ⟨0x196, 0x198, .disallowed⟩,
  ⟨0x199, 0x19B, .pvalid⟩,
  ⟨0x19C, 0x19D, .disallowed⟩,
  ⟨0x19E, 0x19E, .pvalid⟩,
  ⟨0x19F, 0x1A0, .disallowed⟩,
  ⟨0x1A1, 0x1A1, .pvalid⟩,
  ⟨0x1A2, 0x1A2, .disallowed⟩,
  ⟨0x1A3, 0x1A3, .pvalid⟩,
  ⟨0x1A4, 0x1A4, .disallowed⟩,
  ⟨0x1A5, 0x1A5, .pvalid⟩,
  ⟨0x1A6, 0x1A7, .disallowed⟩,
  ⟨0x1A8, 0x1A8, .pvalid⟩,
  ⟨0x1A9, 0x1A9, .disallowed⟩,
  ⟨0x1AA, 0x1AB, .pvalid⟩,
  ⟨0x1AC, 0x1AC, .disallowed⟩,
  ⟨0x1AD, 0x1AD, .pvalid⟩,
  ⟨0x1AE, 0x1AF, .disallowed⟩,
  ⟨0x1B0, 0x1B0, .pvalid⟩,
  ⟨0x1B1, 0x1B3, .disallowed⟩,
  ⟨0x1B4, 0x1B4, .pvalid⟩,
  ⟨0x1B5, 0x1B5, .disallowed⟩,
  ⟨0x1B6, 0x1B6, .pvalid⟩,
  ⟨0x1B7, 0x1B8, .disallowed⟩,
  ⟨0x1B9, 0x1BB, .pvalid⟩,
  ⟨0x1BC, 0x1BC, .disallowed⟩,
  ⟨0x1BD, 0x1C3, .pvalid⟩,
  ⟨0x1C4, 0x1CD, .disallowed⟩,
  ⟨0x1CE, 0x1CE, .pvalid⟩,
  ⟨0x1CF, 0x1CF, .disallowed⟩,
  ⟨0x1D0, 0x1D0, .pvalid⟩,
  ⟨0x1D1, 0x1D1, .disallowed⟩,
  ⟨0x1D2, 0x1D2, .pvalid⟩,
  ⟨0x1D3, 0x1D3, .disallowed⟩,
  ⟨0x1D4, 0x1D4, .pvalid⟩,
  ⟨0x1D5, 0x1D5, .disallowed⟩,
  ⟨0x1D6, 0x1D6, .pvalid⟩,
  ⟨0x1D7, 0x1D7, .disallowed⟩,
  ⟨0x1D8, 0x1D8, .pvalid⟩,
  ⟨0x1D9, 0x1D9, .disallowed⟩,
  ⟨0x1DA, 0x1DA, .pvalid⟩,
  ⟨0x1DB, 0x1DB, .disallowed⟩,
  ⟨0x1DC, 0x1DD, .pvalid⟩,
  ⟨0x1DE, 0x1DE, .disallowed⟩,
  ⟨0x1DF, 0x1DF, .pvalid⟩,
  ⟨0x1E0, 0x1E0, .disallowed⟩,
  ⟨0x1E1, 0x1E1, .pvalid⟩,
  ⟨0x1E2, 0x1E2, .disallowed⟩,
  ⟨0x1E3, 0x1E3, .pvalid⟩,
  ⟨0x1E4, 0x1E4, .disallowed⟩,
  ⟨0x1E5, 0x1E5, .pvalid⟩,
  ⟨0x1E6, 0x1E6, .disallowed⟩,
  ⟨0x1E7, 0x1E7, .pvalid⟩,
  ⟨0x1E8, 0x1E8, .disallowed⟩,
  ⟨0x1E9, 0x1E9, .pvalid⟩,
  ⟨0x1EA, 0x1EA, .disallowed⟩,
  ⟨0x1EB, 0x1EB, .pvalid⟩,
  ⟨0x1EC, 0x1EC, .disallowed⟩,
  ⟨0x1ED, 0x1ED, .pvalid⟩,
  ⟨0x1EE, 0x1EE, .disallowed⟩,
  ⟨0x1EF, 0x1F0, .pvalid⟩,
  ⟨0x1F1, 0x1F4, .disallowed⟩,
  ⟨0x1F5, 0x1F5, .pvalid⟩,
  ⟨0x1F6, 0x1F8, .disallowed⟩,
  ⟨0x1F9, 0x1F9, .pvalid⟩,
  ⟨0x1FA, 0x1FA, .disallowed⟩,
  ⟨0x1FB, 0x1FB, .pvalid⟩,
  ⟨0x1FC, 0x1FC, .disallowed⟩,
  ⟨0x1FD, 0x1FD, .pvalid⟩,
  ⟨0x1FE, 0x1FE, .disallowed⟩,
  ⟨0x1FF, 0x1FF, .pvalid⟩,
  ⟨0x200, 0x200, .disallowed⟩,
  ⟨0x201, 0x201, .pvalid⟩,
  ⟨0x202, 0x202, .disallowed⟩,
  ⟨0x203, 0x203, .pvalid⟩,
  ⟨0x204, 0x204, .disallowed⟩,
  ⟨0x205, 0x205, .pvalid⟩,
  ⟨0x206, 0x206, .disallowed⟩,
  ⟨0x207, 0x207, .pvalid⟩,
  ⟨0x208, 0x208, .disallowed⟩,
  ⟨0x209, 0x209, .pvalid⟩,
  ⟨0x20A, 0x20A, .disallowed⟩,
  ⟨0x20B, 0x20B, .pvalid⟩,
  ⟨0x20C, 0x20C, .disallowed⟩,
  ⟨0x20D, 0x20D, .pvalid⟩,
  ⟨0x20E, 0x20E, .disallowed⟩,
  ⟨0x20F, 0x20F, .pvalid⟩,
  ⟨0x210, 0x210, .disallowed⟩,
  ⟨0x211, 0x211, .pvalid⟩,
  ⟨0x212, 0x212, .disallowed⟩,
  ⟨0x213, 0x213, .pvalid⟩,
  ⟨0x214, 0x214, .disallowed⟩,
  ⟨0x215, 0x215, .pvalid⟩,
  ⟨0x216, 0x216, .disallowed⟩,
  ⟨0x217, 0x217, .pvalid⟩,
  ⟨0x218, 0x218, .disallowed⟩,
  ⟨0x219, 0x219, .pvalid⟩,
  ⟨0x21A, 0x21A, .disallowed⟩,
  ⟨0x21B, 0x21B, .pvalid⟩,
  ⟨0x21C, 0x21C, .disallowed⟩,
  ⟨0x21D, 0x21D, .pvalid⟩,
  ⟨0x21E, 0x21E, .disallowed⟩,
  ⟨0x21F, 0x21F, .pvalid⟩,
  ⟨0x220, 0x220, .disallowed⟩,
  ⟨0x221, 0x221, .pvalid⟩]

def csv1 : List CsvRow := [
  ⟨0x222, 0x222, .disallowed⟩,
  ⟨0x223, 0x223, .pvalid⟩,
  ⟨0x224, 0x224, .disallowed⟩,
  ⟨0x225, 0x225, .pvalid⟩,
  ⟨0x226, 0x226, .disallowed⟩,
  ⟨0x227, 0x227, .pvalid⟩,
  ⟨0x228, 0x228, .disallowed⟩,
  ⟨0x229, 0x229, .pvalid⟩,
  ⟨0x22A, 0x22A, .disallowed⟩,
  ⟨0x22B, 0x22B, .pvalid⟩,
  ⟨0x22C, 0x22C, .disallowed⟩,
  ⟨0x22D, 0x22D, .pvalid⟩,
  ⟨0x22E, 0x22E, .disallowed⟩,
  ⟨0x22F, 0x22F, .pvalid⟩,
  ⟨0x230, 0x230, .disallowed⟩,
  ⟨0x231, 0x231, .pvalid⟩,
  ⟨0x232, 0x232, .disallowed⟩,
  ⟨0x233, 0x239, .pvalid⟩,
  ⟨0x23A, 0x23B, .disallowed⟩,
  ⟨0x23C, 0x23C, .pvalid⟩,
  ⟨0x23D, 0x23E, .disallowed⟩,
  ⟨0x23F, 0x240, .pvalid⟩,
  ⟨0x241, 0x241, .disallowed⟩,
  ⟨0x242, 0x242, .pvalid⟩,
  ⟨0x243, 0x246, .disallowed⟩,
  ⟨0x247, 0x247, .pvalid⟩,
  ⟨0x248, 0x248, .disallowed⟩,
  ⟨0x249, 0x249, .pvalid⟩,
  ⟨0x24A, 0x24A, .disallowed⟩,
  ⟨0x24B, 0x24B, .pvalid⟩,
  ⟨0x24C, 0x24C, .disallowed⟩,
  ⟨0x24D, 0x24D, .pvalid⟩,
  ⟨0x24E, 0x24E, .disallowed⟩,
  ⟨0x24F, 0x2AF, .pvalid⟩,
  ⟨0x2B0, 0x2B8, .disallowed⟩,
  ⟨0x2B9, 0x2C1, .pvalid⟩,
  ⟨0x2C2, 0x2C5, .disallowed⟩,
  ⟨0x2C6, 0x2D1, .pvalid⟩,
  ⟨0x2D2, 0x2EB, .disallowed⟩,
  ⟨0x2EC, 0x2EC, .pvalid⟩,
  ⟨0x2ED, 0x2ED, .disallowed⟩,
  ⟨0x2EE, 0x2EE, .pvalid⟩,
  ⟨0x2EF, 0x2FF, .disallowed⟩,
  ⟨0x300, 0x33F, .pvalid⟩,
  ⟨0x340, 0x341, .disallowed⟩,
  ⟨0x342, 0x342, .pvalid⟩,
  ⟨0x343, 0x345, .disallowed⟩,
  ⟨0x346, 0x34E, .pvalid⟩,
  ⟨0x34F, 0x34F, .disallowed⟩,
  ⟨0x350, 0x36F, .pvalid⟩,
  ⟨0x370, 0x370, .disallowed⟩,
  ⟨0x371, 0x371, .pvalid⟩,
  ⟨0x372, 0x372, .disallowed⟩,
  ⟨0x373, 0x373, .pvalid⟩,
  ⟨0x374, 0x374, .disallowed⟩,
  ⟨0x375, 0x375, .contexto⟩,
  ⟨0x376, 0x376, .disallowed⟩,
  ⟨0x377, 0x377, .pvalid⟩,
  ⟨0x378, 0x379, .unassigned⟩,
  ⟨0x37A, 0x37A, .disallowed⟩,
  ⟨0x37B, 0x37D, .pvalid⟩,
  ⟨0x37E, 0x37F, .disallowed⟩,
  ⟨0x380, 0x383, .unassigned⟩,
  ⟨0x384, 0x38A, .disallowed⟩,
  ⟨0x38B, 0x38B, .unassigned⟩,
  ⟨0x38C, 0x38C, .disallowed⟩,
  ⟨0x38D, 0x38D, .unassigned⟩,
  ⟨0x38E, 0x38F, .disallowed⟩,
  ⟨0x390, 0x390, .pvalid⟩,
  ⟨0x391, 0x3A1, .disallowed⟩,
  ⟨0x3A2, 0x3A2, .unassigned⟩,
  ⟨0x3A3, 0x3AB, .disallowed⟩,
  ⟨0x3AC, 0x3CE, .pvalid⟩,
  ⟨0x3CF, 0x3D6, .disallowed⟩,
  ⟨0x3D7, 0x3D7, .pvalid⟩,
  ⟨0x3D8, 0x3D8, .disallowed⟩,
  ⟨0x3D9, 0x3D9, .pvalid⟩,
  ⟨0x3DA, 0x3DA, .disallowed⟩,
  ⟨0x3DB, 0x3DB, .pvalid⟩,
  ⟨0x3DC, 0x3DC, .disallowed⟩,
  ⟨0x3DD, 0x3DD, .pvalid⟩,
  ⟨0x3DE, 0x3DE, .disallowed⟩,
  ⟨0x3DF, 0x3DF, .pvalid⟩,
  ⟨0x3E0, 0x3E0, .disallowed⟩,
  ⟨0x3E1, 0x3E1, .pvalid⟩,
  ⟨0x3E2, 0x3E2, .disallowed⟩,
  ⟨0x3E3, 0x3E3, .pvalid⟩,
  ⟨0x3E4, 0x3E4, .disallowed⟩,
  ⟨0x3E5, 0x3E5, .pvalid⟩,
  ⟨0x3E6, 0x3E6, .disallowed⟩,
  ⟨0x3E7, 0x3E7, .pvalid⟩,
  ⟨0x3E8, 0x3E8, .disallowed⟩,
  ⟨0x3E9, 0x3E9, .pvalid⟩,
  ⟨0x3EA, 0x3EA, .disallowed⟩,
  ⟨0x3EB, 0x3EB, .pvalid⟩,
  ⟨0x3EC, 0x3EC, .disallowed⟩,
  ⟨0x3ED, 0x3ED, .pvalid⟩,
  ⟨0x3EE, 0x3EE, .disallowed⟩,
  ⟨0x3EF, 0x3EF, .pvalid⟩,
  ⟨0x3F0, 0x3F2, .disallowed⟩,
  ⟨0x3F3, 0x3F3, .pvalid⟩,
  ⟨0x3F4, 0x3F7, .disallowed⟩,
  ⟨0x3F8, 0x3F8, .pvalid⟩,
  ⟨0x3F9, 0x3FA, .disallowed⟩,
  ⟨0x3FB, 0x3FC, .pvalid⟩,
  ⟨0x3FD, 0x42F, .disallowed⟩,
  ⟨0x430, 0x45F, .pvalid⟩,
  ⟨0x460, 0x460, .disallowed⟩,
  ⟨0x461, 0x461, .pvalid⟩,
  ⟨0x462, 0x462, .disallowed⟩,
  ⟨0x463, 0x463, .pvalid⟩,
  ⟨0x464, 0x464, .disallowed⟩,
  ⟨0x465, 0x465, .pvalid⟩,
  ⟨0x466, 0x466, .disallowed⟩,
  ⟨0x467, 0x467, .pvalid⟩,
  ⟨0x468, 0x468, .disallowed⟩,
  ⟨0x469, 0x469, .pvalid⟩,
  ⟨0x46A, 0x46A, .disallowed⟩,
  ⟨0x46B, 0x46B, .pvalid⟩,
  ⟨0x46C, 0x46C, .disallowed⟩,
  ⟨0x46D, 0x46D, .pvalid⟩,
  ⟨0x46E, 0x46E, .disallowed⟩,
  ⟨0x46F, 0x46F, .pvalid⟩,
  ⟨0x470, 0x470, .disallowed⟩,
  ⟨0x471, 0x471, .pvalid⟩,
  ⟨0x472, 0x472, .disallowed⟩,
  ⟨0x473, 0x473, .pvalid⟩,
  ⟨0x474, 0x474, .disallowed⟩,
  ⟨0x475, 0x475, .pvalid⟩,
  ⟨0x476, 0x476, .disallowed⟩,
  ⟨0x477, 0x477, .pvalid⟩,
  ⟨0x478, 0x478, .disallowed⟩,
  ⟨0x479, 0x479, .pvalid⟩,
  ⟨0x47A, 0x47A, .disallowed⟩,
  ⟨0x47B, 0x47B, .pvalid⟩,
  ⟨0x47C, 0x47C, .disallowed⟩,
  ⟨0x47D, 0x47D, .pvalid⟩,
  ⟨0x47E, 0x47E, .disallowed⟩,
  ⟨0x47F, 0x47F, .pvalid⟩,
  ⟨0x480, 0x480, .disallowed⟩,
  ⟨0x481, 0x481, .pvalid⟩,
  ⟨0x482, 0x482, .disallowed⟩,
  ⟨0x483, 0x487, .pvalid⟩,
  ⟨0x488, 0x48A, .disallowed⟩,
  ⟨0x48B, 0x48B, .pvalid⟩,
  ⟨0x48C, 0x48C, .disallowed⟩,
  ⟨0x48D, 0x48D, .pvalid⟩,
  ⟨0x48E, 0x48E, .disallowed⟩,
  ⟨0x48F, 0x48F, .pvalid⟩,
  ⟨0x490, 0x490, .disallowed⟩,
  ⟨0x491, 0x491, .pvalid⟩,
  ⟨0x492, 0x492, .disallowed⟩,
  ⟨0x493, 0x493, .pvalid⟩,
  ⟨0x494, 0x494, .disallowed⟩,
  ⟨0x495, 0x495, .pvalid⟩,
  ⟨0x496, 0x496, .disallowed⟩,
  ⟨0x497, 0x497, .pvalid⟩,
  ⟨0x498, 0x498, .disallowed⟩,
  ⟨0x499, 0x499, .pvalid⟩,
  ⟨0x49A, 0x49A, .disallowed⟩,
  ⟨0x49B, 0x49B, .pvalid⟩,
  ⟨0x49C, 0x49C, .disallowed⟩,
  ⟨0x49D, 0x49D, .pvalid⟩,
  ⟨0x49E, 0x49E, .disallowed⟩,
  ⟨0x49F, 0x49F, .pvalid⟩,
  ⟨0x4A0, 0x4A0, .disallowed⟩,
  ⟨0x4A1, 0x4A1, .pvalid⟩,
  ⟨0x4A2, 0x4A2, .disallowed⟩,
  ⟨0x4A3, 0x4A3, .pvalid⟩,
  ⟨0x4A4, 0x4A4, .disallowed⟩,
  ⟨0x4A5, 0x4A5, .pvalid⟩,
  ⟨0x4A6, 0x4A6, .disallowed⟩,
  ⟨0x4A7, 0x4A7, .pvalid⟩,
  ⟨0x4A8, 0x4A8, .disallowed⟩,
  ⟨0x4A9, 0x4A9, .pvalid⟩,
  ⟨0x4AA, 0x4AA, .disallowed⟩,
  ⟨0x4AB, 0x4AB, .pvalid⟩,
  ⟨0x4AC, 0x4AC, .disallowed⟩,
  ⟨0x4AD, 0x4AD, .pvalid⟩,
  ⟨0x4AE, 0x4AE, .disallowed⟩,
  ⟨0x4AF, 0x4AF, .pvalid⟩,
  ⟨0x4B0, 0x4B0, .disallowed⟩,
  ⟨0x4B1, 0x4B1, .pvalid⟩,
  ⟨0x4B2, 0x4B2, .disallowed⟩,
  ⟨0x4B3, 0x4B3, .pvalid⟩,
  ⟨0x4B4, 0x4B4, .disallowed⟩,
  ⟨0x4B5, 0x4B5, .pvalid⟩,
  ⟨0x4B6, 0x4B6, .disallowed⟩,
  ⟨0x4B7, 0x4B7, .pvalid⟩,
  ⟨0x4B8, 0x4B8, .disallowed⟩,
  ⟨0x4B9, 0x4B9, .pvalid⟩,
  ⟨0x4BA, 0x4BA, .disallowed⟩,
  ⟨0x4BB, 0x4BB, .pvalid⟩,
  ⟨0x4BC, 0x4BC, .disallowed⟩,
  ⟨0x4BD, 0x4BD, .pvalid⟩,
  ⟨0x4BE, 0x4BE, .disallowed⟩,
  ⟨0x4BF, 0x4BF, .pvalid⟩,
  ⟨0x4C0, 0x4C1, .disallowed⟩,
  ⟨0x4C2, 0x4C2, .pvalid⟩,
  ⟨0x4C3, 0x4C3, .disallowed⟩,
  ⟨0x4C4, 0x4C4, .pvalid⟩,
  ⟨0x4C5, 0x4C5, .disallowed⟩,
  ⟨0x4C6, 0x4C6, .pvalid⟩,
  ⟨0x4C7, 0x4C7, .disallowed⟩,
  ⟨0x4C8, 0x4C8, .pvalid⟩,
  ⟨0x4C9, 0x4C9, .disallowed⟩,
  ⟨0x4CA, 0x4CA, .pvalid⟩,
  ⟨0x4CB, 0x4CB, .disallowed⟩,
  ⟨0x4CC, 0x4CC, .pvalid⟩,
  ⟨0x4CD, 0x4CD, .disallowed⟩,
  ⟨0x4CE, 0x4CF, .pvalid⟩,
  ⟨0x4D0, 0x4D0, .disallowed⟩,
  ⟨0x4D1, 0x4D1, .pvalid⟩,
  ⟨0x4D2, 0x4D2, .disallowed⟩,
  ⟨0x4D3, 0x4D3, .pvalid⟩,
  ⟨0x4D4, 0x4D4, .disallowed⟩,
  ⟨0x4D5, 0x4D5, .pvalid⟩,
  ⟨0x4D6, 0x4D6, .disallowed⟩,
  ⟨0x4D7, 0x4D7, .pvalid⟩,
  ⟨0x4D8, 0x4D8, .disallowed⟩,
  ⟨0x4D9, 0x4D9, .pvalid⟩,
  ⟨0x4DA, 0x4DA, .disallowed⟩,
  ⟨0x4DB, 0x4DB, .pvalid⟩,
  ⟨0x4DC, 0x4DC, .disallowed⟩,
  ⟨0x4DD, 0x4DD, .pvalid⟩,
  ⟨0x4DE, 0x4DE, .disallowed⟩,
  ⟨0x4DF, 0x4DF, .pvalid⟩,
  ⟨0x4E0, 0x4E0, .disallowed⟩,
  ⟨0x4E1, 0x4E1, .pvalid⟩,
  ⟨0x4E2, 0x4E2, .disallowed⟩,
  ⟨0x4E3, 0x4E3, .pvalid⟩,
  ⟨0x4E4, 0x4E4, .disallowed⟩,
  ⟨0x4E5, 0x4E5, .pvalid⟩,
  ⟨0x4E6, 0x4E6, .disallowed⟩,
  ⟨0x4E7, 0x4E7, .pvalid⟩,
  ⟨0x4E8, 0x4E8, .disallowed⟩,
  ⟨0x4E9, 0x4E9, .pvalid⟩,
  ⟨0x4EA, 0x4EA, .disallowed⟩,
  ⟨0x4EB, 0x4EB, .pvalid⟩,
  ⟨0x4EC, 0x4EC, .disallowed⟩,
  ⟨0x4ED, 0x4ED, .pvalid⟩,
  ⟨0x4EE, 0x4EE, .disallowed⟩,
  ⟨0x4EF, 0x4EF, .pvalid⟩,
  ⟨0x4F0, 0x4F0, .disallowed⟩,
  ⟨0x4F1, 0x4F1, .pvalid⟩,
  ⟨0x4F2, 0x4F2, .disallowed⟩,
  ⟨0x4F3, 0x4F3, .pvalid⟩,
  ⟨0x4F4, 0x4F4, .disallowed⟩,
  ⟨0x4F5, 0x4F5, .pvalid⟩,
  ⟨0x4F6, 0x4F6, .disallowed⟩]

def csv2 : List CsvRow := [
  ⟨0x4F7, 0x4F7, .pvalid⟩,
  ⟨0x4F8, 0x4F8, .disallowed⟩,
  ⟨0x4F9, 0x4F9, .pvalid⟩,
  ⟨0x4FA, 0x4FA, .disallowed⟩,
  ⟨0x4FB, 0x4FB, .pvalid⟩,
  ⟨0x4FC, 0x4FC, .disallowed⟩,
  ⟨0x4FD, 0x4FD, .pvalid⟩,
  ⟨0x4FE, 0x4FE, .disallowed⟩,
  ⟨0x4FF, 0x4FF, .pvalid⟩,
  ⟨0x500, 0x500, .disallowed⟩,
  ⟨0x501, 0x501, .pvalid⟩,
  ⟨0x502, 0x502, .disallowed⟩,
  ⟨0x503, 0x503, .pvalid⟩,
  ⟨0x504, 0x504, .disallowed⟩,
  ⟨0x505, 0x505, .pvalid⟩,
  ⟨0x506, 0x506, .disallowed⟩,
  ⟨0x507, 0x507, .pvalid⟩,
  ⟨0x508, 0x508, .disallowed⟩,
  ⟨0x509, 0x509, .pvalid⟩,
  ⟨0x50A, 0x50A, .disallowed⟩,
  ⟨0x50B, 0x50B, .pvalid⟩,
  ⟨0x50C, 0x50C, .disallowed⟩,
  ⟨0x50D, 0x50D, .pvalid⟩,
  ⟨0x50E, 0x50E, .disallowed⟩,
  ⟨0x50F, 0x50F, .pvalid⟩,
  ⟨0x510, 0x510, .disallowed⟩,
  ⟨0x511, 0x511, .pvalid⟩,
  ⟨0x512, 0x512, .disallowed⟩,
  ⟨0x513, 0x513, .pvalid⟩,
  ⟨0x514, 0x514, .disallowed⟩,
  ⟨0x515, 0x515, .pvalid⟩,
  ⟨0x516, 0x516, .disallowed⟩,
  ⟨0x517, 0x517, .pvalid⟩,
  ⟨0x518, 0x518, .disallowed⟩,
  ⟨0x519, 0x519, .pvalid⟩,
  ⟨0x51A, 0x51A, .disallowed⟩,
  ⟨0x51B, 0x51B, .pvalid⟩,
  ⟨0x51C, 0x51C, .disallowed⟩,
  ⟨0x51D, 0x51D, .pvalid⟩,
  ⟨0x51E, 0x51E, .disallowed⟩,
  ⟨0x51F, 0x51F, .pvalid⟩,
  ⟨0x520, 0x520, .disallowed⟩,
  ⟨0x521, 0x521, .pvalid⟩,
  ⟨0x522, 0x522, .disallowed⟩,
  ⟨0x523, 0x523, .pvalid⟩,
  ⟨0x524, 0x524, .disallowed⟩,
  ⟨0x525, 0x525, .pvalid⟩,
  ⟨0x526, 0x526, .disallowed⟩,
  ⟨0x527, 0x527, .pvalid⟩,
  ⟨0x528, 0x528, .disallowed⟩,
  ⟨0x529, 0x529, .pvalid⟩,
  ⟨0x52A, 0x52A, .disallowed⟩,
  ⟨0x52B, 0x52B, .pvalid⟩,
  ⟨0x52C, 0x52C, .disallowed⟩,
  ⟨0x52D, 0x52D, .pvalid⟩,
  ⟨0x52E, 0x52E, .disallowed⟩,
  ⟨0x52F, 0x52F, .pvalid⟩,
  ⟨0x530, 0x530, .unassigned⟩,
  ⟨0x531, 0x556, .disallowed⟩,
  ⟨0x557, 0x558, .unassigned⟩,
  ⟨0x559, 0x559, .pvalid⟩,
  ⟨0x55A, 0x55F, .disallowed⟩,
  ⟨0x560, 0x586, .pvalid⟩,
  ⟨0x587, 0x587, .disallowed⟩,
  ⟨0x588, 0x588, .pvalid⟩,
  ⟨0x589, 0x58A, .disallowed⟩,
  ⟨0x58B, 0x58C, .unassigned⟩,
  ⟨0x58D, 0x58F, .disallowed⟩,
  ⟨0x590, 0x590, .unassigned⟩,
  ⟨0x591, 0x5BD, .pvalid⟩,
  ⟨0x5BE, 0x5BE, .disallowed⟩,
  ⟨0x5BF, 0x5BF, .pvalid⟩,
  ⟨0x5C0, 0x5C0, .disallowed⟩,
  ⟨0x5C1, 0x5C2, .pvalid⟩,
  ⟨0x5C3, 0x5C3, .disallowed⟩,
  ⟨0x5C4, 0x5C5, .pvalid⟩,
  ⟨0x5C6, 0x5C6, .disallowed⟩,
  ⟨0x5C7, 0x5C7, .pvalid⟩,
  ⟨0x5C8, 0x5CF, .unassigned⟩,
  ⟨0x5D0, 0x5EA, .pvalid⟩,
  ⟨0x5EB, 0x5EE, .unassigned⟩,
  ⟨0x5EF, 0x5F2, .pvalid⟩,
  ⟨0x5F3, 0x5F4, .contexto⟩,
  ⟨0x5F5, 0x5FF, .unassigned⟩,
  ⟨0x600, 0x60F, .disallowed⟩,
  ⟨0x610, 0x61A, .pvalid⟩,
  ⟨0x61B, 0x61C, .disallowed⟩,
  ⟨0x61D, 0x61D, .unassigned⟩,
  ⟨0x61E, 0x61F, .disallowed⟩,
  ⟨0x620, 0x63F, .pvalid⟩,
  ⟨0x640, 0x640, .disallowed⟩,
  ⟨0x641, 0x65F, .pvalid⟩,
  ⟨0x660, 0x669, .contexto⟩,
  ⟨0x66A, 0x66D, .disallowed⟩,
  ⟨0x66E, 0x674, .pvalid⟩,
  ⟨0x675, 0x678, .disallowed⟩,
  ⟨0x679, 0x6D3, .pvalid⟩,
  ⟨0x6D4, 0x6D4, .disallowed⟩,
  ⟨0x6D5, 0x6DC, .pvalid⟩,
  ⟨0x6DD, 0x6DE, .disallowed⟩,
  ⟨0x6DF, 0x6E8, .pvalid⟩,
  ⟨0x6E9, 0x6E9, .disallowed⟩,
  ⟨0x6EA, 0x6EF, .pvalid⟩,
  ⟨0x6F0, 0x6F9, .contexto⟩,
  ⟨0x6FA, 0x6FF, .pvalid⟩,
  ⟨0x700, 0x70D, .disallowed⟩,
  ⟨0x70E, 0x70E, .unassigned⟩,
  ⟨0x70F, 0x70F, .disallowed⟩,
  ⟨0x710, 0x74A, .pvalid⟩,
  ⟨0x74B, 0x74C, .unassigned⟩,
  ⟨0x74D, 0x7B1, .pvalid⟩,
  ⟨0x7B2, 0x7BF, .unassigned⟩,
  ⟨0x7C0, 0x7F5, .pvalid⟩,
  ⟨0x7F6, 0x7FA, .disallowed⟩,
  ⟨0x7FB, 0x7FC, .unassigned⟩,
  ⟨0x7FD, 0x7FD, .pvalid⟩,
  ⟨0x7FE, 0x7FF, .disallowed⟩,
  ⟨0x800, 0x82D, .pvalid⟩,
  ⟨0x82E, 0x82F, .unassigned⟩,
  ⟨0x830, 0x83E, .disallowed⟩,
  ⟨0x83F, 0x83F, .unassigned⟩,
  ⟨0x840, 0x85B, .pvalid⟩,
  ⟨0x85C, 0x85D, .unassigned⟩,
  ⟨0x85E, 0x85E, .disallowed⟩,
  ⟨0x85F, 0x85F, .unassigned⟩,
  ⟨0x860, 0x86A, .pvalid⟩,
  ⟨0x86B, 0x89F, .unassigned⟩,
  ⟨0x8A0, 0x8B4, .pvalid⟩,
  ⟨0x8B5, 0x8B5, .unassigned⟩,
  ⟨0x8B6, 0x8BD, .pvalid⟩,
  ⟨0x8BE, 0x8D2, .unassigned⟩,
  ⟨0x8D3, 0x8E1, .pvalid⟩,
  ⟨0x8E2, 0x8E2, .disallowed⟩,
  ⟨0x8E3, 0x957, .pvalid⟩,
  ⟨0x958, 0x95F, .disallowed⟩,
  ⟨0x960, 0x963, .pvalid⟩,
  ⟨0x964, 0x965, .disallowed⟩,
  ⟨0x966, 0x96F, .pvalid⟩,
  ⟨0x970, 0x970, .disallowed⟩,
  ⟨0x971, 0x983, .pvalid⟩,
  ⟨0x984, 0x984, .unassigned⟩,
  ⟨0x985, 0x98C, .pvalid⟩,
  ⟨0x98D, 0x98E, .unassigned⟩,
  ⟨0x98F, 0x990, .pvalid⟩,
  ⟨0x991, 0x992, .unassigned⟩,
  ⟨0x993, 0x9A8, .pvalid⟩,
  ⟨0x9A9, 0x9A9, .unassigned⟩,
  ⟨0x9AA, 0x9B0, .pvalid⟩,
  ⟨0x9B1, 0x9B1, .unassigned⟩,
  ⟨0x9B2, 0x9B2, .pvalid⟩,
  ⟨0x9B3, 0x9B5, .unassigned⟩,
  ⟨0x9B6, 0x9B9, .pvalid⟩,
  ⟨0x9BA, 0x9BB, .unassigned⟩,
  ⟨0x9BC, 0x9C4, .pvalid⟩,
  ⟨0x9C5, 0x9C6, .unassigned⟩,
  ⟨0x9C7, 0x9C8, .pvalid⟩,
  ⟨0x9C9, 0x9CA, .unassigned⟩,
  ⟨0x9CB, 0x9CE, .pvalid⟩,
  ⟨0x9CF, 0x9D6, .unassigned⟩,
  ⟨0x9D7, 0x9D7, .pvalid⟩,
  ⟨0x9D8, 0x9DB, .unassigned⟩,
  ⟨0x9DC, 0x9DD, .disallowed⟩,
  ⟨0x9DE, 0x9DE, .unassigned⟩,
  ⟨0x9DF, 0x9DF, .disallowed⟩,
  ⟨0x9E0, 0x9E3, .pvalid⟩,
  ⟨0x9E4, 0x9E5, .unassigned⟩,
  ⟨0x9E6, 0x9F1, .pvalid⟩,
  ⟨0x9F2, 0x9FB, .disallowed⟩,
  ⟨0x9FC, 0x9FC, .pvalid⟩,
  ⟨0x9FD, 0x9FD, .disallowed⟩,
  ⟨0x9FE, 0x9FE, .pvalid⟩,
  ⟨0x9FF, 0xA00, .unassigned⟩,
  ⟨0xA01, 0xA03, .pvalid⟩,
  ⟨0xA04, 0xA04, .unassigned⟩,
  ⟨0xA05, 0xA0A, .pvalid⟩,
  ⟨0xA0B, 0xA0E, .unassigned⟩,
  ⟨0xA0F, 0xA10, .pvalid⟩,
  ⟨0xA11, 0xA12, .unassigned⟩,
  ⟨0xA13, 0xA28, .pvalid⟩,
  ⟨0xA29, 0xA29, .unassigned⟩,
  ⟨0xA2A, 0xA30, .pvalid⟩,
  ⟨0xA31, 0xA31, .unassigned⟩,
  ⟨0xA32, 0xA32, .pvalid⟩,
  ⟨0xA33, 0xA33, .disallowed⟩,
  ⟨0xA34, 0xA34, .unassigned⟩,
  ⟨0xA35, 0xA35, .pvalid⟩,
  ⟨0xA36, 0xA36, .disallowed⟩,
  ⟨0xA37, 0xA37, .unassigned⟩,
  ⟨0xA38, 0xA39, .pvalid⟩,
  ⟨0xA3A, 0xA3B, .unassigned⟩,
  ⟨0xA3C, 0xA3C, .pvalid⟩,
  ⟨0xA3D, 0xA3D, .unassigned⟩,
  ⟨0xA3E, 0xA42, .pvalid⟩,
  ⟨0xA43, 0xA46, .unassigned⟩,
  ⟨0xA47, 0xA48, .pvalid⟩,
  ⟨0xA49, 0xA4A, .unassigned⟩,
  ⟨0xA4B, 0xA4D, .pvalid⟩,
  ⟨0xA4E, 0xA50, .unassigned⟩,
  ⟨0xA51, 0xA51, .pvalid⟩,
  ⟨0xA52, 0xA58, .unassigned⟩,
  ⟨0xA59, 0xA5B, .disallowed⟩,
  ⟨0xA5C, 0xA5C, .pvalid⟩,
  ⟨0xA5D, 0xA5D, .unassigned⟩,
  ⟨0xA5E, 0xA5E, .disallowed⟩,
  ⟨0xA5F, 0xA65, .unassigned⟩,
  ⟨0xA66, 0xA75, .pvalid⟩,
  ⟨0xA76, 0xA76, .disallowed⟩,
  ⟨0xA77, 0xA80, .unassigned⟩,
  ⟨0xA81, 0xA83, .pvalid⟩,
  ⟨0xA84, 0xA84, .unassigned⟩,
  ⟨0xA85, 0xA8D, .pvalid⟩,
  ⟨0xA8E, 0xA8E, .unassigned⟩,
  ⟨0xA8F, 0xA91, .pvalid⟩,
  ⟨0xA92, 0xA92, .unassigned⟩,
  ⟨0xA93, 0xAA8, .pvalid⟩,
  ⟨0xAA9, 0xAA9, .unassigned⟩,
  ⟨0xAAA, 0xAB0, .pvalid⟩,
  ⟨0xAB1, 0xAB1, .unassigned⟩,
  ⟨0xAB2, 0xAB3, .pvalid⟩,
  ⟨0xAB4, 0xAB4, .unassigned⟩,
  ⟨0xAB5, 0xAB9, .pvalid⟩,
  ⟨0xABA, 0xABB, .unassigned⟩,
  ⟨0xABC, 0xAC5, .pvalid⟩,
  ⟨0xAC6, 0xAC6, .unassigned⟩,
  ⟨0xAC7, 0xAC9, .pvalid⟩,
  ⟨0xACA, 0xACA, .unassigned⟩,
  ⟨0xACB, 0xACD, .pvalid⟩,
  ⟨0xACE, 0xACF, .unassigned⟩,
  ⟨0xAD0, 0xAD0, .pvalid⟩,
  ⟨0xAD1, 0xADF, .unassigned⟩,
  ⟨0xAE0, 0xAE3, .pvalid⟩,
  ⟨0xAE4, 0xAE5, .unassigned⟩,
  ⟨0xAE6, 0xAEF, .pvalid⟩,
  ⟨0xAF0, 0xAF1, .disallowed⟩,
  ⟨0xAF2, 0xAF8, .unassigned⟩,
  ⟨0xAF9, 0xAFF, .pvalid⟩,
  ⟨0xB00, 0xB00, .unassigned⟩,
  ⟨0xB01, 0xB03, .pvalid⟩,
  ⟨0xB04, 0xB04, .unassigned⟩,
  ⟨0xB05, 0xB0C, .pvalid⟩,
  ⟨0xB0D, 0xB0E, .unassigned⟩,
  ⟨0xB0F, 0xB10, .pvalid⟩,
  ⟨0xB11, 0xB12, .unassigned⟩,
  ⟨0xB13, 0xB28, .pvalid⟩,
  ⟨0xB29, 0xB29, .unassigned⟩,
  ⟨0xB2A, 0xB30, .pvalid⟩,
  ⟨0xB31, 0xB31, .unassigned⟩,
  ⟨0xB32, 0xB33, .pvalid⟩,
  ⟨0xB34, 0xB34, .unassigned⟩,
  ⟨0xB35, 0xB39, .pvalid⟩]

def csv3 : List CsvRow := [
  ⟨0xB3A, 0xB3B, .unassigned⟩,
  ⟨0xB3C, 0xB44, .pvalid⟩,
  ⟨0xB45, 0xB46, .unassigned⟩,
  ⟨0xB47, 0xB48, .pvalid⟩,
  ⟨0xB49, 0xB4A, .unassigned⟩,
  ⟨0xB4B, 0xB4D, .pvalid⟩,
  ⟨0xB4E, 0xB55, .unassigned⟩,
  ⟨0xB56, 0xB57, .pvalid⟩,
  ⟨0xB58, 0xB5B, .unassigned⟩,
  ⟨0xB5C, 0xB5D, .disallowed⟩,
  ⟨0xB5E, 0xB5E, .unassigned⟩,
  ⟨0xB5F, 0xB63, .pvalid⟩,
  ⟨0xB64, 0xB65, .unassigned⟩,
  ⟨0xB66, 0xB6F, .pvalid⟩,
  ⟨0xB70, 0xB70, .disallowed⟩,
  ⟨0xB71, 0xB71, .pvalid⟩,
  ⟨0xB72, 0xB77, .disallowed⟩,
  ⟨0xB78, 0xB81, .unassigned⟩,
  ⟨0xB82, 0xB83, .pvalid⟩,
  ⟨0xB84, 0xB84, .unassigned⟩,
  ⟨0xB85, 0xB8A, .pvalid⟩,
  ⟨0xB8B, 0xB8D, .unassigned⟩,
  ⟨0xB8E, 0xB90, .pvalid⟩,
  ⟨0xB91, 0xB91, .unassigned⟩,
  ⟨0xB92, 0xB95, .pvalid⟩,
  ⟨0xB96, 0xB98, .unassigned⟩,
  ⟨0xB99, 0xB9A, .pvalid⟩,
  ⟨0xB9B, 0xB9B, .unassigned⟩,
  ⟨0xB9C, 0xB9C, .pvalid⟩,
  ⟨0xB9D, 0xB9D, .unassigned⟩,
  ⟨0xB9E, 0xB9F, .pvalid⟩,
  ⟨0xBA0, 0xBA2, .unassigned⟩,
  ⟨0xBA3, 0xBA4, .pvalid⟩,
  ⟨0xBA5, 0xBA7, .unassigned⟩,
  ⟨0xBA8, 0xBAA, .pvalid⟩,
  ⟨0xBAB, 0xBAD, .unassigned⟩,
  ⟨0xBAE, 0xBB9, .pvalid⟩,
  ⟨0xBBA, 0xBBD, .unassigned⟩,
  ⟨0xBBE, 0xBC2, .pvalid⟩,
  ⟨0xBC3, 0xBC5, .unassigned⟩,
  ⟨0xBC6, 0xBC8, .pvalid⟩,
  ⟨0xBC9, 0xBC9, .unassigned⟩,
  ⟨0xBCA, 0xBCD, .pvalid⟩,
  ⟨0xBCE, 0xBCF, .unassigned⟩,
  ⟨0xBD0, 0xBD0, .pvalid⟩,
  ⟨0xBD1, 0xBD6, .unassigned⟩,
  ⟨0xBD7, 0xBD7, .pvalid⟩,
  ⟨0xBD8, 0xBE5, .unassigned⟩,
  ⟨0xBE6, 0xBEF, .pvalid⟩,
  ⟨0xBF0, 0xBFA, .disallowed⟩,
  ⟨0xBFB, 0xBFF, .unassigned⟩,
  ⟨0xC00, 0xC0C, .pvalid⟩,
  ⟨0xC0D, 0xC0D, .unassigned⟩,
  ⟨0xC0E, 0xC10, .pvalid⟩,
  ⟨0xC11, 0xC11, .unassigned⟩,
  ⟨0xC12, 0xC28, .pvalid⟩,
  ⟨0xC29, 0xC29, .unassigned⟩,
  ⟨0xC2A, 0xC39, .pvalid⟩,
  ⟨0xC3A, 0xC3C, .unassigned⟩,
  ⟨0xC3D, 0xC44, .pvalid⟩,
  ⟨0xC45, 0xC45, .unassigned⟩,
  ⟨0xC46, 0xC48, .pvalid⟩,
  ⟨0xC49, 0xC49, .unassigned⟩,
  ⟨0xC4A, 0xC4D, .pvalid⟩,
  ⟨0xC4E, 0xC54, .unassigned⟩,
  ⟨0xC55, 0xC56, .pvalid⟩,
  ⟨0xC57, 0xC57, .unassigned⟩,
  ⟨0xC58, 0xC5A, .pvalid⟩,
  ⟨0xC5B, 0xC5F, .unassigned⟩,
  ⟨0xC60, 0xC63, .pvalid⟩,
  ⟨0xC64, 0xC65, .unassigned⟩,
  ⟨0xC66, 0xC6F, .pvalid⟩,
  ⟨0xC70, 0xC77, .unassigned⟩,
  ⟨0xC78, 0xC7F, .disallowed⟩,
  ⟨0xC80, 0xC83, .pvalid⟩,
  ⟨0xC84, 0xC84, .disallowed⟩,
  ⟨0xC85, 0xC8C, .pvalid⟩,
  ⟨0xC8D, 0xC8D, .unassigned⟩,
  ⟨0xC8E, 0xC90, .pvalid⟩,
  ⟨0xC91, 0xC91, .unassigned⟩,
  ⟨0xC92, 0xCA8, .pvalid⟩,
  ⟨0xCA9, 0xCA9, .unassigned⟩,
  ⟨0xCAA, 0xCB3, .pvalid⟩,
  ⟨0xCB4, 0xCB4, .unassigned⟩,
  ⟨0xCB5, 0xCB9, .pvalid⟩,
  ⟨0xCBA, 0xCBB, .unassigned⟩,
  ⟨0xCBC, 0xCC4, .pvalid⟩,
  ⟨0xCC5, 0xCC5, .unassigned⟩,
  ⟨0xCC6, 0xCC8, .pvalid⟩,
  ⟨0xCC9, 0xCC9, .unassigned⟩,
  ⟨0xCCA, 0xCCD, .pvalid⟩,
  ⟨0xCCE, 0xCD4, .unassigned⟩,
  ⟨0xCD5, 0xCD6, .pvalid⟩,
  ⟨0xCD7, 0xCDD, .unassigned⟩,
  ⟨0xCDE, 0xCDE, .pvalid⟩,
  ⟨0xCDF, 0xCDF, .unassigned⟩,
  ⟨0xCE0, 0xCE3, .pvalid⟩,
  ⟨0xCE4, 0xCE5, .unassigned⟩,
  ⟨0xCE6, 0xCEF, .pvalid⟩,
  ⟨0xCF0, 0xCF0, .unassigned⟩,
  ⟨0xCF1, 0xCF2, .pvalid⟩,
  ⟨0xCF3, 0xCFF, .unassigned⟩,
  ⟨0xD00, 0xD03, .pvalid⟩,
  ⟨0xD04, 0xD04, .unassigned⟩,
  ⟨0xD05, 0xD0C, .pvalid⟩,
  ⟨0xD0D, 0xD0D, .unassigned⟩,
  ⟨0xD0E, 0xD10, .pvalid⟩,
  ⟨0xD11, 0xD11, .unassigned⟩,
  ⟨0xD12, 0xD44, .pvalid⟩,
  ⟨0xD45, 0xD45, .unassigned⟩,
  ⟨0xD46, 0xD48, .pvalid⟩,
  ⟨0xD49, 0xD49, .unassigned⟩,
  ⟨0xD4A, 0xD4E, .pvalid⟩,
  ⟨0xD4F, 0xD4F, .disallowed⟩,
  ⟨0xD50, 0xD53, .unassigned⟩,
  ⟨0xD54, 0xD57, .pvalid⟩,
  ⟨0xD58, 0xD5E, .disallowed⟩,
  ⟨0xD5F, 0xD63, .pvalid⟩,
  ⟨0xD64, 0xD65, .unassigned⟩,
  ⟨0xD66, 0xD6F, .pvalid⟩,
  ⟨0xD70, 0xD79, .disallowed⟩,
  ⟨0xD7A, 0xD7F, .pvalid⟩,
  ⟨0xD80, 0xD81, .unassigned⟩,
  ⟨0xD82, 0xD83, .pvalid⟩,
  ⟨0xD84, 0xD84, .unassigned⟩,
  ⟨0xD85, 0xD96, .pvalid⟩,
  ⟨0xD97, 0xD99, .unassigned⟩,
  ⟨0xD9A, 0xDB1, .pvalid⟩,
  ⟨0xDB2, 0xDB2, .unassigned⟩,
  ⟨0xDB3, 0xDBB, .pvalid⟩,
  ⟨0xDBC, 0xDBC, .unassigned⟩,
  ⟨0xDBD, 0xDBD, .pvalid⟩,
  ⟨0xDBE, 0xDBF, .unassigned⟩,
  ⟨0xDC0, 0xDC6, .pvalid⟩,
  ⟨0xDC7, 0xDC9, .unassigned⟩,
  ⟨0xDCA, 0xDCA, .pvalid⟩,
  ⟨0xDCB, 0xDCE, .unassigned⟩,
  ⟨0xDCF, 0xDD4, .pvalid⟩,
  ⟨0xDD5, 0xDD5, .unassigned⟩,
  ⟨0xDD6, 0xDD6, .pvalid⟩,
  ⟨0xDD7, 0xDD7, .unassigned⟩,
  ⟨0xDD8, 0xDDF, .pvalid⟩,
  ⟨0xDE0, 0xDE5, .unassigned⟩,
  ⟨0xDE6, 0xDEF, .pvalid⟩,
  ⟨0xDF0, 0xDF1, .unassigned⟩,
  ⟨0xDF2, 0xDF3, .pvalid⟩,
  ⟨0xDF4, 0xDF4, .disallowed⟩,
  ⟨0xDF5, 0xE00, .unassigned⟩,
  ⟨0xE01, 0xE32, .pvalid⟩,
  ⟨0xE33, 0xE33, .disallowed⟩,
  ⟨0xE34, 0xE3A, .pvalid⟩,
  ⟨0xE3B, 0xE3E, .unassigned⟩,
  ⟨0xE3F, 0xE3F, .disallowed⟩,
  ⟨0xE40, 0xE4E, .pvalid⟩,
  ⟨0xE4F, 0xE4F, .disallowed⟩,
  ⟨0xE50, 0xE59, .pvalid⟩,
  ⟨0xE5A, 0xE5B, .disallowed⟩,
  ⟨0xE5C, 0xE80, .unassigned⟩,
  ⟨0xE81, 0xE82, .pvalid⟩,
  ⟨0xE83, 0xE83, .unassigned⟩,
  ⟨0xE84, 0xE84, .pvalid⟩,
  ⟨0xE85, 0xE86, .unassigned⟩,
  ⟨0xE87, 0xE88, .pvalid⟩,
  ⟨0xE89, 0xE89, .unassigned⟩,
  ⟨0xE8A, 0xE8A, .pvalid⟩,
  ⟨0xE8B, 0xE8C, .unassigned⟩,
  ⟨0xE8D, 0xE8D, .pvalid⟩,
  ⟨0xE8E, 0xE93, .unassigned⟩,
  ⟨0xE94, 0xE97, .pvalid⟩,
  ⟨0xE98, 0xE98, .unassigned⟩,
  ⟨0xE99, 0xE9F, .pvalid⟩,
  ⟨0xEA0, 0xEA0, .unassigned⟩,
  ⟨0xEA1, 0xEA3, .pvalid⟩,
  ⟨0xEA4, 0xEA4, .unassigned⟩,
  ⟨0xEA5, 0xEA5, .pvalid⟩,
  ⟨0xEA6, 0xEA6, .unassigned⟩,
  ⟨0xEA7, 0xEA7, .pvalid⟩,
  ⟨0xEA8, 0xEA9, .unassigned⟩,
  ⟨0xEAA, 0xEAB, .pvalid⟩,
  ⟨0xEAC, 0xEAC, .unassigned⟩,
  ⟨0xEAD, 0xEB2, .pvalid⟩,
  ⟨0xEB3, 0xEB3, .disallowed⟩,
  ⟨0xEB4, 0xEB9, .pvalid⟩,
  ⟨0xEBA, 0xEBA, .unassigned⟩,
  ⟨0xEBB, 0xEBD, .pvalid⟩,
  ⟨0xEBE, 0xEBF, .unassigned⟩,
  ⟨0xEC0, 0xEC4, .pvalid⟩,
  ⟨0xEC5, 0xEC5, .unassigned⟩,
  ⟨0xEC6, 0xEC6, .pvalid⟩,
  ⟨0xEC7, 0xEC7, .unassigned⟩,
  ⟨0xEC8, 0xECD, .pvalid⟩,
  ⟨0xECE, 0xECF, .unassigned⟩,
  ⟨0xED0, 0xED9, .pvalid⟩,
  ⟨0xEDA, 0xEDB, .unassigned⟩,
  ⟨0xEDC, 0xEDD, .disallowed⟩,
  ⟨0xEDE, 0xEDF, .pvalid⟩,
  ⟨0xEE0, 0xEFF, .unassigned⟩,
  ⟨0xF00, 0xF00, .pvalid⟩,
  ⟨0xF01, 0xF0A, .disallowed⟩,
  ⟨0xF0B, 0xF0B, .pvalid⟩,
  ⟨0xF0C, 0xF17, .disallowed⟩,
  ⟨0xF18, 0xF19, .pvalid⟩,
  ⟨0xF1A, 0xF1F, .disallowed⟩,
  ⟨0xF20, 0xF29, .pvalid⟩,
  ⟨0xF2A, 0xF34, .disallowed⟩,
  ⟨0xF35, 0xF35, .pvalid⟩,
  ⟨0xF36, 0xF36, .disallowed⟩,
  ⟨0xF37, 0xF37, .pvalid⟩,
  ⟨0xF38, 0xF38, .disallowed⟩,
  ⟨0xF39, 0xF39, .pvalid⟩,
  ⟨0xF3A, 0xF3D, .disallowed⟩,
  ⟨0xF3E, 0xF42, .pvalid⟩,
  ⟨0xF43, 0xF43, .disallowed⟩,
  ⟨0xF44, 0xF47, .pvalid⟩,
  ⟨0xF48, 0xF48, .unassigned⟩,
  ⟨0xF49, 0xF4C, .pvalid⟩,
  ⟨0xF4D, 0xF4D, .disallowed⟩,
  ⟨0xF4E, 0xF51, .pvalid⟩,
  ⟨0xF52, 0xF52, .disallowed⟩,
  ⟨0xF53, 0xF56, .pvalid⟩,
  ⟨0xF57, 0xF57, .disallowed⟩,
  ⟨0xF58, 0xF5B, .pvalid⟩,
  ⟨0xF5C, 0xF5C, .disallowed⟩,
  ⟨0xF5D, 0xF68, .pvalid⟩,
  ⟨0xF69, 0xF69, .disallowed⟩,
  ⟨0xF6A, 0xF6C, .pvalid⟩,
  ⟨0xF6D, 0xF70, .unassigned⟩,
  ⟨0xF71, 0xF72, .pvalid⟩,
  ⟨0xF73, 0xF73, .disallowed⟩,
  ⟨0xF74, 0xF74, .pvalid⟩,
  ⟨0xF75, 0xF79, .disallowed⟩,
  ⟨0xF7A, 0xF80, .pvalid⟩,
  ⟨0xF81, 0xF81, .disallowed⟩,
  ⟨0xF82, 0xF84, .pvalid⟩,
  ⟨0xF85, 0xF85, .disallowed⟩,
  ⟨0xF86, 0xF92, .pvalid⟩,
  ⟨0xF93, 0xF93, .disallowed⟩,
  ⟨0xF94, 0xF97, .pvalid⟩,
  ⟨0xF98, 0xF98, .unassigned⟩,
  ⟨0xF99, 0xF9C, .pvalid⟩,
  ⟨0xF9D, 0xF9D, .disallowed⟩,
  ⟨0xF9E, 0xFA1, .pvalid⟩,
  ⟨0xFA2, 0xFA2, .disallowed⟩,
  ⟨0xFA3, 0xFA6, .pvalid⟩,
  ⟨0xFA7, 0xFA7, .disallowed⟩,
  ⟨0xFA8, 0xFAB, .pvalid⟩,
  ⟨0xFAC, 0xFAC, .disallowed⟩,
  ⟨0xFAD, 0xFB8, .pvalid⟩,
  ⟨0xFB9, 0xFB9, .disallowed⟩,
  ⟨0xFBA, 0xFBC, .pvalid⟩]

def csv4 : List CsvRow := [
  ⟨0xFBD, 0xFBD, .unassigned⟩,
  ⟨0xFBE, 0xFC5, .disallowed⟩,
  ⟨0xFC6, 0xFC6, .pvalid⟩,
  ⟨0xFC7, 0xFCC, .disallowed⟩,
  ⟨0xFCD, 0xFCD, .unassigned⟩,
  ⟨0xFCE, 0xFDA, .disallowed⟩,
  ⟨0xFDB, 0xFFF, .unassigned⟩,
  ⟨0x1000, 0x1049, .pvalid⟩,
  ⟨0x104A, 0x104F, .disallowed⟩,
  ⟨0x1050, 0x109D, .pvalid⟩,
  ⟨0x109E, 0x10C5, .disallowed⟩,
  ⟨0x10C6, 0x10C6, .unassigned⟩,
  ⟨0x10C7, 0x10C7, .disallowed⟩,
  ⟨0x10C8, 0x10CC, .unassigned⟩,
  ⟨0x10CD, 0x10CD, .disallowed⟩,
  ⟨0x10CE, 0x10CF, .unassigned⟩,
  ⟨0x10D0, 0x10FA, .pvalid⟩,
  ⟨0x10FB, 0x10FC, .disallowed⟩,
  ⟨0x10FD, 0x10FF, .pvalid⟩,
  ⟨0x1100, 0x11FF, .disallowed⟩,
  ⟨0x1200, 0x1248, .pvalid⟩,
  ⟨0x1249, 0x1249, .unassigned⟩,
  ⟨0x124A, 0x124D, .pvalid⟩,
  ⟨0x124E, 0x124F, .unassigned⟩,
  ⟨0x1250, 0x1256, .pvalid⟩,
  ⟨0x1257, 0x1257, .unassigned⟩,
  ⟨0x1258, 0x1258, .pvalid⟩,
  ⟨0x1259, 0x1259, .unassigned⟩,
  ⟨0x125A, 0x125D, .pvalid⟩,
  ⟨0x125E, 0x125F, .unassigned⟩,
  ⟨0x1260, 0x1288, .pvalid⟩,
  ⟨0x1289, 0x1289, .unassigned⟩,
  ⟨0x128A, 0x128D, .pvalid⟩,
  ⟨0x128E, 0x128F, .unassigned⟩,
  ⟨0x1290, 0x12B0, .pvalid⟩,
  ⟨0x12B1, 0x12B1, .unassigned⟩,
  ⟨0x12B2, 0x12B5, .pvalid⟩,
  ⟨0x12B6, 0x12B7, .unassigned⟩,
  ⟨0x12B8, 0x12BE, .pvalid⟩,
  ⟨0x12BF, 0x12BF, .unassigned⟩,
  ⟨0x12C0, 0x12C0, .pvalid⟩,
  ⟨0x12C1, 0x12C1, .unassigned⟩,
  ⟨0x12C2, 0x12C5, .pvalid⟩,
  ⟨0x12C6, 0x12C7, .unassigned⟩,
  ⟨0x12C8, 0x12D6, .pvalid⟩,
  ⟨0x12D7, 0x12D7, .unassigned⟩,
  ⟨0x12D8, 0x1310, .pvalid⟩,
  ⟨0x1311, 0x1311, .unassigned⟩,
  ⟨0x1312, 0x1315, .pvalid⟩,
  ⟨0x1316, 0x1317, .unassigned⟩,
  ⟨0x1318, 0x135A, .pvalid⟩,
  ⟨0x135B, 0x135C, .unassigned⟩,
  ⟨0x135D, 0x135F, .pvalid⟩,
  ⟨0x1360, 0x137C, .disallowed⟩,
  ⟨0x137D, 0x137F, .unassigned⟩,
  ⟨0x1380, 0x138F, .pvalid⟩,
  ⟨0x1390, 0x1399, .disallowed⟩,
  ⟨0x139A, 0x139F, .unassigned⟩,
  ⟨0x13A0, 0x13F5, .pvalid⟩,
  ⟨0x13F6, 0x13F7, .unassigned⟩,
  ⟨0x13F8, 0x13FD, .disallowed⟩,
  ⟨0x13FE, 0x13FF, .unassigned⟩,
  ⟨0x1400, 0x1400, .disallowed⟩,
  ⟨0x1401, 0x166C, .pvalid⟩,
  ⟨0x166D, 0x166E, .disallowed⟩,
  ⟨0x166F, 0x167F, .pvalid⟩,
  ⟨0x1680, 0x1680, .disallowed⟩,
  ⟨0x1681, 0x169A, .pvalid⟩,
  ⟨0x169B, 0x169C, .disallowed⟩,
  ⟨0x169D, 0x169F, .unassigned⟩,
  ⟨0x16A0, 0x16EA, .pvalid⟩,
  ⟨0x16EB, 0x16F0, .disallowed⟩,
  ⟨0x16F1, 0x16F8, .pvalid⟩,
  ⟨0x16F9, 0x16FF, .unassigned⟩,
  ⟨0x1700, 0x170C, .pvalid⟩,
  ⟨0x170D, 0x170D, .unassigned⟩,
  ⟨0x170E, 0x1714, .pvalid⟩,
  ⟨0x1715, 0x171F, .unassigned⟩,
  ⟨0x1720, 0x1734, .pvalid⟩,
  ⟨0x1735, 0x1736, .disallowed⟩,
  ⟨0x1737, 0x173F, .unassigned⟩,
  ⟨0x1740, 0x1753, .pvalid⟩,
  ⟨0x1754, 0x175F, .unassigned⟩,
  ⟨0x1760, 0x176C, .pvalid⟩,
  ⟨0x176D, 0x176D, .unassigned⟩,
  ⟨0x176E, 0x1770, .pvalid⟩,
  ⟨0x1771, 0x1771, .unassigned⟩,
  ⟨0x1772, 0x1773, .pvalid⟩,
  ⟨0x1774, 0x177F, .unassigned⟩,
  ⟨0x1780, 0x17B3, .pvalid⟩,
  ⟨0x17B4, 0x17B5, .disallowed⟩,
  ⟨0x17B6, 0x17D3, .pvalid⟩,
  ⟨0x17D4, 0x17D6, .disallowed⟩,
  ⟨0x17D7, 0x17D7, .pvalid⟩,
  ⟨0x17D8, 0x17DB, .disallowed⟩,
  ⟨0x17DC, 0x17DD, .pvalid⟩,
  ⟨0x17DE, 0x17DF, .unassigned⟩,
  ⟨0x17E0, 0x17E9, .pvalid⟩,
  ⟨0x17EA, 0x17EF, .unassigned⟩,
  ⟨0x17F0, 0x17F9, .disallowed⟩,
  ⟨0x17FA, 0x17FF, .unassigned⟩,
  ⟨0x1800, 0x180E, .disallowed⟩,
  ⟨0x180F, 0x180F, .unassigned⟩,
  ⟨0x1810, 0x1819, .pvalid⟩,
  ⟨0x181A, 0x181F, .unassigned⟩,
  ⟨0x1820, 0x1878, .pvalid⟩,
  ⟨0x1879, 0x187F, .unassigned⟩,
  ⟨0x1880, 0x18AA, .pvalid⟩,
  ⟨0x18AB, 0x18AF, .unassigned⟩,
  ⟨0x18B0, 0x18F5, .pvalid⟩,
  ⟨0x18F6, 0x18FF, .unassigned⟩,
  ⟨0x1900, 0x191E, .pvalid⟩,
  ⟨0x191F, 0x191F, .unassigned⟩,
  ⟨0x1920, 0x192B, .pvalid⟩,
  ⟨0x192C, 0x192F, .unassigned⟩,
  ⟨0x1930, 0x193B, .pvalid⟩,
  ⟨0x193C, 0x193F, .unassigned⟩,
  ⟨0x1940, 0x1940, .disallowed⟩,
  ⟨0x1941, 0x1943, .unassigned⟩,
  ⟨0x1944, 0x1945, .disallowed⟩,
  ⟨0x1946, 0x196D, .pvalid⟩,
  ⟨0x196E, 0x196F, .unassigned⟩,
  ⟨0x1970, 0x1974, .pvalid⟩,
  ⟨0x1975, 0x197F, .unassigned⟩,
  ⟨0x1980, 0x19AB, .pvalid⟩,
  ⟨0x19AC, 0x19AF, .unassigned⟩,
  ⟨0x19B0, 0x19C9, .pvalid⟩,
  ⟨0x19CA, 0x19CF, .unassigned⟩,
  ⟨0x19D0, 0x19D9, .pvalid⟩,
  ⟨0x19DA, 0x19DA, .disallowed⟩,
  ⟨0x19DB, 0x19DD, .unassigned⟩,
  ⟨0x19DE, 0x19FF, .disallowed⟩,
  ⟨0x1A00, 0x1A1B, .pvalid⟩,
  ⟨0x1A1C, 0x1A1D, .unassigned⟩,
  ⟨0x1A1E, 0x1A1F, .disallowed⟩,
  ⟨0x1A20, 0x1A5E, .pvalid⟩,
  ⟨0x1A5F, 0x1A5F, .unassigned⟩,
  ⟨0x1A60, 0x1A7C, .pvalid⟩,
  ⟨0x1A7D, 0x1A7E, .unassigned⟩,
  ⟨0x1A7F, 0x1A89, .pvalid⟩,
  ⟨0x1A8A, 0x1A8F, .unassigned⟩,
  ⟨0x1A90, 0x1A99, .pvalid⟩,
  ⟨0x1A9A, 0x1A9F, .unassigned⟩,
  ⟨0x1AA0, 0x1AA6, .disallowed⟩,
  ⟨0x1AA7, 0x1AA7, .pvalid⟩,
  ⟨0x1AA8, 0x1AAD, .disallowed⟩,
  ⟨0x1AAE, 0x1AAF, .unassigned⟩,
  ⟨0x1AB0, 0x1ABD, .pvalid⟩,
  ⟨0x1ABE, 0x1ABE, .disallowed⟩,
  ⟨0x1ABF, 0x1AFF, .unassigned⟩,
  ⟨0x1B00, 0x1B4B, .pvalid⟩,
  ⟨0x1B4C, 0x1B4F, .unassigned⟩,
  ⟨0x1B50, 0x1B59, .pvalid⟩,
  ⟨0x1B5A, 0x1B6A, .disallowed⟩,
  ⟨0x1B6B, 0x1B73, .pvalid⟩,
  ⟨0x1B74, 0x1B7C, .disallowed⟩,
  ⟨0x1B7D, 0x1B7F, .unassigned⟩,
  ⟨0x1B80, 0x1BF3, .pvalid⟩,
  ⟨0x1BF4, 0x1BFB, .unassigned⟩,
  ⟨0x1BFC, 0x1BFF, .disallowed⟩,
  ⟨0x1C00, 0x1C37, .pvalid⟩,
  ⟨0x1C38, 0x1C3A, .unassigned⟩,
  ⟨0x1C3B, 0x1C3F, .disallowed⟩,
  ⟨0x1C40, 0x1C49, .pvalid⟩,
  ⟨0x1C4A, 0x1C4C, .unassigned⟩,
  ⟨0x1C4D, 0x1C7D, .pvalid⟩,
  ⟨0x1C7E, 0x1C88, .disallowed⟩,
  ⟨0x1C89, 0x1C8F, .unassigned⟩,
  ⟨0x1C90, 0x1CBA, .disallowed⟩,
  ⟨0x1CBB, 0x1CBC, .unassigned⟩,
  ⟨0x1CBD, 0x1CC7, .disallowed⟩,
  ⟨0x1CC8, 0x1CCF, .unassigned⟩,
  ⟨0x1CD0, 0x1CD2, .pvalid⟩,
  ⟨0x1CD3, 0x1CD3, .disallowed⟩,
  ⟨0x1CD4, 0x1CF9, .pvalid⟩,
  ⟨0x1CFA, 0x1CFF, .unassigned⟩,
  ⟨0x1D00, 0x1D2B, .pvalid⟩,
  ⟨0x1D2C, 0x1D2E, .disallowed⟩,
  ⟨0x1D2F, 0x1D2F, .pvalid⟩,
  ⟨0x1D30, 0x1D3A, .disallowed⟩,
  ⟨0x1D3B, 0x1D3B, .pvalid⟩,
  ⟨0x1D3C, 0x1D4D, .disallowed⟩,
  ⟨0x1D4E, 0x1D4E, .pvalid⟩,
  ⟨0x1D4F, 0x1D6A, .disallowed⟩,
  ⟨0x1D6B, 0x1D77, .pvalid⟩,
  ⟨0x1D78, 0x1D78, .disallowed⟩,
  ⟨0x1D79, 0x1D9A, .pvalid⟩,
  ⟨0x1D9B, 0x1DBF, .disallowed⟩,
  ⟨0x1DC0, 0x1DF9, .pvalid⟩,
  ⟨0x1DFA, 0x1DFA, .unassigned⟩,
  ⟨0x1DFB, 0x1DFF, .pvalid⟩,
  ⟨0x1E00, 0x1E00, .disallowed⟩,
  ⟨0x1E01, 0x1E01, .pvalid⟩,
  ⟨0x1E02, 0x1E02, .disallowed⟩,
  ⟨0x1E03, 0x1E03, .pvalid⟩,
  ⟨0x1E04, 0x1E04, .disallowed⟩,
  ⟨0x1E05, 0x1E05, .pvalid⟩,
  ⟨0x1E06, 0x1E06, .disallowed⟩,
  ⟨0x1E07, 0x1E07, .pvalid⟩,
  ⟨0x1E08, 0x1E08, .disallowed⟩,
  ⟨0x1E09, 0x1E09, .pvalid⟩,
  ⟨0x1E0A, 0x1E0A, .disallowed⟩,
  ⟨0x1E0B, 0x1E0B, .pvalid⟩,
  ⟨0x1E0C, 0x1E0C, .disallowed⟩,
  ⟨0x1E0D, 0x1E0D, .pvalid⟩,
  ⟨0x1E0E, 0x1E0E, .disallowed⟩,
  ⟨0x1E0F, 0x1E0F, .pvalid⟩,
  ⟨0x1E10, 0x1E10, .disallowed⟩,
  ⟨0x1E11, 0x1E11, .pvalid⟩,
  ⟨0x1E12, 0x1E12, .disallowed⟩,
  ⟨0x1E13, 0x1E13, .pvalid⟩,
  ⟨0x1E14, 0x1E14, .disallowed⟩,
  ⟨0x1E15, 0x1E15, .pvalid⟩,
  ⟨0x1E16, 0x1E16, .disallowed⟩,
  ⟨0x1E17, 0x1E17, .pvalid⟩,
  ⟨0x1E18, 0x1E18, .disallowed⟩,
  ⟨0x1E19, 0x1E19, .pvalid⟩,
  ⟨0x1E1A, 0x1E1A, .disallowed⟩,
  ⟨0x1E1B, 0x1E1B, .pvalid⟩,
  ⟨0x1E1C, 0x1E1C, .disallowed⟩,
  ⟨0x1E1D, 0x1E1D, .pvalid⟩,
  ⟨0x1E1E, 0x1E1E, .disallowed⟩,
  ⟨0x1E1F, 0x1E1F, .pvalid⟩,
  ⟨0x1E20, 0x1E20, .disallowed⟩,
  ⟨0x1E21, 0x1E21, .pvalid⟩,
  ⟨0x1E22, 0x1E22, .disallowed⟩,
  ⟨0x1E23, 0x1E23, .pvalid⟩,
  ⟨0x1E24, 0x1E24, .disallowed⟩,
  ⟨0x1E25, 0x1E25, .pvalid⟩,
  ⟨0x1E26, 0x1E26, .disallowed⟩,
  ⟨0x1E27, 0x1E27, .pvalid⟩,
  ⟨0x1E28, 0x1E28, .disallowed⟩,
  ⟨0x1E29, 0x1E29, .pvalid⟩,
  ⟨0x1E2A, 0x1E2A, .disallowed⟩,
  ⟨0x1E2B, 0x1E2B, .pvalid⟩,
  ⟨0x1E2C, 0x1E2C, .disallowed⟩,
  ⟨0x1E2D, 0x1E2D, .pvalid⟩,
  ⟨0x1E2E, 0x1E2E, .disallowed⟩,
  ⟨0x1E2F, 0x1E2F, .pvalid⟩,
  ⟨0x1E30, 0x1E30, .disallowed⟩,
  ⟨0x1E31, 0x1E31, .pvalid⟩,
  ⟨0x1E32, 0x1E32, .disallowed⟩,
  ⟨0x1E33, 0x1E33, .pvalid⟩,
  ⟨0x1E34, 0x1E34, .disallowed⟩,
  ⟨0x1E35, 0x1E35, .pvalid⟩,
  ⟨0x1E36, 0x1E36, .disallowed⟩,
  ⟨0x1E37, 0x1E37, .pvalid⟩,
  ⟨0x1E38, 0x1E38, .disallowed⟩,
  ⟨0x1E39, 0x1E39, .pvalid⟩,
  ⟨0x1E3A, 0x1E3A, .disallowed⟩]

def csv5 : List CsvRow := [
  ⟨0x1E3B, 0x1E3B, .pvalid⟩,
  ⟨0x1E3C, 0x1E3C, .disallowed⟩,
  ⟨0x1E3D, 0x1E3D, .pvalid⟩,
  ⟨0x1E3E, 0x1E3E, .disallowed⟩,
  ⟨0x1E3F, 0x1E3F, .pvalid⟩,
  ⟨0x1E40, 0x1E40, .disallowed⟩,
  ⟨0x1E41, 0x1E41, .pvalid⟩,
  ⟨0x1E42, 0x1E42, .disallowed⟩,
  ⟨0x1E43, 0x1E43, .pvalid⟩,
  ⟨0x1E44, 0x1E44, .disallowed⟩,
  ⟨0x1E45, 0x1E45, .pvalid⟩,
  ⟨0x1E46, 0x1E46, .disallowed⟩,
  ⟨0x1E47, 0x1E47, .pvalid⟩,
  ⟨0x1E48, 0x1E48, .disallowed⟩,
  ⟨0x1E49, 0x1E49, .pvalid⟩,
  ⟨0x1E4A, 0x1E4A, .disallowed⟩,
  ⟨0x1E4B, 0x1E4B, .pvalid⟩,
  ⟨0x1E4C, 0x1E4C, .disallowed⟩,
  ⟨0x1E4D, 0x1E4D, .pvalid⟩,
  ⟨0x1E4E, 0x1E4E, .disallowed⟩,
  ⟨0x1E4F, 0x1E4F, .pvalid⟩,
  ⟨0x1E50, 0x1E50, .disallowed⟩,
  ⟨0x1E51, 0x1E51, .pvalid⟩,
  ⟨0x1E52, 0x1E52, .disallowed⟩,
  ⟨0x1E53, 0x1E53, .pvalid⟩,
  ⟨0x1E54, 0x1E54, .disallowed⟩,
  ⟨0x1E55, 0x1E55, .pvalid⟩,
  ⟨0x1E56, 0x1E56, .disallowed⟩,
  ⟨0x1E57, 0x1E57, .pvalid⟩,
  ⟨0x1E58, 0x1E58, .disallowed⟩,
  ⟨0x1E59, 0x1E59, .pvalid⟩,
  ⟨0x1E5A, 0x1E5A, .disallowed⟩,
  ⟨0x1E5B, 0x1E5B, .pvalid⟩,
  ⟨0x1E5C, 0x1E5C, .disallowed⟩,
  ⟨0x1E5D, 0x1E5D, .pvalid⟩,
  ⟨0x1E5E, 0x1E5E, .disallowed⟩,
  ⟨0x1E5F, 0x1E5F, .pvalid⟩,
  ⟨0x1E60, 0x1E60, .disallowed⟩,
  ⟨0x1E61, 0x1E61, .pvalid⟩,
  ⟨0x1E62, 0x1E62, .disallowed⟩,
  ⟨0x1E63, 0x1E63, .pvalid⟩,
  ⟨0x1E64, 0x1E64, .disallowed⟩,
  ⟨0x1E65, 0x1E65, .pvalid⟩,
  ⟨0x1E66, 0x1E66, .disallowed⟩,
  ⟨0x1E67, 0x1E67, .pvalid⟩,
  ⟨0x1E68, 0x1E68, .disallowed⟩,
  ⟨0x1E69, 0x1E69, .pvalid⟩,
  ⟨0x1E6A, 0x1E6A, .disallowed⟩,
  ⟨0x1E6B, 0x1E6B, .pvalid⟩,
  ⟨0x1E6C, 0x1E6C, .disallowed⟩,
  ⟨0x1E6D, 0x1E6D, .pvalid⟩,
  ⟨0x1E6E, 0x1E6E, .disallowed⟩,
  ⟨0x1E6F, 0x1E6F, .pvalid⟩,
  ⟨0x1E70, 0x1E70, .disallowed⟩,
  ⟨0x1E71, 0x1E71, .pvalid⟩,
  ⟨0x1E72, 0x1E72, .disallowed⟩,
  ⟨0x1E73, 0x1E73, .pvalid⟩,
  ⟨0x1E74, 0x1E74, .disallowed⟩,
  ⟨0x1E75, 0x1E75, .pvalid⟩,
  ⟨0x1E76, 0x1E76, .disallowed⟩,
  ⟨0x1E77, 0x1E77, .pvalid⟩,
  ⟨0x1E78, 0x1E78, .disallowed⟩,
  ⟨0x1E79, 0x1E79, .pvalid⟩,
  ⟨0x1E7A, 0x1E7A, .disallowed⟩,
  ⟨0x1E7B, 0x1E7B, .pvalid⟩,
  ⟨0x1E7C, 0x1E7C, .disallowed⟩,
  ⟨0x1E7D, 0x1E7D, .pvalid⟩,
  ⟨0x1E7E, 0x1E7E, .disallowed⟩,
  ⟨0x1E7F, 0x1E7F, .pvalid⟩,
  ⟨0x1E80, 0x1E80, .disallowed⟩,
  ⟨0x1E81, 0x1E81, .pvalid⟩,
  ⟨0x1E82, 0x1E82, .disallowed⟩,
  ⟨0x1E83, 0x1E83, .pvalid⟩,
  ⟨0x1E84, 0x1E84, .disallowed⟩,
  ⟨0x1E85, 0x1E85, .pvalid⟩,
  ⟨0x1E86, 0x1E86, .disallowed⟩,
  ⟨0x1E87, 0x1E87, .pvalid⟩,
  ⟨0x1E88, 0x1E88, .disallowed⟩,
  ⟨0x1E89, 0x1E89, .pvalid⟩,
  ⟨0x1E8A, 0x1E8A, .disallowed⟩,
  ⟨0x1E8B, 0x1E8B, .pvalid⟩,
  ⟨0x1E8C, 0x1E8C, .disallowed⟩,
  ⟨0x1E8D, 0x1E8D, .pvalid⟩,
  ⟨0x1E8E, 0x1E8E, .disallowed⟩,
  ⟨0x1E8F, 0x1E8F, .pvalid⟩,
  ⟨0x1E90, 0x1E90, .disallowed⟩,
  ⟨0x1E91, 0x1E91, .pvalid⟩,
  ⟨0x1E92, 0x1E92, .disallowed⟩,
  ⟨0x1E93, 0x1E93, .pvalid⟩,
  ⟨0x1E94, 0x1E94, .disallowed⟩,
  ⟨0x1E95, 0x1E99, .pvalid⟩,
  ⟨0x1E9A, 0x1E9B, .disallowed⟩,
  ⟨0x1E9C, 0x1E9D, .pvalid⟩,
  ⟨0x1E9E, 0x1E9E, .disallowed⟩,
  ⟨0x1E9F, 0x1E9F, .pvalid⟩,
  ⟨0x1EA0, 0x1EA0, .disallowed⟩,
  ⟨0x1EA1, 0x1EA1, .pvalid⟩,
  ⟨0x1EA2, 0x1EA2, .disallowed⟩,
  ⟨0x1EA3, 0x1EA3, .pvalid⟩,
  ⟨0x1EA4, 0x1EA4, .disallowed⟩,
  ⟨0x1EA5, 0x1EA5, .pvalid⟩,
  ⟨0x1EA6, 0x1EA6, .disallowed⟩,
  ⟨0x1EA7, 0x1EA7, .pvalid⟩,
  ⟨0x1EA8, 0x1EA8, .disallowed⟩,
  ⟨0x1EA9, 0x1EA9, .pvalid⟩,
  ⟨0x1EAA, 0x1EAA, .disallowed⟩,
  ⟨0x1EAB, 0x1EAB, .pvalid⟩,
  ⟨0x1EAC, 0x1EAC, .disallowed⟩,
  ⟨0x1EAD, 0x1EAD, .pvalid⟩,
  ⟨0x1EAE, 0x1EAE, .disallowed⟩,
  ⟨0x1EAF, 0x1EAF, .pvalid⟩,
  ⟨0x1EB0, 0x1EB0, .disallowed⟩,
  ⟨0x1EB1, 0x1EB1, .pvalid⟩,
  ⟨0x1EB2, 0x1EB2, .disallowed⟩,
  ⟨0x1EB3, 0x1EB3, .pvalid⟩,
  ⟨0x1EB4, 0x1EB4, .disallowed⟩,
  ⟨0x1EB5, 0x1EB5, .pvalid⟩,
  ⟨0x1EB6, 0x1EB6, .disallowed⟩,
  ⟨0x1EB7, 0x1EB7, .pvalid⟩,
  ⟨0x1EB8, 0x1EB8, .disallowed⟩,
  ⟨0x1EB9, 0x1EB9, .pvalid⟩,
  ⟨0x1EBA, 0x1EBA, .disallowed⟩,
  ⟨0x1EBB, 0x1EBB, .pvalid⟩,
  ⟨0x1EBC, 0x1EBC, .disallowed⟩,
  ⟨0x1EBD, 0x1EBD, .pvalid⟩,
  ⟨0x1EBE, 0x1EBE, .disallowed⟩,
  ⟨0x1EBF, 0x1EBF, .pvalid⟩,
  ⟨0x1EC0, 0x1EC0, .disallowed⟩,
  ⟨0x1EC1, 0x1EC1, .pvalid⟩,
  ⟨0x1EC2, 0x1EC2, .disallowed⟩,
  ⟨0x1EC3, 0x1EC3, .pvalid⟩,
  ⟨0x1EC4, 0x1EC4, .disallowed⟩,
  ⟨0x1EC5, 0x1EC5, .pvalid⟩,
  ⟨0x1EC6, 0x1EC6, .disallowed⟩,
  ⟨0x1EC7, 0x1EC7, .pvalid⟩,
  ⟨0x1EC8, 0x1EC8, .disallowed⟩,
  ⟨0x1EC9, 0x1EC9, .pvalid⟩,
  ⟨0x1ECA, 0x1ECA, .disallowed⟩,
  ⟨0x1ECB, 0x1ECB, .pvalid⟩,
  ⟨0x1ECC, 0x1ECC, .disallowed⟩,
  ⟨0x1ECD, 0x1ECD, .pvalid⟩,
  ⟨0x1ECE, 0x1ECE, .disallowed⟩,
  ⟨0x1ECF, 0x1ECF, .pvalid⟩,
  ⟨0x1ED0, 0x1ED0, .disallowed⟩,
  ⟨0x1ED1, 0x1ED1, .pvalid⟩,
  ⟨0x1ED2, 0x1ED2, .disallowed⟩,
  ⟨0x1ED3, 0x1ED3, .pvalid⟩,
  ⟨0x1ED4, 0x1ED4, .disallowed⟩,
  ⟨0x1ED5, 0x1ED5, .pvalid⟩,
  ⟨0x1ED6, 0x1ED6, .disallowed⟩,
  ⟨0x1ED7, 0x1ED7, .pvalid⟩,
  ⟨0x1ED8, 0x1ED8, .disallowed⟩,
  ⟨0x1ED9, 0x1ED9, .pvalid⟩,
  ⟨0x1EDA, 0x1EDA, .disallowed⟩,
  ⟨0x1EDB, 0x1EDB, .pvalid⟩,
  ⟨0x1EDC, 0x1EDC, .disallowed⟩,
  ⟨0x1EDD, 0x1EDD, .pvalid⟩,
  ⟨0x1EDE, 0x1EDE, .disallowed⟩,
  ⟨0x1EDF, 0x1EDF, .pvalid⟩,
  ⟨0x1EE0, 0x1EE0, .disallowed⟩,
  ⟨0x1EE1, 0x1EE1, .pvalid⟩,
  ⟨0x1EE2, 0x1EE2, .disallowed⟩,
  ⟨0x1EE3, 0x1EE3, .pvalid⟩,
  ⟨0x1EE4, 0x1EE4, .disallowed⟩,
  ⟨0x1EE5, 0x1EE5, .pvalid⟩,
  ⟨0x1EE6, 0x1EE6, .disallowed⟩,
  ⟨0x1EE7, 0x1EE7, .pvalid⟩,
  ⟨0x1EE8, 0x1EE8, .disallowed⟩,
  ⟨0x1EE9, 0x1EE9, .pvalid⟩,
  ⟨0x1EEA, 0x1EEA, .disallowed⟩,
  ⟨0x1EEB, 0x1EEB, .pvalid⟩,
  ⟨0x1EEC, 0x1EEC, .disallowed⟩,
  ⟨0x1EED, 0x1EED, .pvalid⟩,
  ⟨0x1EEE, 0x1EEE, .disallowed⟩,
  ⟨0x1EEF, 0x1EEF, .pvalid⟩,
  ⟨0x1EF0, 0x1EF0, .disallowed⟩,
  ⟨0x1EF1, 0x1EF1, .pvalid⟩,
  ⟨0x1EF2, 0x1EF2, .disallowed⟩,
  ⟨0x1EF3, 0x1EF3, .pvalid⟩,
  ⟨0x1EF4, 0x1EF4, .disallowed⟩,
  ⟨0x1EF5, 0x1EF5, .pvalid⟩,
  ⟨0x1EF6, 0x1EF6, .disallowed⟩,
  ⟨0x1EF7, 0x1EF7, .pvalid⟩,
  ⟨0x1EF8, 0x1EF8, .disallowed⟩,
  ⟨0x1EF9, 0x1EF9, .pvalid⟩,
  ⟨0x1EFA, 0x1EFA, .disallowed⟩,
  ⟨0x1EFB, 0x1EFB, .pvalid⟩,
  ⟨0x1EFC, 0x1EFC, .disallowed⟩,
  ⟨0x1EFD, 0x1EFD, .pvalid⟩,
  ⟨0x1EFE, 0x1EFE, .disallowed⟩,
  ⟨0x1EFF, 0x1F07, .pvalid⟩,
  ⟨0x1F08, 0x1F0F, .disallowed⟩,
  ⟨0x1F10, 0x1F15, .pvalid⟩,
  ⟨0x1F16, 0x1F17, .unassigned⟩,
  ⟨0x1F18, 0x1F1D, .disallowed⟩,
  ⟨0x1F1E, 0x1F1F, .unassigned⟩,
  ⟨0x1F20, 0x1F27, .pvalid⟩,
  ⟨0x1F28, 0x1F2F, .disallowed⟩,
  ⟨0x1F30, 0x1F37, .pvalid⟩,
  ⟨0x1F38, 0x1F3F, .disallowed⟩,
  ⟨0x1F40, 0x1F45, .pvalid⟩,
  ⟨0x1F46, 0x1F47, .unassigned⟩,
  ⟨0x1F48, 0x1F4D, .disallowed⟩,
  ⟨0x1F4E, 0x1F4F, .unassigned⟩,
  ⟨0x1F50, 0x1F57, .pvalid⟩,
  ⟨0x1F58, 0x1F58, .unassigned⟩,
  ⟨0x1F59, 0x1F59, .disallowed⟩,
  ⟨0x1F5A, 0x1F5A, .unassigned⟩,
  ⟨0x1F5B, 0x1F5B, .disallowed⟩,
  ⟨0x1F5C, 0x1F5C, .unassigned⟩,
  ⟨0x1F5D, 0x1F5D, .disallowed⟩,
  ⟨0x1F5E, 0x1F5E, .unassigned⟩,
  ⟨0x1F5F, 0x1F5F, .disallowed⟩,
  ⟨0x1F60, 0x1F67, .pvalid⟩,
  ⟨0x1F68, 0x1F6F, .disallowed⟩,
  ⟨0x1F70, 0x1F70, .pvalid⟩,
  ⟨0x1F71, 0x1F71, .disallowed⟩,
  ⟨0x1F72, 0x1F72, .pvalid⟩,
  ⟨0x1F73, 0x1F73, .disallowed⟩,
  ⟨0x1F74, 0x1F74, .pvalid⟩,
  ⟨0x1F75, 0x1F75, .disallowed⟩,
  ⟨0x1F76, 0x1F76, .pvalid⟩,
  ⟨0x1F77, 0x1F77, .disallowed⟩,
  ⟨0x1F78, 0x1F78, .pvalid⟩,
  ⟨0x1F79, 0x1F79, .disallowed⟩,
  ⟨0x1F7A, 0x1F7A, .pvalid⟩,
  ⟨0x1F7B, 0x1F7B, .disallowed⟩,
  ⟨0x1F7C, 0x1F7C, .pvalid⟩,
  ⟨0x1F7D, 0x1F7D, .disallowed⟩,
  ⟨0x1F7E, 0x1F7F, .unassigned⟩,
  ⟨0x1F80, 0x1FAF, .disallowed⟩,
  ⟨0x1FB0, 0x1FB1, .pvalid⟩,
  ⟨0x1FB2, 0x1FB4, .disallowed⟩,
  ⟨0x1FB5, 0x1FB5, .unassigned⟩,
  ⟨0x1FB6, 0x1FB6, .pvalid⟩,
  ⟨0x1FB7, 0x1FC4, .disallowed⟩,
  ⟨0x1FC5, 0x1FC5, .unassigned⟩,
  ⟨0x1FC6, 0x1FC6, .pvalid⟩,
  ⟨0x1FC7, 0x1FCF, .disallowed⟩,
  ⟨0x1FD0, 0x1FD2, .pvalid⟩,
  ⟨0x1FD3, 0x1FD3, .disallowed⟩,
  ⟨0x1FD4, 0x1FD5, .unassigned⟩,
  ⟨0x1FD6, 0x1FD7, .pvalid⟩,
  ⟨0x1FD8, 0x1FDB, .disallowed⟩,
  ⟨0x1FDC, 0x1FDC, .unassigned⟩,
  ⟨0x1FDD, 0x1FDF, .disallowed⟩,
  ⟨0x1FE0, 0x1FE2, .pvalid⟩,
  ⟨0x1FE3, 0x1FE3, .disallowed⟩,
  ⟨0x1FE4, 0x1FE7, .pvalid⟩,
  ⟨0x1FE8, 0x1FEF, .disallowed⟩]

def csv6 : List CsvRow := [
  ⟨0x1FF0, 0x1FF1, .unassigned⟩,
  ⟨0x1FF2, 0x1FF4, .disallowed⟩,
  ⟨0x1FF5, 0x1FF5, .unassigned⟩,
  ⟨0x1FF6, 0x1FF6, .pvalid⟩,
  ⟨0x1FF7, 0x1FFE, .disallowed⟩,
  ⟨0x1FFF, 0x1FFF, .unassigned⟩,
  ⟨0x2000, 0x200B, .disallowed⟩,
  ⟨0x200C, 0x200D, .contextj⟩,
  ⟨0x200E, 0x2064, .disallowed⟩,
  ⟨0x2065, 0x2065, .unassigned⟩,
  ⟨0x2066, 0x2071, .disallowed⟩,
  ⟨0x2072, 0x2073, .unassigned⟩,
  ⟨0x2074, 0x208E, .disallowed⟩,
  ⟨0x208F, 0x208F, .unassigned⟩,
  ⟨0x2090, 0x209C, .disallowed⟩,
  ⟨0x209D, 0x209F, .unassigned⟩,
  ⟨0x20A0, 0x20BF, .disallowed⟩,
  ⟨0x20C0, 0x20CF, .unassigned⟩,
  ⟨0x20D0, 0x20F0, .disallowed⟩,
  ⟨0x20F1, 0x20FF, .unassigned⟩,
  ⟨0x2100, 0x214D, .disallowed⟩,
  ⟨0x214E, 0x214E, .pvalid⟩,
  ⟨0x214F, 0x2183, .disallowed⟩,
  ⟨0x2184, 0x2184, .pvalid⟩,
  ⟨0x2185, 0x218B, .disallowed⟩,
  ⟨0x218C, 0x218F, .unassigned⟩,
  ⟨0x2190, 0x2426, .disallowed⟩,
  ⟨0x2427, 0x243F, .unassigned⟩,
  ⟨0x2440, 0x244A, .disallowed⟩,
  ⟨0x244B, 0x245F, .unassigned⟩,
  ⟨0x2460, 0x2B73, .disallowed⟩,
  ⟨0x2B74, 0x2B75, .unassigned⟩,
  ⟨0x2B76, 0x2B95, .disallowed⟩,
  ⟨0x2B96, 0x2B97, .unassigned⟩,
  ⟨0x2B98, 0x2BC8, .disallowed⟩,
  ⟨0x2BC9, 0x2BC9, .unassigned⟩,
  ⟨0x2BCA, 0x2BFE, .disallowed⟩,
  ⟨0x2BFF, 0x2BFF, .unassigned⟩,
  ⟨0x2C00, 0x2C2E, .disallowed⟩,
  ⟨0x2C2F, 0x2C2F, .unassigned⟩,
  ⟨0x2C30, 0x2C5E, .pvalid⟩,
  ⟨0x2C5F, 0x2C5F, .unassigned⟩,
  ⟨0x2C60, 0x2C60, .disallowed⟩,
  ⟨0x2C61, 0x2C61, .pvalid⟩,
  ⟨0x2C62, 0x2C64, .disallowed⟩,
  ⟨0x2C65, 0x2C66, .pvalid⟩,
  ⟨0x2C67, 0x2C67, .disallowed⟩,
  ⟨0x2C68, 0x2C68, .pvalid⟩,
  ⟨0x2C69, 0x2C69, .disallowed⟩,
  ⟨0x2C6A, 0x2C6A, .pvalid⟩,
  ⟨0x2C6B, 0x2C6B, .disallowed⟩,
  ⟨0x2C6C, 0x2C6C, .pvalid⟩,
  ⟨0x2C6D, 0x2C70, .disallowed⟩,
  ⟨0x2C71, 0x2C71, .pvalid⟩,
  ⟨0x2C72, 0x2C72, .disallowed⟩,
  ⟨0x2C73, 0x2C74, .pvalid⟩,
  ⟨0x2C75, 0x2C75, .disallowed⟩,
  ⟨0x2C76, 0x2C7B, .pvalid⟩,
  ⟨0x2C7C, 0x2C80, .disallowed⟩,
  ⟨0x2C81, 0x2C81, .pvalid⟩,
  ⟨0x2C82, 0x2C82, .disallowed⟩,
  ⟨0x2C83, 0x2C83, .pvalid⟩,
  ⟨0x2C84, 0x2C84, .disallowed⟩,
  ⟨0x2C85, 0x2C85, .pvalid⟩,
  ⟨0x2C86, 0x2C86, .disallowed⟩,
  ⟨0x2C87, 0x2C87, .pvalid⟩,
  ⟨0x2C88, 0x2C88, .disallowed⟩,
  ⟨0x2C89, 0x2C89, .pvalid⟩,
  ⟨0x2C8A, 0x2C8A, .disallowed⟩,
  ⟨0x2C8B, 0x2C8B, .pvalid⟩,
  ⟨0x2C8C, 0x2C8C, .disallowed⟩,
  ⟨0x2C8D, 0x2C8D, .pvalid⟩,
  ⟨0x2C8E, 0x2C8E, .disallowed⟩,
  ⟨0x2C8F, 0x2C8F, .pvalid⟩,
  ⟨0x2C90, 0x2C90, .disallowed⟩,
  ⟨0x2C91, 0x2C91, .pvalid⟩,
  ⟨0x2C92, 0x2C92, .disallowed⟩,
  ⟨0x2C93, 0x2C93, .pvalid⟩,
  ⟨0x2C94, 0x2C94, .disallowed⟩,
  ⟨0x2C95, 0x2C95, .pvalid⟩,
  ⟨0x2C96, 0x2C96, .disallowed⟩,
  ⟨0x2C97, 0x2C97, .pvalid⟩,
  ⟨0x2C98, 0x2C98, .disallowed⟩,
  ⟨0x2C99, 0x2C99, .pvalid⟩,
  ⟨0x2C9A, 0x2C9A, .disallowed⟩,
  ⟨0x2C9B, 0x2C9B, .pvalid⟩,
  ⟨0x2C9C, 0x2C9C, .disallowed⟩,
  ⟨0x2C9D, 0x2C9D, .pvalid⟩,
  ⟨0x2C9E, 0x2C9E, .disallowed⟩,
  ⟨0x2C9F, 0x2C9F, .pvalid⟩,
  ⟨0x2CA0, 0x2CA0, .disallowed⟩,
  ⟨0x2CA1, 0x2CA1, .pvalid⟩,
  ⟨0x2CA2, 0x2CA2, .disallowed⟩,
  ⟨0x2CA3, 0x2CA3, .pvalid⟩,
  ⟨0x2CA4, 0x2CA4, .disallowed⟩,
  ⟨0x2CA5, 0x2CA5, .pvalid⟩,
  ⟨0x2CA6, 0x2CA6, .disallowed⟩,
  ⟨0x2CA7, 0x2CA7, .pvalid⟩,
  ⟨0x2CA8, 0x2CA8, .disallowed⟩,
  ⟨0x2CA9, 0x2CA9, .pvalid⟩,
  ⟨0x2CAA, 0x2CAA, .disallowed⟩,
  ⟨0x2CAB, 0x2CAB, .pvalid⟩,
  ⟨0x2CAC, 0x2CAC, .disallowed⟩,
  ⟨0x2CAD, 0x2CAD, .pvalid⟩,
  ⟨0x2CAE, 0x2CAE, .disallowed⟩,
  ⟨0x2CAF, 0x2CAF, .pvalid⟩,
  ⟨0x2CB0, 0x2CB0, .disallowed⟩,
  ⟨0x2CB1, 0x2CB1, .pvalid⟩,
  ⟨0x2CB2, 0x2CB2, .disallowed⟩,
  ⟨0x2CB3, 0x2CB3, .pvalid⟩,
  ⟨0x2CB4, 0x2CB4, .disallowed⟩,
  ⟨0x2CB5, 0x2CB5, .pvalid⟩,
  ⟨0x2CB6, 0x2CB6, .disallowed⟩,
  ⟨0x2CB7, 0x2CB7, .pvalid⟩,
  ⟨0x2CB8, 0x2CB8, .disallowed⟩,
  ⟨0x2CB9, 0x2CB9, .pvalid⟩,
  ⟨0x2CBA, 0x2CBA, .disallowed⟩,
  ⟨0x2CBB, 0x2CBB, .pvalid⟩,
  ⟨0x2CBC, 0x2CBC, .disallowed⟩,
  ⟨0x2CBD, 0x2CBD, .pvalid⟩,
  ⟨0x2CBE, 0x2CBE, .disallowed⟩,
  ⟨0x2CBF, 0x2CBF, .pvalid⟩,
  ⟨0x2CC0, 0x2CC0, .disallowed⟩,
  ⟨0x2CC1, 0x2CC1, .pvalid⟩,
  ⟨0x2CC2, 0x2CC2, .disallowed⟩,
  ⟨0x2CC3, 0x2CC3, .pvalid⟩,
  ⟨0x2CC4, 0x2CC4, .disallowed⟩,
  ⟨0x2CC5, 0x2CC5, .pvalid⟩,
  ⟨0x2CC6, 0x2CC6, .disallowed⟩,
  ⟨0x2CC7, 0x2CC7, .pvalid⟩,
  ⟨0x2CC8, 0x2CC8, .disallowed⟩,
  ⟨0x2CC9, 0x2CC9, .pvalid⟩,
  ⟨0x2CCA, 0x2CCA, .disallowed⟩,
  ⟨0x2CCB, 0x2CCB, .pvalid⟩,
  ⟨0x2CCC, 0x2CCC, .disallowed⟩,
  ⟨0x2CCD, 0x2CCD, .pvalid⟩,
  ⟨0x2CCE, 0x2CCE, .disallowed⟩,
  ⟨0x2CCF, 0x2CCF, .pvalid⟩,
  ⟨0x2CD0, 0x2CD0, .disallowed⟩,
  ⟨0x2CD1, 0x2CD1, .pvalid⟩,
  ⟨0x2CD2, 0x2CD2, .disallowed⟩,
  ⟨0x2CD3, 0x2CD3, .pvalid⟩,
  ⟨0x2CD4, 0x2CD4, .disallowed⟩,
  ⟨0x2CD5, 0x2CD5, .pvalid⟩,
  ⟨0x2CD6, 0x2CD6, .disallowed⟩,
  ⟨0x2CD7, 0x2CD7, .pvalid⟩,
  ⟨0x2CD8, 0x2CD8, .disallowed⟩,
  ⟨0x2CD9, 0x2CD9, .pvalid⟩,
  ⟨0x2CDA, 0x2CDA, .disallowed⟩,
  ⟨0x2CDB, 0x2CDB, .pvalid⟩,
  ⟨0x2CDC, 0x2CDC, .disallowed⟩,
  ⟨0x2CDD, 0x2CDD, .pvalid⟩,
  ⟨0x2CDE, 0x2CDE, .disallowed⟩,
  ⟨0x2CDF, 0x2CDF, .pvalid⟩,
  ⟨0x2CE0, 0x2CE0, .disallowed⟩,
  ⟨0x2CE1, 0x2CE1, .pvalid⟩,
  ⟨0x2CE2, 0x2CE2, .disallowed⟩,
  ⟨0x2CE3, 0x2CE4, .pvalid⟩,
  ⟨0x2CE5, 0x2CEB, .disallowed⟩,
  ⟨0x2CEC, 0x2CEC, .pvalid⟩,
  ⟨0x2CED, 0x2CED, .disallowed⟩,
  ⟨0x2CEE, 0x2CF1, .pvalid⟩,
  ⟨0x2CF2, 0x2CF2, .disallowed⟩,
  ⟨0x2CF3, 0x2CF3, .pvalid⟩,
  ⟨0x2CF4, 0x2CF8, .unassigned⟩,
  ⟨0x2CF9, 0x2CFF, .disallowed⟩,
  ⟨0x2D00, 0x2D25, .pvalid⟩,
  ⟨0x2D26, 0x2D26, .unassigned⟩,
  ⟨0x2D27, 0x2D27, .pvalid⟩,
  ⟨0x2D28, 0x2D2C, .unassigned⟩,
  ⟨0x2D2D, 0x2D2D, .pvalid⟩,
  ⟨0x2D2E, 0x2D2F, .unassigned⟩,
  ⟨0x2D30, 0x2D67, .pvalid⟩,
  ⟨0x2D68, 0x2D6E, .unassigned⟩,
  ⟨0x2D6F, 0x2D70, .disallowed⟩,
  ⟨0x2D71, 0x2D7E, .unassigned⟩,
  ⟨0x2D7F, 0x2D96, .pvalid⟩,
  ⟨0x2D97, 0x2D9F, .unassigned⟩,
  ⟨0x2DA0, 0x2DA6, .pvalid⟩,
  ⟨0x2DA7, 0x2DA7, .unassigned⟩,
  ⟨0x2DA8, 0x2DAE, .pvalid⟩,
  ⟨0x2DAF, 0x2DAF, .unassigned⟩,
  ⟨0x2DB0, 0x2DB6, .pvalid⟩,
  ⟨0x2DB7, 0x2DB7, .unassigned⟩,
  ⟨0x2DB8, 0x2DBE, .pvalid⟩,
  ⟨0x2DBF, 0x2DBF, .unassigned⟩,
  ⟨0x2DC0, 0x2DC6, .pvalid⟩,
  ⟨0x2DC7, 0x2DC7, .unassigned⟩,
  ⟨0x2DC8, 0x2DCE, .pvalid⟩,
  ⟨0x2DCF, 0x2DCF, .unassigned⟩,
  ⟨0x2DD0, 0x2DD6, .pvalid⟩,
  ⟨0x2DD7, 0x2DD7, .unassigned⟩,
  ⟨0x2DD8, 0x2DDE, .pvalid⟩,
  ⟨0x2DDF, 0x2DDF, .unassigned⟩,
  ⟨0x2DE0, 0x2DFF, .pvalid⟩,
  ⟨0x2E00, 0x2E2E, .disallowed⟩,
  ⟨0x2E2F, 0x2E2F, .pvalid⟩,
  ⟨0x2E30, 0x2E4E, .disallowed⟩,
  ⟨0x2E4F, 0x2E7F, .unassigned⟩,
  ⟨0x2E80, 0x2E99, .disallowed⟩,
  ⟨0x2E9A, 0x2E9A, .unassigned⟩,
  ⟨0x2E9B, 0x2EF3, .disallowed⟩,
  ⟨0x2EF4, 0x2EFF, .unassigned⟩,
  ⟨0x2F00, 0x2FD5, .disallowed⟩,
  ⟨0x2FD6, 0x2FEF, .unassigned⟩,
  ⟨0x2FF0, 0x2FFB, .disallowed⟩,
  ⟨0x2FFC, 0x2FFF, .unassigned⟩,
  ⟨0x3000, 0x3004, .disallowed⟩,
  ⟨0x3005, 0x3007, .pvalid⟩,
  ⟨0x3008, 0x3029, .disallowed⟩,
  ⟨0x302A, 0x302D, .pvalid⟩,
  ⟨0x302E, 0x303B, .disallowed⟩,
  ⟨0x303C, 0x303C, .pvalid⟩,
  ⟨0x303D, 0x303F, .disallowed⟩,
  ⟨0x3040, 0x3040, .unassigned⟩,
  ⟨0x3041, 0x3096, .pvalid⟩,
  ⟨0x3097, 0x3098, .unassigned⟩,
  ⟨0x3099, 0x309A, .pvalid⟩,
  ⟨0x309B, 0x309C, .disallowed⟩,
  ⟨0x309D, 0x309E, .pvalid⟩,
  ⟨0x309F, 0x30A0, .disallowed⟩,
  ⟨0x30A1, 0x30FA, .pvalid⟩,
  ⟨0x30FB, 0x30FB, .contexto⟩,
  ⟨0x30FC, 0x30FE, .pvalid⟩,
  ⟨0x30FF, 0x30FF, .disallowed⟩,
  ⟨0x3100, 0x3104, .unassigned⟩,
  ⟨0x3105, 0x312F, .pvalid⟩,
  ⟨0x3130, 0x3130, .unassigned⟩,
  ⟨0x3131, 0x318E, .disallowed⟩,
  ⟨0x318F, 0x318F, .unassigned⟩,
  ⟨0x3190, 0x319F, .disallowed⟩,
  ⟨0x31A0, 0x31BA, .pvalid⟩,
  ⟨0x31BB, 0x31BF, .unassigned⟩,
  ⟨0x31C0, 0x31E3, .disallowed⟩,
  ⟨0x31E4, 0x31EF, .unassigned⟩,
  ⟨0x31F0, 0x31FF, .pvalid⟩,
  ⟨0x3200, 0x321E, .disallowed⟩,
  ⟨0x321F, 0x321F, .unassigned⟩,
  ⟨0x3220, 0x32FE, .disallowed⟩,
  ⟨0x32FF, 0x32FF, .unassigned⟩,
  ⟨0x3300, 0x33FF, .disallowed⟩,
  ⟨0x3400, 0x4DB5, .pvalid⟩,
  ⟨0x4DB6, 0x4DBF, .unassigned⟩,
  ⟨0x4DC0, 0x4DFF, .disallowed⟩,
  ⟨0x4E00, 0x9FEF, .pvalid⟩,
  ⟨0x9FF0, 0x9FFF, .unassigned⟩,
  ⟨0xA000, 0xA48C, .pvalid⟩,
  ⟨0xA48D, 0xA48F, .unassigned⟩,
  ⟨0xA490, 0xA4C6, .disallowed⟩,
  ⟨0xA4C7, 0xA4CF, .unassigned⟩]

def csv7 : List CsvRow := [
  ⟨0xA4D0, 0xA4FD, .pvalid⟩,
  ⟨0xA4FE, 0xA4FF, .disallowed⟩,
  ⟨0xA500, 0xA60C, .pvalid⟩,
  ⟨0xA60D, 0xA60F, .disallowed⟩,
  ⟨0xA610, 0xA62B, .pvalid⟩,
  ⟨0xA62C, 0xA63F, .unassigned⟩,
  ⟨0xA640, 0xA640, .disallowed⟩,
  ⟨0xA641, 0xA641, .pvalid⟩,
  ⟨0xA642, 0xA642, .disallowed⟩,
  ⟨0xA643, 0xA643, .pvalid⟩,
  ⟨0xA644, 0xA644, .disallowed⟩,
  ⟨0xA645, 0xA645, .pvalid⟩,
  ⟨0xA646, 0xA646, .disallowed⟩,
  ⟨0xA647, 0xA647, .pvalid⟩,
  ⟨0xA648, 0xA648, .disallowed⟩,
  ⟨0xA649, 0xA649, .pvalid⟩,
  ⟨0xA64A, 0xA64A, .disallowed⟩,
  ⟨0xA64B, 0xA64B, .pvalid⟩,
  ⟨0xA64C, 0xA64C, .disallowed⟩,
  ⟨0xA64D, 0xA64D, .pvalid⟩,
  ⟨0xA64E, 0xA64E, .disallowed⟩,
  ⟨0xA64F, 0xA64F, .pvalid⟩,
  ⟨0xA650, 0xA650, .disallowed⟩,
  ⟨0xA651, 0xA651, .pvalid⟩,
  ⟨0xA652, 0xA652, .disallowed⟩,
  ⟨0xA653, 0xA653, .pvalid⟩,
  ⟨0xA654, 0xA654, .disallowed⟩,
  ⟨0xA655, 0xA655, .pvalid⟩,
  ⟨0xA656, 0xA656, .disallowed⟩,
  ⟨0xA657, 0xA657, .pvalid⟩,
  ⟨0xA658, 0xA658, .disallowed⟩,
  ⟨0xA659, 0xA659, .pvalid⟩,
  ⟨0xA65A, 0xA65A, .disallowed⟩,
  ⟨0xA65B, 0xA65B, .pvalid⟩,
  ⟨0xA65C, 0xA65C, .disallowed⟩,
  ⟨0xA65D, 0xA65D, .pvalid⟩,
  ⟨0xA65E, 0xA65E, .disallowed⟩,
  ⟨0xA65F, 0xA65F, .pvalid⟩,
  ⟨0xA660, 0xA660, .disallowed⟩,
  ⟨0xA661, 0xA661, .pvalid⟩,
  ⟨0xA662, 0xA662, .disallowed⟩,
  ⟨0xA663, 0xA663, .pvalid⟩,
  ⟨0xA664, 0xA664, .disallowed⟩,
  ⟨0xA665, 0xA665, .pvalid⟩,
  ⟨0xA666, 0xA666, .disallowed⟩,
  ⟨0xA667, 0xA667, .pvalid⟩,
  ⟨0xA668, 0xA668, .disallowed⟩,
  ⟨0xA669, 0xA669, .pvalid⟩,
  ⟨0xA66A, 0xA66A, .disallowed⟩,
  ⟨0xA66B, 0xA66B, .pvalid⟩,
  ⟨0xA66C, 0xA66C, .disallowed⟩,
  ⟨0xA66D, 0xA66F, .pvalid⟩,
  ⟨0xA670, 0xA673, .disallowed⟩,
  ⟨0xA674, 0xA67D, .pvalid⟩,
  ⟨0xA67E, 0xA67E, .disallowed⟩,
  ⟨0xA67F, 0xA67F, .pvalid⟩,
  ⟨0xA680, 0xA680, .disallowed⟩,
  ⟨0xA681, 0xA681, .pvalid⟩,
  ⟨0xA682, 0xA682, .disallowed⟩,
  ⟨0xA683, 0xA683, .pvalid⟩,
  ⟨0xA684, 0xA684, .disallowed⟩,
  ⟨0xA685, 0xA685, .pvalid⟩,
  ⟨0xA686, 0xA686, .disallowed⟩,
  ⟨0xA687, 0xA687, .pvalid⟩,
  ⟨0xA688, 0xA688, .disallowed⟩,
  ⟨0xA689, 0xA689, .pvalid⟩,
  ⟨0xA68A, 0xA68A, .disallowed⟩,
  ⟨0xA68B, 0xA68B, .pvalid⟩,
  ⟨0xA68C, 0xA68C, .disallowed⟩,
  ⟨0xA68D, 0xA68D, .pvalid⟩,
  ⟨0xA68E, 0xA68E, .disallowed⟩,
  ⟨0xA68F, 0xA68F, .pvalid⟩,
  ⟨0xA690, 0xA690, .disallowed⟩,
  ⟨0xA691, 0xA691, .pvalid⟩,
  ⟨0xA692, 0xA692, .disallowed⟩,
  ⟨0xA693, 0xA693, .pvalid⟩,
  ⟨0xA694, 0xA694, .disallowed⟩,
  ⟨0xA695, 0xA695, .pvalid⟩,
  ⟨0xA696, 0xA696, .disallowed⟩,
  ⟨0xA697, 0xA697, .pvalid⟩,
  ⟨0xA698, 0xA698, .disallowed⟩,
  ⟨0xA699, 0xA699, .pvalid⟩,
  ⟨0xA69A, 0xA69A, .disallowed⟩,
  ⟨0xA69B, 0xA69B, .pvalid⟩,
  ⟨0xA69C, 0xA69D, .disallowed⟩,
  ⟨0xA69E, 0xA6E5, .pvalid⟩,
  ⟨0xA6E6, 0xA6EF, .disallowed⟩,
  ⟨0xA6F0, 0xA6F1, .pvalid⟩,
  ⟨0xA6F2, 0xA6F7, .disallowed⟩,
  ⟨0xA6F8, 0xA6FF, .unassigned⟩,
  ⟨0xA700, 0xA716, .disallowed⟩,
  ⟨0xA717, 0xA71F, .pvalid⟩,
  ⟨0xA720, 0xA722, .disallowed⟩,
  ⟨0xA723, 0xA723, .pvalid⟩,
  ⟨0xA724, 0xA724, .disallowed⟩,
  ⟨0xA725, 0xA725, .pvalid⟩,
  ⟨0xA726, 0xA726, .disallowed⟩,
  ⟨0xA727, 0xA727, .pvalid⟩,
  ⟨0xA728, 0xA728, .disallowed⟩,
  ⟨0xA729, 0xA729, .pvalid⟩,
  ⟨0xA72A, 0xA72A, .disallowed⟩,
  ⟨0xA72B, 0xA72B, .pvalid⟩,
  ⟨0xA72C, 0xA72C, .disallowed⟩,
  ⟨0xA72D, 0xA72D, .pvalid⟩,
  ⟨0xA72E, 0xA72E, .disallowed⟩,
  ⟨0xA72F, 0xA731, .pvalid⟩,
  ⟨0xA732, 0xA732, .disallowed⟩,
  ⟨0xA733, 0xA733, .pvalid⟩,
  ⟨0xA734, 0xA734, .disallowed⟩,
  ⟨0xA735, 0xA735, .pvalid⟩,
  ⟨0xA736, 0xA736, .disallowed⟩,
  ⟨0xA737, 0xA737, .pvalid⟩,
  ⟨0xA738, 0xA738, .disallowed⟩,
  ⟨0xA739, 0xA739, .pvalid⟩,
  ⟨0xA73A, 0xA73A, .disallowed⟩,
  ⟨0xA73B, 0xA73B, .pvalid⟩,
  ⟨0xA73C, 0xA73C, .disallowed⟩,
  ⟨0xA73D, 0xA73D, .pvalid⟩,
  ⟨0xA73E, 0xA73E, .disallowed⟩,
  ⟨0xA73F, 0xA73F, .pvalid⟩,
  ⟨0xA740, 0xA740, .disallowed⟩,
  ⟨0xA741, 0xA741, .pvalid⟩,
  ⟨0xA742, 0xA742, .disallowed⟩,
  ⟨0xA743, 0xA743, .pvalid⟩,
  ⟨0xA744, 0xA744, .disallowed⟩,
  ⟨0xA745, 0xA745, .pvalid⟩,
  ⟨0xA746, 0xA746, .disallowed⟩,
  ⟨0xA747, 0xA747, .pvalid⟩,
  ⟨0xA748, 0xA748, .disallowed⟩,
  ⟨0xA749, 0xA749, .pvalid⟩,
  ⟨0xA74A, 0xA74A, .disallowed⟩,
  ⟨0xA74B, 0xA74B, .pvalid⟩,
  ⟨0xA74C, 0xA74C, .disallowed⟩,
  ⟨0xA74D, 0xA74D, .pvalid⟩,
  ⟨0xA74E, 0xA74E, .disallowed⟩,
  ⟨0xA74F, 0xA74F, .pvalid⟩,
  ⟨0xA750, 0xA750, .disallowed⟩,
  ⟨0xA751, 0xA751, .pvalid⟩,
  ⟨0xA752, 0xA752, .disallowed⟩,
  ⟨0xA753, 0xA753, .pvalid⟩,
  ⟨0xA754, 0xA754, .disallowed⟩,
  ⟨0xA755, 0xA755, .pvalid⟩,
  ⟨0xA756, 0xA756, .disallowed⟩,
  ⟨0xA757, 0xA757, .pvalid⟩,
  ⟨0xA758, 0xA758, .disallowed⟩,
  ⟨0xA759, 0xA759, .pvalid⟩,
  ⟨0xA75A, 0xA75A, .disallowed⟩,
  ⟨0xA75B, 0xA75B, .pvalid⟩,
  ⟨0xA75C, 0xA75C, .disallowed⟩,
  ⟨0xA75D, 0xA75D, .pvalid⟩,
  ⟨0xA75E, 0xA75E, .disallowed⟩,
  ⟨0xA75F, 0xA75F, .pvalid⟩,
  ⟨0xA760, 0xA760, .disallowed⟩,
  ⟨0xA761, 0xA761, .pvalid⟩,
  ⟨0xA762, 0xA762, .disallowed⟩,
  ⟨0xA763, 0xA763, .pvalid⟩,
  ⟨0xA764, 0xA764, .disallowed⟩,
  ⟨0xA765, 0xA765, .pvalid⟩,
  ⟨0xA766, 0xA766, .disallowed⟩,
  ⟨0xA767, 0xA767, .pvalid⟩,
  ⟨0xA768, 0xA768, .disallowed⟩,
  ⟨0xA769, 0xA769, .pvalid⟩,
  ⟨0xA76A, 0xA76A, .disallowed⟩,
  ⟨0xA76B, 0xA76B, .pvalid⟩,
  ⟨0xA76C, 0xA76C, .disallowed⟩,
  ⟨0xA76D, 0xA76D, .pvalid⟩,
  ⟨0xA76E, 0xA76E, .disallowed⟩,
  ⟨0xA76F, 0xA76F, .pvalid⟩,
  ⟨0xA770, 0xA770, .disallowed⟩,
  ⟨0xA771, 0xA778, .pvalid⟩,
  ⟨0xA779, 0xA779, .disallowed⟩,
  ⟨0xA77A, 0xA77A, .pvalid⟩,
  ⟨0xA77B, 0xA77B, .disallowed⟩,
  ⟨0xA77C, 0xA77C, .pvalid⟩,
  ⟨0xA77D, 0xA77E, .disallowed⟩,
  ⟨0xA77F, 0xA77F, .pvalid⟩,
  ⟨0xA780, 0xA780, .disallowed⟩,
  ⟨0xA781, 0xA781, .pvalid⟩,
  ⟨0xA782, 0xA782, .disallowed⟩,
  ⟨0xA783, 0xA783, .pvalid⟩,
  ⟨0xA784, 0xA784, .disallowed⟩,
  ⟨0xA785, 0xA785, .pvalid⟩,
  ⟨0xA786, 0xA786, .disallowed⟩,
  ⟨0xA787, 0xA788, .pvalid⟩,
  ⟨0xA789, 0xA78B, .disallowed⟩,
  ⟨0xA78C, 0xA78C, .pvalid⟩,
  ⟨0xA78D, 0xA78D, .disallowed⟩,
  ⟨0xA78E, 0xA78F, .pvalid⟩,
  ⟨0xA790, 0xA790, .disallowed⟩,
  ⟨0xA791, 0xA791, .pvalid⟩,
  ⟨0xA792, 0xA792, .disallowed⟩,
  ⟨0xA793, 0xA795, .pvalid⟩,
  ⟨0xA796, 0xA796, .disallowed⟩,
  ⟨0xA797, 0xA797, .pvalid⟩,
  ⟨0xA798, 0xA798, .disallowed⟩,
  ⟨0xA799, 0xA799, .pvalid⟩,
  ⟨0xA79A, 0xA79A, .disallowed⟩,
  ⟨0xA79B, 0xA79B, .pvalid⟩,
  ⟨0xA79C, 0xA79C, .disallowed⟩,
  ⟨0xA79D, 0xA79D, .pvalid⟩,
  ⟨0xA79E, 0xA79E, .disallowed⟩,
  ⟨0xA79F, 0xA79F, .pvalid⟩,
  ⟨0xA7A0, 0xA7A0, .disallowed⟩,
  ⟨0xA7A1, 0xA7A1, .pvalid⟩,
  ⟨0xA7A2, 0xA7A2, .disallowed⟩,
  ⟨0xA7A3, 0xA7A3, .pvalid⟩,
  ⟨0xA7A4, 0xA7A4, .disallowed⟩,
  ⟨0xA7A5, 0xA7A5, .pvalid⟩,
  ⟨0xA7A6, 0xA7A6, .disallowed⟩,
  ⟨0xA7A7, 0xA7A7, .pvalid⟩,
  ⟨0xA7A8, 0xA7A8, .disallowed⟩,
  ⟨0xA7A9, 0xA7A9, .pvalid⟩,
  ⟨0xA7AA, 0xA7AE, .disallowed⟩,
  ⟨0xA7AF, 0xA7AF, .pvalid⟩,
  ⟨0xA7B0, 0xA7B4, .disallowed⟩,
  ⟨0xA7B5, 0xA7B5, .pvalid⟩,
  ⟨0xA7B6, 0xA7B6, .disallowed⟩,
  ⟨0xA7B7, 0xA7B7, .pvalid⟩,
  ⟨0xA7B8, 0xA7B8, .disallowed⟩,
  ⟨0xA7B9, 0xA7B9, .pvalid⟩,
  ⟨0xA7BA, 0xA7F6, .unassigned⟩,
  ⟨0xA7F7, 0xA7F7, .pvalid⟩,
  ⟨0xA7F8, 0xA7F9, .disallowed⟩,
  ⟨0xA7FA, 0xA827, .pvalid⟩,
  ⟨0xA828, 0xA82B, .disallowed⟩,
  ⟨0xA82C, 0xA82F, .unassigned⟩,
  ⟨0xA830, 0xA839, .disallowed⟩,
  ⟨0xA83A, 0xA83F, .unassigned⟩,
  ⟨0xA840, 0xA873, .pvalid⟩,
  ⟨0xA874, 0xA877, .disallowed⟩,
  ⟨0xA878, 0xA87F, .unassigned⟩,
  ⟨0xA880, 0xA8C5, .pvalid⟩,
  ⟨0xA8C6, 0xA8CD, .unassigned⟩,
  ⟨0xA8CE, 0xA8CF, .disallowed⟩,
  ⟨0xA8D0, 0xA8D9, .pvalid⟩,
  ⟨0xA8DA, 0xA8DF, .unassigned⟩,
  ⟨0xA8E0, 0xA8F7, .pvalid⟩,
  ⟨0xA8F8, 0xA8FA, .disallowed⟩,
  ⟨0xA8FB, 0xA8FB, .pvalid⟩,
  ⟨0xA8FC, 0xA8FC, .disallowed⟩,
  ⟨0xA8FD, 0xA92D, .pvalid⟩,
  ⟨0xA92E, 0xA92F, .disallowed⟩,
  ⟨0xA930, 0xA953, .pvalid⟩,
  ⟨0xA954, 0xA95E, .unassigned⟩,
  ⟨0xA95F, 0xA97C, .disallowed⟩,
  ⟨0xA97D, 0xA97F, .unassigned⟩,
  ⟨0xA980, 0xA9C0, .pvalid⟩,
  ⟨0xA9C1, 0xA9CD, .disallowed⟩,
  ⟨0xA9CE, 0xA9CE, .unassigned⟩,
  ⟨0xA9CF, 0xA9D9, .pvalid⟩]

def csv8 : List CsvRow := [
  ⟨0xA9DA, 0xA9DD, .unassigned⟩,
  ⟨0xA9DE, 0xA9DF, .disallowed⟩,
  ⟨0xA9E0, 0xA9FE, .pvalid⟩,
  ⟨0xA9FF, 0xA9FF, .unassigned⟩,
  ⟨0xAA00, 0xAA36, .pvalid⟩,
  ⟨0xAA37, 0xAA3F, .unassigned⟩,
  ⟨0xAA40, 0xAA4D, .pvalid⟩,
  ⟨0xAA4E, 0xAA4F, .unassigned⟩,
  ⟨0xAA50, 0xAA59, .pvalid⟩,
  ⟨0xAA5A, 0xAA5B, .unassigned⟩,
  ⟨0xAA5C, 0xAA5F, .disallowed⟩,
  ⟨0xAA60, 0xAA76, .pvalid⟩,
  ⟨0xAA77, 0xAA79, .disallowed⟩,
  ⟨0xAA7A, 0xAAC2, .pvalid⟩,
  ⟨0xAAC3, 0xAADA, .unassigned⟩,
  ⟨0xAADB, 0xAADD, .pvalid⟩,
  ⟨0xAADE, 0xAADF, .disallowed⟩,
  ⟨0xAAE0, 0xAAEF, .pvalid⟩,
  ⟨0xAAF0, 0xAAF1, .disallowed⟩,
  ⟨0xAAF2, 0xAAF6, .pvalid⟩,
  ⟨0xAAF7, 0xAB00, .unassigned⟩,
  ⟨0xAB01, 0xAB06, .pvalid⟩,
  ⟨0xAB07, 0xAB08, .unassigned⟩,
  ⟨0xAB09, 0xAB0E, .pvalid⟩,
  ⟨0xAB0F, 0xAB10, .unassigned⟩,
  ⟨0xAB11, 0xAB16, .pvalid⟩,
  ⟨0xAB17, 0xAB1F, .unassigned⟩,
  ⟨0xAB20, 0xAB26, .pvalid⟩,
  ⟨0xAB27, 0xAB27, .unassigned⟩,
  ⟨0xAB28, 0xAB2E, .pvalid⟩,
  ⟨0xAB2F, 0xAB2F, .unassigned⟩,
  ⟨0xAB30, 0xAB5A, .pvalid⟩,
  ⟨0xAB5B, 0xAB5F, .disallowed⟩,
  ⟨0xAB60, 0xAB65, .pvalid⟩,
  ⟨0xAB66, 0xAB6F, .unassigned⟩,
  ⟨0xAB70, 0xABBF, .disallowed⟩,
  ⟨0xABC0, 0xABEA, .pvalid⟩,
  ⟨0xABEB, 0xABEB, .disallowed⟩,
  ⟨0xABEC, 0xABED, .pvalid⟩,
  ⟨0xABEE, 0xABEF, .unassigned⟩,
  ⟨0xABF0, 0xABF9, .pvalid⟩,
  ⟨0xABFA, 0xABFF, .unassigned⟩,
  ⟨0xAC00, 0xD7A3, .pvalid⟩,
  ⟨0xD7A4, 0xD7AF, .unassigned⟩,
  ⟨0xD7B0, 0xD7C6, .disallowed⟩,
  ⟨0xD7C7, 0xD7CA, .unassigned⟩,
  ⟨0xD7CB, 0xD7FB, .disallowed⟩,
  ⟨0xD7FC, 0xD7FF, .unassigned⟩,
  ⟨0xD800, 0xFA0D, .disallowed⟩,
  ⟨0xFA0E, 0xFA0F, .pvalid⟩,
  ⟨0xFA10, 0xFA10, .disallowed⟩,
  ⟨0xFA11, 0xFA11, .pvalid⟩,
  ⟨0xFA12, 0xFA12, .disallowed⟩,
  ⟨0xFA13, 0xFA14, .pvalid⟩,
  ⟨0xFA15, 0xFA1E, .disallowed⟩,
  ⟨0xFA1F, 0xFA1F, .pvalid⟩,
  ⟨0xFA20, 0xFA20, .disallowed⟩,
  ⟨0xFA21, 0xFA21, .pvalid⟩,
  ⟨0xFA22, 0xFA22, .disallowed⟩,
  ⟨0xFA23, 0xFA24, .pvalid⟩,
  ⟨0xFA25, 0xFA26, .disallowed⟩,
  ⟨0xFA27, 0xFA29, .pvalid⟩,
  ⟨0xFA2A, 0xFA6D, .disallowed⟩,
  ⟨0xFA6E, 0xFA6F, .unassigned⟩,
  ⟨0xFA70, 0xFAD9, .disallowed⟩,
  ⟨0xFADA, 0xFAFF, .unassigned⟩,
  ⟨0xFB00, 0xFB06, .disallowed⟩,
  ⟨0xFB07, 0xFB12, .unassigned⟩,
  ⟨0xFB13, 0xFB17, .disallowed⟩,
  ⟨0xFB18, 0xFB1C, .unassigned⟩,
  ⟨0xFB1D, 0xFB1D, .disallowed⟩,
  ⟨0xFB1E, 0xFB1E, .pvalid⟩,
  ⟨0xFB1F, 0xFB36, .disallowed⟩,
  ⟨0xFB37, 0xFB37, .unassigned⟩,
  ⟨0xFB38, 0xFB3C, .disallowed⟩,
  ⟨0xFB3D, 0xFB3D, .unassigned⟩,
  ⟨0xFB3E, 0xFB3E, .disallowed⟩,
  ⟨0xFB3F, 0xFB3F, .unassigned⟩,
  ⟨0xFB40, 0xFB41, .disallowed⟩,
  ⟨0xFB42, 0xFB42, .unassigned⟩,
  ⟨0xFB43, 0xFB44, .disallowed⟩,
  ⟨0xFB45, 0xFB45, .unassigned⟩,
  ⟨0xFB46, 0xFBC1, .disallowed⟩,
  ⟨0xFBC2, 0xFBD2, .unassigned⟩,
  ⟨0xFBD3, 0xFD3F, .disallowed⟩,
  ⟨0xFD40, 0xFD4F, .unassigned⟩,
  ⟨0xFD50, 0xFD8F, .disallowed⟩,
  ⟨0xFD90, 0xFD91, .unassigned⟩,
  ⟨0xFD92, 0xFDC7, .disallowed⟩,
  ⟨0xFDC8, 0xFDCF, .unassigned⟩,
  ⟨0xFDD0, 0xFDFD, .disallowed⟩,
  ⟨0xFDFE, 0xFDFF, .unassigned⟩,
  ⟨0xFE00, 0xFE19, .disallowed⟩,
  ⟨0xFE1A, 0xFE1F, .unassigned⟩,
  ⟨0xFE20, 0xFE2F, .pvalid⟩,
  ⟨0xFE30, 0xFE52, .disallowed⟩,
  ⟨0xFE53, 0xFE53, .unassigned⟩,
  ⟨0xFE54, 0xFE66, .disallowed⟩,
  ⟨0xFE67, 0xFE67, .unassigned⟩,
  ⟨0xFE68, 0xFE6B, .disallowed⟩,
  ⟨0xFE6C, 0xFE6F, .unassigned⟩,
  ⟨0xFE70, 0xFE72, .disallowed⟩,
  ⟨0xFE73, 0xFE73, .pvalid⟩,
  ⟨0xFE74, 0xFE74, .disallowed⟩,
  ⟨0xFE75, 0xFE75, .unassigned⟩,
  ⟨0xFE76, 0xFEFC, .disallowed⟩,
  ⟨0xFEFD, 0xFEFE, .unassigned⟩,
  ⟨0xFEFF, 0xFEFF, .disallowed⟩,
  ⟨0xFF00, 0xFF00, .unassigned⟩,
  ⟨0xFF01, 0xFFBE, .disallowed⟩,
  ⟨0xFFBF, 0xFFC1, .unassigned⟩,
  ⟨0xFFC2, 0xFFC7, .disallowed⟩,
  ⟨0xFFC8, 0xFFC9, .unassigned⟩,
  ⟨0xFFCA, 0xFFCF, .disallowed⟩,
  ⟨0xFFD0, 0xFFD1, .unassigned⟩,
  ⟨0xFFD2, 0xFFD7, .disallowed⟩,
  ⟨0xFFD8, 0xFFD9, .unassigned⟩,
  ⟨0xFFDA, 0xFFDC, .disallowed⟩,
  ⟨0xFFDD, 0xFFDF, .unassigned⟩,
  ⟨0xFFE0, 0xFFE6, .disallowed⟩,
  ⟨0xFFE7, 0xFFE7, .unassigned⟩,
  ⟨0xFFE8, 0xFFEE, .disallowed⟩,
  ⟨0xFFEF, 0xFFF8, .unassigned⟩,
  ⟨0xFFF9, 0xFFFF, .disallowed⟩,
  ⟨0x10000, 0x1000B, .pvalid⟩,
  ⟨0x1000C, 0x1000C, .unassigned⟩,
  ⟨0x1000D, 0x10026, .pvalid⟩,
  ⟨0x10027, 0x10027, .unassigned⟩,
  ⟨0x10028, 0x1003A, .pvalid⟩,
  ⟨0x1003B, 0x1003B, .unassigned⟩,
  ⟨0x1003C, 0x1003D, .pvalid⟩,
  ⟨0x1003E, 0x1003E, .unassigned⟩,
  ⟨0x1003F, 0x1004D, .pvalid⟩,
  ⟨0x1004E, 0x1004F, .unassigned⟩,
  ⟨0x10050, 0x1005D, .pvalid⟩,
  ⟨0x1005E, 0x1007F, .unassigned⟩,
  ⟨0x10080, 0x100FA, .pvalid⟩,
  ⟨0x100FB, 0x100FF, .unassigned⟩,
  ⟨0x10100, 0x10102, .disallowed⟩,
  ⟨0x10103, 0x10106, .unassigned⟩,
  ⟨0x10107, 0x10133, .disallowed⟩,
  ⟨0x10134, 0x10136, .unassigned⟩,
  ⟨0x10137, 0x1018E, .disallowed⟩,
  ⟨0x1018F, 0x1018F, .unassigned⟩,
  ⟨0x10190, 0x1019B, .disallowed⟩,
  ⟨0x1019C, 0x1019F, .unassigned⟩,
  ⟨0x101A0, 0x101A0, .disallowed⟩,
  ⟨0x101A1, 0x101CF, .unassigned⟩,
  ⟨0x101D0, 0x101FC, .disallowed⟩,
  ⟨0x101FD, 0x101FD, .pvalid⟩,
  ⟨0x101FE, 0x1027F, .unassigned⟩,
  ⟨0x10280, 0x1029C, .pvalid⟩,
  ⟨0x1029D, 0x1029F, .unassigned⟩,
  ⟨0x102A0, 0x102D0, .pvalid⟩,
  ⟨0x102D1, 0x102DF, .unassigned⟩,
  ⟨0x102E0, 0x102E0, .pvalid⟩,
  ⟨0x102E1, 0x102FB, .disallowed⟩,
  ⟨0x102FC, 0x102FF, .unassigned⟩,
  ⟨0x10300, 0x1031F, .pvalid⟩,
  ⟨0x10320, 0x10323, .disallowed⟩,
  ⟨0x10324, 0x1032C, .unassigned⟩,
  ⟨0x1032D, 0x10340, .pvalid⟩,
  ⟨0x10341, 0x10341, .disallowed⟩,
  ⟨0x10342, 0x10349, .pvalid⟩,
  ⟨0x1034A, 0x1034A, .disallowed⟩,
  ⟨0x1034B, 0x1034F, .unassigned⟩,
  ⟨0x10350, 0x1037A, .pvalid⟩,
  ⟨0x1037B, 0x1037F, .unassigned⟩,
  ⟨0x10380, 0x1039D, .pvalid⟩,
  ⟨0x1039E, 0x1039E, .unassigned⟩,
  ⟨0x1039F, 0x1039F, .disallowed⟩,
  ⟨0x103A0, 0x103C3, .pvalid⟩,
  ⟨0x103C4, 0x103C7, .unassigned⟩,
  ⟨0x103C8, 0x103CF, .pvalid⟩,
  ⟨0x103D0, 0x103D5, .disallowed⟩,
  ⟨0x103D6, 0x103FF, .unassigned⟩,
  ⟨0x10400, 0x10427, .disallowed⟩,
  ⟨0x10428, 0x1049D, .pvalid⟩,
  ⟨0x1049E, 0x1049F, .unassigned⟩,
  ⟨0x104A0, 0x104A9, .pvalid⟩,
  ⟨0x104AA, 0x104AF, .unassigned⟩,
  ⟨0x104B0, 0x104D3, .disallowed⟩,
  ⟨0x104D4, 0x104D7, .unassigned⟩,
  ⟨0x104D8, 0x104FB, .pvalid⟩,
  ⟨0x104FC, 0x104FF, .unassigned⟩,
  ⟨0x10500, 0x10527, .pvalid⟩,
  ⟨0x10528, 0x1052F, .unassigned⟩,
  ⟨0x10530, 0x10563, .pvalid⟩,
  ⟨0x10564, 0x1056E, .unassigned⟩,
  ⟨0x1056F, 0x1056F, .disallowed⟩,
  ⟨0x10570, 0x105FF, .unassigned⟩,
  ⟨0x10600, 0x10736, .pvalid⟩,
  ⟨0x10737, 0x1073F, .unassigned⟩,
  ⟨0x10740, 0x10755, .pvalid⟩,
  ⟨0x10756, 0x1075F, .unassigned⟩,
  ⟨0x10760, 0x10767, .pvalid⟩,
  ⟨0x10768, 0x107FF, .unassigned⟩,
  ⟨0x10800, 0x10805, .pvalid⟩,
  ⟨0x10806, 0x10807, .unassigned⟩,
  ⟨0x10808, 0x10808, .pvalid⟩,
  ⟨0x10809, 0x10809, .unassigned⟩,
  ⟨0x1080A, 0x10835, .pvalid⟩,
  ⟨0x10836, 0x10836, .unassigned⟩,
  ⟨0x10837, 0x10838, .pvalid⟩,
  ⟨0x10839, 0x1083B, .unassigned⟩,
  ⟨0x1083C, 0x1083C, .pvalid⟩,
  ⟨0x1083D, 0x1083E, .unassigned⟩,
  ⟨0x1083F, 0x10855, .pvalid⟩,
  ⟨0x10856, 0x10856, .unassigned⟩,
  ⟨0x10857, 0x1085F, .disallowed⟩,
  ⟨0x10860, 0x10876, .pvalid⟩,
  ⟨0x10877, 0x1087F, .disallowed⟩,
  ⟨0x10880, 0x1089E, .pvalid⟩,
  ⟨0x1089F, 0x108A6, .unassigned⟩,
  ⟨0x108A7, 0x108AF, .disallowed⟩,
  ⟨0x108B0, 0x108DF, .unassigned⟩,
  ⟨0x108E0, 0x108F2, .pvalid⟩,
  ⟨0x108F3, 0x108F3, .unassigned⟩,
  ⟨0x108F4, 0x108F5, .pvalid⟩,
  ⟨0x108F6, 0x108FA, .unassigned⟩,
  ⟨0x108FB, 0x108FF, .disallowed⟩,
  ⟨0x10900, 0x10915, .pvalid⟩,
  ⟨0x10916, 0x1091B, .disallowed⟩,
  ⟨0x1091C, 0x1091E, .unassigned⟩,
  ⟨0x1091F, 0x1091F, .disallowed⟩,
  ⟨0x10920, 0x10939, .pvalid⟩,
  ⟨0x1093A, 0x1093E, .unassigned⟩,
  ⟨0x1093F, 0x1093F, .disallowed⟩,
  ⟨0x10940, 0x1097F, .unassigned⟩,
  ⟨0x10980, 0x109B7, .pvalid⟩,
  ⟨0x109B8, 0x109BB, .unassigned⟩,
  ⟨0x109BC, 0x109BD, .disallowed⟩,
  ⟨0x109BE, 0x109BF, .pvalid⟩,
  ⟨0x109C0, 0x109CF, .disallowed⟩,
  ⟨0x109D0, 0x109D1, .unassigned⟩,
  ⟨0x109D2, 0x109FF, .disallowed⟩,
  ⟨0x10A00, 0x10A03, .pvalid⟩,
  ⟨0x10A04, 0x10A04, .unassigned⟩,
  ⟨0x10A05, 0x10A06, .pvalid⟩,
  ⟨0x10A07, 0x10A0B, .unassigned⟩,
  ⟨0x10A0C, 0x10A13, .pvalid⟩,
  ⟨0x10A14, 0x10A14, .unassigned⟩,
  ⟨0x10A15, 0x10A17, .pvalid⟩,
  ⟨0x10A18, 0x10A18, .unassigned⟩,
  ⟨0x10A19, 0x10A35, .pvalid⟩,
  ⟨0x10A36, 0x10A37, .unassigned⟩,
  ⟨0x10A38, 0x10A3A, .pvalid⟩,
  ⟨0x10A3B, 0x10A3E, .unassigned⟩,
  ⟨0x10A3F, 0x10A3F, .pvalid⟩,
  ⟨0x10A40, 0x10A48, .disallowed⟩]

def csv9 : List CsvRow := [
  ⟨0x10A49, 0x10A4F, .unassigned⟩,
  ⟨0x10A50, 0x10A58, .disallowed⟩,
  ⟨0x10A59, 0x10A5F, .unassigned⟩,
  ⟨0x10A60, 0x10A7C, .pvalid⟩,
  ⟨0x10A7D, 0x10A7F, .disallowed⟩,
  ⟨0x10A80, 0x10A9C, .pvalid⟩,
  ⟨0x10A9D, 0x10A9F, .disallowed⟩,
  ⟨0x10AA0, 0x10ABF, .unassigned⟩,
  ⟨0x10AC0, 0x10AC7, .pvalid⟩,
  ⟨0x10AC8, 0x10AC8, .disallowed⟩,
  ⟨0x10AC9, 0x10AE6, .pvalid⟩,
  ⟨0x10AE7, 0x10AEA, .unassigned⟩,
  ⟨0x10AEB, 0x10AF6, .disallowed⟩,
  ⟨0x10AF7, 0x10AFF, .unassigned⟩,
  ⟨0x10B00, 0x10B35, .pvalid⟩,
  ⟨0x10B36, 0x10B38, .unassigned⟩,
  ⟨0x10B39, 0x10B3F, .disallowed⟩,
  ⟨0x10B40, 0x10B55, .pvalid⟩,
  ⟨0x10B56, 0x10B57, .unassigned⟩,
  ⟨0x10B58, 0x10B5F, .disallowed⟩,
  ⟨0x10B60, 0x10B72, .pvalid⟩,
  ⟨0x10B73, 0x10B77, .unassigned⟩,
  ⟨0x10B78, 0x10B7F, .disallowed⟩,
  ⟨0x10B80, 0x10B91, .pvalid⟩,
  ⟨0x10B92, 0x10B98, .unassigned⟩,
  ⟨0x10B99, 0x10B9C, .disallowed⟩,
  ⟨0x10B9D, 0x10BA8, .unassigned⟩,
  ⟨0x10BA9, 0x10BAF, .disallowed⟩,
  ⟨0x10BB0, 0x10BFF, .unassigned⟩,
  ⟨0x10C00, 0x10C48, .pvalid⟩,
  ⟨0x10C49, 0x10C7F, .unassigned⟩,
  ⟨0x10C80, 0x10CB2, .disallowed⟩,
  ⟨0x10CB3, 0x10CBF, .unassigned⟩,
  ⟨0x10CC0, 0x10CF2, .pvalid⟩,
  ⟨0x10CF3, 0x10CF9, .unassigned⟩,
  ⟨0x10CFA, 0x10CFF, .disallowed⟩,
  ⟨0x10D00, 0x10D27, .pvalid⟩,
  ⟨0x10D28, 0x10D2F, .unassigned⟩,
  ⟨0x10D30, 0x10D39, .pvalid⟩,
  ⟨0x10D3A, 0x10E5F, .unassigned⟩,
  ⟨0x10E60, 0x10E7E, .disallowed⟩,
  ⟨0x10E7F, 0x10EFF, .unassigned⟩,
  ⟨0x10F00, 0x10F1C, .pvalid⟩,
  ⟨0x10F1D, 0x10F26, .disallowed⟩,
  ⟨0x10F27, 0x10F27, .pvalid⟩,
  ⟨0x10F28, 0x10F2F, .unassigned⟩,
  ⟨0x10F30, 0x10F50, .pvalid⟩,
  ⟨0x10F51, 0x10F59, .disallowed⟩,
  ⟨0x10F5A, 0x10FFF, .unassigned⟩,
  ⟨0x11000, 0x11046, .pvalid⟩,
  ⟨0x11047, 0x1104D, .disallowed⟩,
  ⟨0x1104E, 0x11051, .unassigned⟩,
  ⟨0x11052, 0x11065, .disallowed⟩,
  ⟨0x11066, 0x1106F, .pvalid⟩,
  ⟨0x11070, 0x1107E, .unassigned⟩,
  ⟨0x1107F, 0x110BA, .pvalid⟩,
  ⟨0x110BB, 0x110C1, .disallowed⟩,
  ⟨0x110C2, 0x110CC, .unassigned⟩,
  ⟨0x110CD, 0x110CD, .disallowed⟩,
  ⟨0x110CE, 0x110CF, .unassigned⟩,
  ⟨0x110D0, 0x110E8, .pvalid⟩,
  ⟨0x110E9, 0x110EF, .unassigned⟩,
  ⟨0x110F0, 0x110F9, .pvalid⟩,
  ⟨0x110FA, 0x110FF, .unassigned⟩,
  ⟨0x11100, 0x11134, .pvalid⟩,
  ⟨0x11135, 0x11135, .unassigned⟩,
  ⟨0x11136, 0x1113F, .pvalid⟩,
  ⟨0x11140, 0x11143, .disallowed⟩,
  ⟨0x11144, 0x11146, .pvalid⟩,
  ⟨0x11147, 0x1114F, .unassigned⟩,
  ⟨0x11150, 0x11173, .pvalid⟩,
  ⟨0x11174, 0x11175, .disallowed⟩,
  ⟨0x11176, 0x11176, .pvalid⟩,
  ⟨0x11177, 0x1117F, .unassigned⟩,
  ⟨0x11180, 0x111C4, .pvalid⟩,
  ⟨0x111C5, 0x111C8, .disallowed⟩,
  ⟨0x111C9, 0x111CC, .pvalid⟩,
  ⟨0x111CD, 0x111CD, .disallowed⟩,
  ⟨0x111CE, 0x111CF, .unassigned⟩,
  ⟨0x111D0, 0x111DA, .pvalid⟩,
  ⟨0x111DB, 0x111DB, .disallowed⟩,
  ⟨0x111DC, 0x111DC, .pvalid⟩,
  ⟨0x111DD, 0x111DF, .disallowed⟩,
  ⟨0x111E0, 0x111E0, .unassigned⟩,
  ⟨0x111E1, 0x111F4, .disallowed⟩,
  ⟨0x111F5, 0x111FF, .unassigned⟩,
  ⟨0x11200, 0x11211, .pvalid⟩,
  ⟨0x11212, 0x11212, .unassigned⟩,
  ⟨0x11213, 0x11237, .pvalid⟩,
  ⟨0x11238, 0x1123D, .disallowed⟩,
  ⟨0x1123E, 0x1123E, .pvalid⟩,
  ⟨0x1123F, 0x1127F, .unassigned⟩,
  ⟨0x11280, 0x11286, .pvalid⟩,
  ⟨0x11287, 0x11287, .unassigned⟩,
  ⟨0x11288, 0x11288, .pvalid⟩,
  ⟨0x11289, 0x11289, .unassigned⟩,
  ⟨0x1128A, 0x1128D, .pvalid⟩,
  ⟨0x1128E, 0x1128E, .unassigned⟩,
  ⟨0x1128F, 0x1129D, .pvalid⟩,
  ⟨0x1129E, 0x1129E, .unassigned⟩,
  ⟨0x1129F, 0x112A8, .pvalid⟩,
  ⟨0x112A9, 0x112A9, .disallowed⟩,
  ⟨0x112AA, 0x112AF, .unassigned⟩,
  ⟨0x112B0, 0x112EA, .pvalid⟩,
  ⟨0x112EB, 0x112EF, .unassigned⟩,
  ⟨0x112F0, 0x112F9, .pvalid⟩,
  ⟨0x112FA, 0x112FF, .unassigned⟩,
  ⟨0x11300, 0x11303, .pvalid⟩,
  ⟨0x11304, 0x11304, .unassigned⟩,
  ⟨0x11305, 0x1130C, .pvalid⟩,
  ⟨0x1130D, 0x1130E, .unassigned⟩,
  ⟨0x1130F, 0x11310, .pvalid⟩,
  ⟨0x11311, 0x11312, .unassigned⟩,
  ⟨0x11313, 0x11328, .pvalid⟩,
  ⟨0x11329, 0x11329, .unassigned⟩,
  ⟨0x1132A, 0x11330, .pvalid⟩,
  ⟨0x11331, 0x11331, .unassigned⟩,
  ⟨0x11332, 0x11333, .pvalid⟩,
  ⟨0x11334, 0x11334, .unassigned⟩,
  ⟨0x11335, 0x11339, .pvalid⟩,
  ⟨0x1133A, 0x1133A, .unassigned⟩,
  ⟨0x1133B, 0x11344, .pvalid⟩,
  ⟨0x11345, 0x11346, .unassigned⟩,
  ⟨0x11347, 0x11348, .pvalid⟩,
  ⟨0x11349, 0x1134A, .unassigned⟩,
  ⟨0x1134B, 0x1134D, .pvalid⟩,
  ⟨0x1134E, 0x1134F, .unassigned⟩,
  ⟨0x11350, 0x11350, .pvalid⟩,
  ⟨0x11351, 0x11356, .unassigned⟩,
  ⟨0x11357, 0x11357, .pvalid⟩,
  ⟨0x11358, 0x1135C, .unassigned⟩,
  ⟨0x1135D, 0x11363, .pvalid⟩,
  ⟨0x11364, 0x11365, .unassigned⟩,
  ⟨0x11366, 0x1136C, .pvalid⟩,
  ⟨0x1136D, 0x1136F, .unassigned⟩,
  ⟨0x11370, 0x11374, .pvalid⟩,
  ⟨0x11375, 0x113FF, .unassigned⟩,
  ⟨0x11400, 0x1144A, .pvalid⟩,
  ⟨0x1144B, 0x1144F, .disallowed⟩,
  ⟨0x11450, 0x11459, .pvalid⟩,
  ⟨0x1145A, 0x1145A, .unassigned⟩,
  ⟨0x1145B, 0x1145B, .disallowed⟩,
  ⟨0x1145C, 0x1145C, .unassigned⟩,
  ⟨0x1145D, 0x1145D, .disallowed⟩,
  ⟨0x1145E, 0x1145E, .pvalid⟩,
  ⟨0x1145F, 0x1147F, .unassigned⟩,
  ⟨0x11480, 0x114C5, .pvalid⟩,
  ⟨0x114C6, 0x114C6, .disallowed⟩,
  ⟨0x114C7, 0x114C7, .pvalid⟩,
  ⟨0x114C8, 0x114CF, .unassigned⟩,
  ⟨0x114D0, 0x114D9, .pvalid⟩,
  ⟨0x114DA, 0x1157F, .unassigned⟩,
  ⟨0x11580, 0x115B5, .pvalid⟩,
  ⟨0x115B6, 0x115B7, .unassigned⟩,
  ⟨0x115B8, 0x115C0, .pvalid⟩,
  ⟨0x115C1, 0x115D7, .disallowed⟩,
  ⟨0x115D8, 0x115DD, .pvalid⟩,
  ⟨0x115DE, 0x115FF, .unassigned⟩,
  ⟨0x11600, 0x11640, .pvalid⟩,
  ⟨0x11641, 0x11643, .disallowed⟩,
  ⟨0x11644, 0x11644, .pvalid⟩,
  ⟨0x11645, 0x1164F, .unassigned⟩,
  ⟨0x11650, 0x11659, .pvalid⟩,
  ⟨0x1165A, 0x1165F, .unassigned⟩,
  ⟨0x11660, 0x1166C, .disallowed⟩,
  ⟨0x1166D, 0x1167F, .unassigned⟩,
  ⟨0x11680, 0x116B7, .pvalid⟩,
  ⟨0x116B8, 0x116BF, .unassigned⟩,
  ⟨0x116C0, 0x116C9, .pvalid⟩,
  ⟨0x116CA, 0x116FF, .unassigned⟩,
  ⟨0x11700, 0x1171A, .pvalid⟩,
  ⟨0x1171B, 0x1171C, .unassigned⟩,
  ⟨0x1171D, 0x1172B, .pvalid⟩,
  ⟨0x1172C, 0x1172F, .unassigned⟩,
  ⟨0x11730, 0x11739, .pvalid⟩,
  ⟨0x1173A, 0x1173F, .disallowed⟩,
  ⟨0x11740, 0x117FF, .unassigned⟩,
  ⟨0x11800, 0x1183A, .pvalid⟩,
  ⟨0x1183B, 0x1183B, .disallowed⟩,
  ⟨0x1183C, 0x1189F, .unassigned⟩,
  ⟨0x118A0, 0x118BF, .disallowed⟩,
  ⟨0x118C0, 0x118E9, .pvalid⟩,
  ⟨0x118EA, 0x118F2, .disallowed⟩,
  ⟨0x118F3, 0x118FE, .unassigned⟩,
  ⟨0x118FF, 0x118FF, .pvalid⟩,
  ⟨0x11900, 0x119FF, .unassigned⟩,
  ⟨0x11A00, 0x11A3E, .pvalid⟩,
  ⟨0x11A3F, 0x11A46, .disallowed⟩,
  ⟨0x11A47, 0x11A47, .pvalid⟩,
  ⟨0x11A48, 0x11A4F, .unassigned⟩,
  ⟨0x11A50, 0x11A83, .pvalid⟩,
  ⟨0x11A84, 0x11A85, .unassigned⟩,
  ⟨0x11A86, 0x11A99, .pvalid⟩,
  ⟨0x11A9A, 0x11A9C, .disallowed⟩,
  ⟨0x11A9D, 0x11A9D, .pvalid⟩,
  ⟨0x11A9E, 0x11AA2, .disallowed⟩,
  ⟨0x11AA3, 0x11ABF, .unassigned⟩,
  ⟨0x11AC0, 0x11AF8, .pvalid⟩,
  ⟨0x11AF9, 0x11BFF, .unassigned⟩,
  ⟨0x11C00, 0x11C08, .pvalid⟩,
  ⟨0x11C09, 0x11C09, .unassigned⟩,
  ⟨0x11C0A, 0x11C36, .pvalid⟩,
  ⟨0x11C37, 0x11C37, .unassigned⟩,
  ⟨0x11C38, 0x11C40, .pvalid⟩,
  ⟨0x11C41, 0x11C45, .disallowed⟩,
  ⟨0x11C46, 0x11C4F, .unassigned⟩,
  ⟨0x11C50, 0x11C59, .pvalid⟩,
  ⟨0x11C5A, 0x11C6C, .disallowed⟩,
  ⟨0x11C6D, 0x11C6F, .unassigned⟩,
  ⟨0x11C70, 0x11C71, .disallowed⟩,
  ⟨0x11C72, 0x11C8F, .pvalid⟩,
  ⟨0x11C90, 0x11C91, .unassigned⟩,
  ⟨0x11C92, 0x11CA7, .pvalid⟩,
  ⟨0x11CA8, 0x11CA8, .unassigned⟩,
  ⟨0x11CA9, 0x11CB6, .pvalid⟩,
  ⟨0x11CB7, 0x11CFF, .unassigned⟩,
  ⟨0x11D00, 0x11D06, .pvalid⟩,
  ⟨0x11D07, 0x11D07, .unassigned⟩,
  ⟨0x11D08, 0x11D09, .pvalid⟩,
  ⟨0x11D0A, 0x11D0A, .unassigned⟩,
  ⟨0x11D0B, 0x11D36, .pvalid⟩,
  ⟨0x11D37, 0x11D39, .unassigned⟩,
  ⟨0x11D3A, 0x11D3A, .pvalid⟩,
  ⟨0x11D3B, 0x11D3B, .unassigned⟩,
  ⟨0x11D3C, 0x11D3D, .pvalid⟩,
  ⟨0x11D3E, 0x11D3E, .unassigned⟩,
  ⟨0x11D3F, 0x11D47, .pvalid⟩,
  ⟨0x11D48, 0x11D4F, .unassigned⟩,
  ⟨0x11D50, 0x11D59, .pvalid⟩,
  ⟨0x11D5A, 0x11D5F, .unassigned⟩,
  ⟨0x11D60, 0x11D65, .pvalid⟩,
  ⟨0x11D66, 0x11D66, .unassigned⟩,
  ⟨0x11D67, 0x11D68, .pvalid⟩,
  ⟨0x11D69, 0x11D69, .unassigned⟩,
  ⟨0x11D6A, 0x11D8E, .pvalid⟩,
  ⟨0x11D8F, 0x11D8F, .unassigned⟩,
  ⟨0x11D90, 0x11D91, .pvalid⟩,
  ⟨0x11D92, 0x11D92, .unassigned⟩,
  ⟨0x11D93, 0x11D98, .pvalid⟩,
  ⟨0x11D99, 0x11D9F, .unassigned⟩,
  ⟨0x11DA0, 0x11DA9, .pvalid⟩,
  ⟨0x11DAA, 0x11EDF, .unassigned⟩,
  ⟨0x11EE0, 0x11EF6, .pvalid⟩,
  ⟨0x11EF7, 0x11EF8, .disallowed⟩,
  ⟨0x11EF9, 0x11FFF, .unassigned⟩,
  ⟨0x12000, 0x12399, .pvalid⟩,
  ⟨0x1239A, 0x123FF, .unassigned⟩,
  ⟨0x12400, 0x1246E, .disallowed⟩,
  ⟨0x1246F, 0x1246F, .unassigned⟩,
  ⟨0x12470, 0x12474, .disallowed⟩]

def csv10 : List CsvRow := [
  ⟨0x12475, 0x1247F, .unassigned⟩,
  ⟨0x12480, 0x12543, .pvalid⟩,
  ⟨0x12544, 0x12FFF, .unassigned⟩,
  ⟨0x13000, 0x1342E, .pvalid⟩,
  ⟨0x1342F, 0x143FF, .unassigned⟩,
  ⟨0x14400, 0x14646, .pvalid⟩,
  ⟨0x14647, 0x167FF, .unassigned⟩,
  ⟨0x16800, 0x16A38, .pvalid⟩,
  ⟨0x16A39, 0x16A3F, .unassigned⟩,
  ⟨0x16A40, 0x16A5E, .pvalid⟩,
  ⟨0x16A5F, 0x16A5F, .unassigned⟩,
  ⟨0x16A60, 0x16A69, .pvalid⟩,
  ⟨0x16A6A, 0x16A6D, .unassigned⟩,
  ⟨0x16A6E, 0x16A6F, .disallowed⟩,
  ⟨0x16A70, 0x16ACF, .unassigned⟩,
  ⟨0x16AD0, 0x16AED, .pvalid⟩,
  ⟨0x16AEE, 0x16AEF, .unassigned⟩,
  ⟨0x16AF0, 0x16AF4, .pvalid⟩,
  ⟨0x16AF5, 0x16AF5, .disallowed⟩,
  ⟨0x16AF6, 0x16AFF, .unassigned⟩,
  ⟨0x16B00, 0x16B36, .pvalid⟩,
  ⟨0x16B37, 0x16B3F, .disallowed⟩,
  ⟨0x16B40, 0x16B43, .pvalid⟩,
  ⟨0x16B44, 0x16B45, .disallowed⟩,
  ⟨0x16B46, 0x16B4F, .unassigned⟩,
  ⟨0x16B50, 0x16B59, .pvalid⟩,
  ⟨0x16B5A, 0x16B5A, .unassigned⟩,
  ⟨0x16B5B, 0x16B61, .disallowed⟩,
  ⟨0x16B62, 0x16B62, .unassigned⟩,
  ⟨0x16B63, 0x16B77, .pvalid⟩,
  ⟨0x16B78, 0x16B7C, .unassigned⟩,
  ⟨0x16B7D, 0x16B8F, .pvalid⟩,
  ⟨0x16B90, 0x16E3F, .unassigned⟩,
  ⟨0x16E40, 0x16E5F, .disallowed⟩,
  ⟨0x16E60, 0x16E7F, .pvalid⟩,
  ⟨0x16E80, 0x16E9A, .disallowed⟩,
  ⟨0x16E9B, 0x16EFF, .unassigned⟩,
  ⟨0x16F00, 0x16F44, .pvalid⟩,
  ⟨0x16F45, 0x16F4F, .unassigned⟩,
  ⟨0x16F50, 0x16F7E, .pvalid⟩,
  ⟨0x16F7F, 0x16F8E, .unassigned⟩,
  ⟨0x16F8F, 0x16F9F, .pvalid⟩,
  ⟨0x16FA0, 0x16FDF, .unassigned⟩,
  ⟨0x16FE0, 0x16FE1, .pvalid⟩,
  ⟨0x16FE2, 0x16FFF, .unassigned⟩,
  ⟨0x17000, 0x187F1, .pvalid⟩,
  ⟨0x187F2, 0x187FF, .unassigned⟩,
  ⟨0x18800, 0x18AF2, .pvalid⟩,
  ⟨0x18AF3, 0x1AFFF, .unassigned⟩,
  ⟨0x1B000, 0x1B11E, .pvalid⟩,
  ⟨0x1B11F, 0x1B16F, .unassigned⟩,
  ⟨0x1B170, 0x1B2FB, .pvalid⟩,
  ⟨0x1B2FC, 0x1BBFF, .unassigned⟩,
  ⟨0x1BC00, 0x1BC6A, .pvalid⟩,
  ⟨0x1BC6B, 0x1BC6F, .unassigned⟩,
  ⟨0x1BC70, 0x1BC7C, .pvalid⟩,
  ⟨0x1BC7D, 0x1BC7F, .unassigned⟩,
  ⟨0x1BC80, 0x1BC88, .pvalid⟩,
  ⟨0x1BC89, 0x1BC8F, .unassigned⟩,
  ⟨0x1BC90, 0x1BC99, .pvalid⟩,
  ⟨0x1BC9A, 0x1BC9B, .unassigned⟩,
  ⟨0x1BC9C, 0x1BC9C, .disallowed⟩,
  ⟨0x1BC9D, 0x1BC9E, .pvalid⟩,
  ⟨0x1BC9F, 0x1BCA3, .disallowed⟩,
  ⟨0x1BCA4, 0x1CFFF, .unassigned⟩,
  ⟨0x1D000, 0x1D0F5, .disallowed⟩,
  ⟨0x1D0F6, 0x1D0FF, .unassigned⟩,
  ⟨0x1D100, 0x1D126, .disallowed⟩,
  ⟨0x1D127, 0x1D128, .unassigned⟩,
  ⟨0x1D129, 0x1D1E8, .disallowed⟩,
  ⟨0x1D1E9, 0x1D1FF, .unassigned⟩,
  ⟨0x1D200, 0x1D245, .disallowed⟩,
  ⟨0x1D246, 0x1D2DF, .unassigned⟩,
  ⟨0x1D2E0, 0x1D2F3, .disallowed⟩,
  ⟨0x1D2F4, 0x1D2FF, .unassigned⟩,
  ⟨0x1D300, 0x1D356, .disallowed⟩,
  ⟨0x1D357, 0x1D35F, .unassigned⟩,
  ⟨0x1D360, 0x1D378, .disallowed⟩,
  ⟨0x1D379, 0x1D3FF, .unassigned⟩,
  ⟨0x1D400, 0x1D454, .disallowed⟩,
  ⟨0x1D455, 0x1D455, .unassigned⟩,
  ⟨0x1D456, 0x1D49C, .disallowed⟩,
  ⟨0x1D49D, 0x1D49D, .unassigned⟩,
  ⟨0x1D49E, 0x1D49F, .disallowed⟩,
  ⟨0x1D4A0, 0x1D4A1, .unassigned⟩,
  ⟨0x1D4A2, 0x1D4A2, .disallowed⟩,
  ⟨0x1D4A3, 0x1D4A4, .unassigned⟩,
  ⟨0x1D4A5, 0x1D4A6, .disallowed⟩,
  ⟨0x1D4A7, 0x1D4A8, .unassigned⟩,
  ⟨0x1D4A9, 0x1D4AC, .disallowed⟩,
  ⟨0x1D4AD, 0x1D4AD, .unassigned⟩,
  ⟨0x1D4AE, 0x1D4B9, .disallowed⟩,
  ⟨0x1D4BA, 0x1D4BA, .unassigned⟩,
  ⟨0x1D4BB, 0x1D4BB, .disallowed⟩,
  ⟨0x1D4BC, 0x1D4BC, .unassigned⟩,
  ⟨0x1D4BD, 0x1D4C3, .disallowed⟩,
  ⟨0x1D4C4, 0x1D4C4, .unassigned⟩,
  ⟨0x1D4C5, 0x1D505, .disallowed⟩,
  ⟨0x1D506, 0x1D506, .unassigned⟩,
  ⟨0x1D507, 0x1D50A, .disallowed⟩,
  ⟨0x1D50B, 0x1D50C, .unassigned⟩,
  ⟨0x1D50D, 0x1D514, .disallowed⟩,
  ⟨0x1D515, 0x1D515, .unassigned⟩,
  ⟨0x1D516, 0x1D51C, .disallowed⟩,
  ⟨0x1D51D, 0x1D51D, .unassigned⟩,
  ⟨0x1D51E, 0x1D539, .disallowed⟩,
  ⟨0x1D53A, 0x1D53A, .unassigned⟩,
  ⟨0x1D53B, 0x1D53E, .disallowed⟩,
  ⟨0x1D53F, 0x1D53F, .unassigned⟩,
  ⟨0x1D540, 0x1D544, .disallowed⟩,
  ⟨0x1D545, 0x1D545, .unassigned⟩,
  ⟨0x1D546, 0x1D546, .disallowed⟩,
  ⟨0x1D547, 0x1D549, .unassigned⟩,
  ⟨0x1D54A, 0x1D550, .disallowed⟩,
  ⟨0x1D551, 0x1D551, .unassigned⟩,
  ⟨0x1D552, 0x1D6A5, .disallowed⟩,
  ⟨0x1D6A6, 0x1D6A7, .unassigned⟩,
  ⟨0x1D6A8, 0x1D7CB, .disallowed⟩,
  ⟨0x1D7CC, 0x1D7CD, .unassigned⟩,
  ⟨0x1D7CE, 0x1D9FF, .disallowed⟩,
  ⟨0x1DA00, 0x1DA36, .pvalid⟩,
  ⟨0x1DA37, 0x1DA3A, .disallowed⟩,
  ⟨0x1DA3B, 0x1DA6C, .pvalid⟩,
  ⟨0x1DA6D, 0x1DA74, .disallowed⟩,
  ⟨0x1DA75, 0x1DA75, .pvalid⟩,
  ⟨0x1DA76, 0x1DA83, .disallowed⟩,
  ⟨0x1DA84, 0x1DA84, .pvalid⟩,
  ⟨0x1DA85, 0x1DA8B, .disallowed⟩,
  ⟨0x1DA8C, 0x1DA9A, .unassigned⟩,
  ⟨0x1DA9B, 0x1DA9F, .pvalid⟩,
  ⟨0x1DAA0, 0x1DAA0, .unassigned⟩,
  ⟨0x1DAA1, 0x1DAAF, .pvalid⟩,
  ⟨0x1DAB0, 0x1DFFF, .unassigned⟩,
  ⟨0x1E000, 0x1E006, .pvalid⟩,
  ⟨0x1E007, 0x1E007, .unassigned⟩,
  ⟨0x1E008, 0x1E018, .pvalid⟩,
  ⟨0x1E019, 0x1E01A, .unassigned⟩,
  ⟨0x1E01B, 0x1E021, .pvalid⟩,
  ⟨0x1E022, 0x1E022, .unassigned⟩,
  ⟨0x1E023, 0x1E024, .pvalid⟩,
  ⟨0x1E025, 0x1E025, .unassigned⟩,
  ⟨0x1E026, 0x1E02A, .pvalid⟩,
  ⟨0x1E02B, 0x1E7FF, .unassigned⟩,
  ⟨0x1E800, 0x1E8C4, .pvalid⟩,
  ⟨0x1E8C5, 0x1E8C6, .unassigned⟩,
  ⟨0x1E8C7, 0x1E8CF, .disallowed⟩,
  ⟨0x1E8D0, 0x1E8D6, .pvalid⟩,
  ⟨0x1E8D7, 0x1E8FF, .unassigned⟩,
  ⟨0x1E900, 0x1E921, .disallowed⟩,
  ⟨0x1E922, 0x1E94A, .pvalid⟩,
  ⟨0x1E94B, 0x1E94F, .unassigned⟩,
  ⟨0x1E950, 0x1E959, .pvalid⟩,
  ⟨0x1E95A, 0x1E95D, .unassigned⟩,
  ⟨0x1E95E, 0x1E95F, .disallowed⟩,
  ⟨0x1E960, 0x1EC70, .unassigned⟩,
  ⟨0x1EC71, 0x1ECB4, .disallowed⟩,
  ⟨0x1ECB5, 0x1EDFF, .unassigned⟩,
  ⟨0x1EE00, 0x1EE03, .disallowed⟩,
  ⟨0x1EE04, 0x1EE04, .unassigned⟩,
  ⟨0x1EE05, 0x1EE1F, .disallowed⟩,
  ⟨0x1EE20, 0x1EE20, .unassigned⟩,
  ⟨0x1EE21, 0x1EE22, .disallowed⟩,
  ⟨0x1EE23, 0x1EE23, .unassigned⟩,
  ⟨0x1EE24, 0x1EE24, .disallowed⟩,
  ⟨0x1EE25, 0x1EE26, .unassigned⟩,
  ⟨0x1EE27, 0x1EE27, .disallowed⟩,
  ⟨0x1EE28, 0x1EE28, .unassigned⟩,
  ⟨0x1EE29, 0x1EE32, .disallowed⟩,
  ⟨0x1EE33, 0x1EE33, .unassigned⟩,
  ⟨0x1EE34, 0x1EE37, .disallowed⟩,
  ⟨0x1EE38, 0x1EE38, .unassigned⟩,
  ⟨0x1EE39, 0x1EE39, .disallowed⟩,
  ⟨0x1EE3A, 0x1EE3A, .unassigned⟩,
  ⟨0x1EE3B, 0x1EE3B, .disallowed⟩,
  ⟨0x1EE3C, 0x1EE41, .unassigned⟩,
  ⟨0x1EE42, 0x1EE42, .disallowed⟩,
  ⟨0x1EE43, 0x1EE46, .unassigned⟩,
  ⟨0x1EE47, 0x1EE47, .disallowed⟩,
  ⟨0x1EE48, 0x1EE48, .unassigned⟩,
  ⟨0x1EE49, 0x1EE49, .disallowed⟩,
  ⟨0x1EE4A, 0x1EE4A, .unassigned⟩,
  ⟨0x1EE4B, 0x1EE4B, .disallowed⟩,
  ⟨0x1EE4C, 0x1EE4C, .unassigned⟩,
  ⟨0x1EE4D, 0x1EE4F, .disallowed⟩,
  ⟨0x1EE50, 0x1EE50, .unassigned⟩,
  ⟨0x1EE51, 0x1EE52, .disallowed⟩,
  ⟨0x1EE53, 0x1EE53, .unassigned⟩,
  ⟨0x1EE54, 0x1EE54, .disallowed⟩,
  ⟨0x1EE55, 0x1EE56, .unassigned⟩,
  ⟨0x1EE57, 0x1EE57, .disallowed⟩,
  ⟨0x1EE58, 0x1EE58, .unassigned⟩,
  ⟨0x1EE59, 0x1EE59, .disallowed⟩,
  ⟨0x1EE5A, 0x1EE5A, .unassigned⟩,
  ⟨0x1EE5B, 0x1EE5B, .disallowed⟩,
  ⟨0x1EE5C, 0x1EE5C, .unassigned⟩,
  ⟨0x1EE5D, 0x1EE5D, .disallowed⟩,
  ⟨0x1EE5E, 0x1EE5E, .unassigned⟩,
  ⟨0x1EE5F, 0x1EE5F, .disallowed⟩,
  ⟨0x1EE60, 0x1EE60, .unassigned⟩,
  ⟨0x1EE61, 0x1EE62, .disallowed⟩,
  ⟨0x1EE63, 0x1EE63, .unassigned⟩,
  ⟨0x1EE64, 0x1EE64, .disallowed⟩,
  ⟨0x1EE65, 0x1EE66, .unassigned⟩,
  ⟨0x1EE67, 0x1EE6A, .disallowed⟩,
  ⟨0x1EE6B, 0x1EE6B, .unassigned⟩,
  ⟨0x1EE6C, 0x1EE72, .disallowed⟩,
  ⟨0x1EE73, 0x1EE73, .unassigned⟩,
  ⟨0x1EE74, 0x1EE77, .disallowed⟩,
  ⟨0x1EE78, 0x1EE78, .unassigned⟩,
  ⟨0x1EE79, 0x1EE7C, .disallowed⟩,
  ⟨0x1EE7D, 0x1EE7D, .unassigned⟩,
  ⟨0x1EE7E, 0x1EE7E, .disallowed⟩,
  ⟨0x1EE7F, 0x1EE7F, .unassigned⟩,
  ⟨0x1EE80, 0x1EE89, .disallowed⟩,
  ⟨0x1EE8A, 0x1EE8A, .unassigned⟩,
  ⟨0x1EE8B, 0x1EE9B, .disallowed⟩,
  ⟨0x1EE9C, 0x1EEA0, .unassigned⟩,
  ⟨0x1EEA1, 0x1EEA3, .disallowed⟩,
  ⟨0x1EEA4, 0x1EEA4, .unassigned⟩,
  ⟨0x1EEA5, 0x1EEA9, .disallowed⟩,
  ⟨0x1EEAA, 0x1EEAA, .unassigned⟩,
  ⟨0x1EEAB, 0x1EEBB, .disallowed⟩,
  ⟨0x1EEBC, 0x1EEEF, .unassigned⟩,
  ⟨0x1EEF0, 0x1EEF1, .disallowed⟩,
  ⟨0x1EEF2, 0x1EFFF, .unassigned⟩,
  ⟨0x1F000, 0x1F02B, .disallowed⟩,
  ⟨0x1F02C, 0x1F02F, .unassigned⟩,
  ⟨0x1F030, 0x1F093, .disallowed⟩,
  ⟨0x1F094, 0x1F09F, .unassigned⟩,
  ⟨0x1F0A0, 0x1F0AE, .disallowed⟩,
  ⟨0x1F0AF, 0x1F0B0, .unassigned⟩,
  ⟨0x1F0B1, 0x1F0BF, .disallowed⟩,
  ⟨0x1F0C0, 0x1F0C0, .unassigned⟩,
  ⟨0x1F0C1, 0x1F0CF, .disallowed⟩,
  ⟨0x1F0D0, 0x1F0D0, .unassigned⟩,
  ⟨0x1F0D1, 0x1F0F5, .disallowed⟩,
  ⟨0x1F0F6, 0x1F0FF, .unassigned⟩,
  ⟨0x1F100, 0x1F10C, .disallowed⟩,
  ⟨0x1F10D, 0x1F10F, .unassigned⟩,
  ⟨0x1F110, 0x1F16B, .disallowed⟩,
  ⟨0x1F16C, 0x1F16F, .unassigned⟩,
  ⟨0x1F170, 0x1F1AC, .disallowed⟩,
  ⟨0x1F1AD, 0x1F1E5, .unassigned⟩,
  ⟨0x1F1E6, 0x1F202, .disallowed⟩,
  ⟨0x1F203, 0x1F20F, .unassigned⟩,
  ⟨0x1F210, 0x1F23B, .disallowed⟩,
  ⟨0x1F23C, 0x1F23F, .unassigned⟩,
  ⟨0x1F240, 0x1F248, .disallowed⟩,
  ⟨0x1F249, 0x1F24F, .unassigned⟩,
  ⟨0x1F250, 0x1F251, .disallowed⟩]

def csv11 : List CsvRow := [
  ⟨0x1F252, 0x1F25F, .unassigned⟩,
  ⟨0x1F260, 0x1F265, .disallowed⟩,
  ⟨0x1F266, 0x1F2FF, .unassigned⟩,
  ⟨0x1F300, 0x1F6D4, .disallowed⟩,
  ⟨0x1F6D5, 0x1F6DF, .unassigned⟩,
  ⟨0x1F6E0, 0x1F6EC, .disallowed⟩,
  ⟨0x1F6ED, 0x1F6EF, .unassigned⟩,
  ⟨0x1F6F0, 0x1F6F9, .disallowed⟩,
  ⟨0x1F6FA, 0x1F6FF, .unassigned⟩,
  ⟨0x1F700, 0x1F773, .disallowed⟩,
  ⟨0x1F774, 0x1F77F, .unassigned⟩,
  ⟨0x1F780, 0x1F7D8, .disallowed⟩,
  ⟨0x1F7D9, 0x1F7FF, .unassigned⟩,
  ⟨0x1F800, 0x1F80B, .disallowed⟩,
  ⟨0x1F80C, 0x1F80F, .unassigned⟩,
  ⟨0x1F810, 0x1F847, .disallowed⟩,
  ⟨0x1F848, 0x1F84F, .unassigned⟩,
  ⟨0x1F850, 0x1F859, .disallowed⟩,
  ⟨0x1F85A, 0x1F85F, .unassigned⟩,
  ⟨0x1F860, 0x1F887, .disallowed⟩,
  ⟨0x1F888, 0x1F88F, .unassigned⟩,
  ⟨0x1F890, 0x1F8AD, .disallowed⟩,
  ⟨0x1F8AE, 0x1F8FF, .unassigned⟩,
  ⟨0x1F900, 0x1F90B, .disallowed⟩,
  ⟨0x1F90C, 0x1F90F, .unassigned⟩,
  ⟨0x1F910, 0x1F93E, .disallowed⟩,
  ⟨0x1F93F, 0x1F93F, .unassigned⟩,
  ⟨0x1F940, 0x1F970, .disallowed⟩,
  ⟨0x1F971, 0x1F972, .unassigned⟩,
  ⟨0x1F973, 0x1F976, .disallowed⟩,
  ⟨0x1F977, 0x1F979, .unassigned⟩,
  ⟨0x1F97A, 0x1F97A, .disallowed⟩,
  ⟨0x1F97B, 0x1F97B, .unassigned⟩,
  ⟨0x1F97C, 0x1F9A2, .disallowed⟩,
  ⟨0x1F9A3, 0x1F9AF, .unassigned⟩,
  ⟨0x1F9B0, 0x1F9B9, .disallowed⟩,
  ⟨0x1F9BA, 0x1F9BF, .unassigned⟩,
  ⟨0x1F9C0, 0x1F9C2, .disallowed⟩,
  ⟨0x1F9C3, 0x1F9CF, .unassigned⟩,
  ⟨0x1F9D0, 0x1F9FF, .disallowed⟩,
  ⟨0x1FA00, 0x1FA5F, .unassigned⟩,
  ⟨0x1FA60, 0x1FA6D, .disallowed⟩,
  ⟨0x1FA6E, 0x1FFFD, .unassigned⟩,
  ⟨0x1FFFE, 0x1FFFF, .disallowed⟩,
  ⟨0x20000, 0x2A6D6, .pvalid⟩,
  ⟨0x2A6D7, 0x2A6FF, .unassigned⟩,
  ⟨0x2A700, 0x2B734, .pvalid⟩,
  ⟨0x2B735, 0x2B73F, .unassigned⟩,
  ⟨0x2B740, 0x2B81D, .pvalid⟩,
  ⟨0x2B81E, 0x2B81F, .unassigned⟩,
  ⟨0x2B820, 0x2CEA1, .pvalid⟩,
  ⟨0x2CEA2, 0x2CEAF, .unassigned⟩,
  ⟨0x2CEB0, 0x2EBE0, .pvalid⟩,
  ⟨0x2EBE1, 0x2F7FF, .unassigned⟩,
  ⟨0x2F800, 0x2FA1D, .disallowed⟩,
  ⟨0x2FA1E, 0x2FFFD, .unassigned⟩,
  ⟨0x2FFFE, 0x2FFFF, .disallowed⟩,
  ⟨0x30000, 0x3FFFD, .unassigned⟩,
  ⟨0x3FFFE, 0x3FFFF, .disallowed⟩,
  ⟨0x40000, 0x4FFFD, .unassigned⟩,
  ⟨0x4FFFE, 0x4FFFF, .disallowed⟩,
  ⟨0x50000, 0x5FFFD, .unassigned⟩,
  ⟨0x5FFFE, 0x5FFFF, .disallowed⟩,
  ⟨0x60000, 0x6FFFD, .unassigned⟩,
  ⟨0x6FFFE, 0x6FFFF, .disallowed⟩,
  ⟨0x70000, 0x7FFFD, .unassigned⟩,
  ⟨0x7FFFE, 0x7FFFF, .disallowed⟩,
  ⟨0x80000, 0x8FFFD, .unassigned⟩,
  ⟨0x8FFFE, 0x8FFFF, .disallowed⟩,
  ⟨0x90000, 0x9FFFD, .unassigned⟩,
  ⟨0x9FFFE, 0x9FFFF, .disallowed⟩,
  ⟨0xA0000, 0xAFFFD, .unassigned⟩,
  ⟨0xAFFFE, 0xAFFFF, .disallowed⟩,
  ⟨0xB0000, 0xBFFFD, .unassigned⟩,
  ⟨0xBFFFE, 0xBFFFF, .disallowed⟩,
  ⟨0xC0000, 0xCFFFD, .unassigned⟩,
  ⟨0xCFFFE, 0xCFFFF, .disallowed⟩,
  ⟨0xD0000, 0xDFFFD, .unassigned⟩,
  ⟨0xDFFFE, 0xDFFFF, .disallowed⟩,
  ⟨0xE0000, 0xE0000, .unassigned⟩,
  ⟨0xE0001, 0xE0001, .disallowed⟩,
  ⟨0xE0002, 0xE001F, .unassigned⟩,
  ⟨0xE0020, 0xE007F, .disallowed⟩,
  ⟨0xE0080, 0xE00FF, .unassigned⟩,
  ⟨0xE0100, 0xE01EF, .disallowed⟩,
  ⟨0xE01F0, 0xEFFFD, .unassigned⟩,
  ⟨0xEFFFE, 0x10FFFF, .disallowed⟩]

/-- All the lines, in chunks. -/
def csvChunks : List (List CsvRow) := [
  csv0, csv1, csv2, csv3, csv4, csv5, csv6, csv7,
  csv8, csv9, csv10, csv11]

/-- All the lines. -/
def csv : List CsvRow := csvChunks.flatten

end Idn2.Shipped
