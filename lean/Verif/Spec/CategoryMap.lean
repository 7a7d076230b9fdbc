/-!
# General categories of the Unicode standard, version 13.0

The third field of UnicodeData.txt. Lines `first, last, value` in ascending order; code points in none of them have the
default value. The default is unassigned (0).
-/
namespace Verif.Spec
set_option maxRecDepth 10000

/-- The categories and their numbers. -/
def categoryLegend : List (Nat × String) :=
  [
   (0, "Cn"), (1, "Lu"), (2, "Ll"), (3, "Lt"), (4, "Lm"), (5, "Lo"), (6, "Mn"), (7, "Me"), (8, "Mc"), (9, "Nd"), (10, "Nl"),
   (11, "No"), (12, "Zs"), (13, "Zl"), (14, "Zp"), (15, "Cc"), (16, "Cf"), (17, "Co"), (18, "Cs"), (19, "Pd"), (20, "Ps"),
   (21, "Pe"), (22, "Pc"), (23, "Po"), (24, "Sm"), (25, "Sc"), (26, "Sk"), (27, "So"), (28, "Pi"), (29, "Pf")]

/-- General_Category. Part 1. -/
def categoryRuns_1 : List (Nat × Nat × Nat) :=
  [
   (0x0, 0x1F, 15), (0x20, 0x20, 12), (0x21, 0x23, 23), (0x24, 0x24, 25), (0x25, 0x27, 23), (0x28, 0x28, 20), (0x29, 0x29, 21),
   (0x2A, 0x2A, 23), (0x2B, 0x2B, 24), (0x2C, 0x2C, 23), (0x2D, 0x2D, 19), (0x2E, 0x2F, 23), (0x30, 0x39, 9), (0x3A, 0x3B, 23),
   (0x3C, 0x3E, 24), (0x3F, 0x40, 23), (0x41, 0x5A, 1), (0x5B, 0x5B, 20), (0x5C, 0x5C, 23), (0x5D, 0x5D, 21), (0x5E, 0x5E, 26),
   (0x5F, 0x5F, 22), (0x60, 0x60, 26), (0x61, 0x7A, 2), (0x7B, 0x7B, 20), (0x7C, 0x7C, 24), (0x7D, 0x7D, 21), (0x7E, 0x7E, 24),
   (0x7F, 0x9F, 15), (0xA0, 0xA0, 12), (0xA1, 0xA1, 23), (0xA2, 0xA5, 25), (0xA6, 0xA6, 27), (0xA7, 0xA7, 23), (0xA8, 0xA8, 26),
   (0xA9, 0xA9, 27), (0xAA, 0xAA, 5), (0xAB, 0xAB, 28), (0xAC, 0xAC, 24), (0xAD, 0xAD, 16), (0xAE, 0xAE, 27), (0xAF, 0xAF, 26),
   (0xB0, 0xB0, 27), (0xB1, 0xB1, 24), (0xB2, 0xB3, 11), (0xB4, 0xB4, 26), (0xB5, 0xB5, 2), (0xB6, 0xB7, 23), (0xB8, 0xB8, 26),
   (0xB9, 0xB9, 11), (0xBA, 0xBA, 5), (0xBB, 0xBB, 29), (0xBC, 0xBE, 11), (0xBF, 0xBF, 23), (0xC0, 0xD6, 1), (0xD7, 0xD7, 24),
   (0xD8, 0xDE, 1), (0xDF, 0xF6, 2), (0xF7, 0xF7, 24), (0xF8, 0xFF, 2), (0x100, 0x100, 1), (0x101, 0x101, 2), (0x102, 0x102, 1),
   (0x103, 0x103, 2), (0x104, 0x104, 1), (0x105, 0x105, 2), (0x106, 0x106, 1), (0x107, 0x107, 2), (0x108, 0x108, 1),
   (0x109, 0x109, 2), (0x10A, 0x10A, 1), (0x10B, 0x10B, 2), (0x10C, 0x10C, 1), (0x10D, 0x10D, 2), (0x10E, 0x10E, 1),
   (0x10F, 0x10F, 2), (0x110, 0x110, 1), (0x111, 0x111, 2), (0x112, 0x112, 1), (0x113, 0x113, 2), (0x114, 0x114, 1),
   (0x115, 0x115, 2), (0x116, 0x116, 1), (0x117, 0x117, 2), (0x118, 0x118, 1), (0x119, 0x119, 2), (0x11A, 0x11A, 1),
   (0x11B, 0x11B, 2), (0x11C, 0x11C, 1), (0x11D, 0x11D, 2), (0x11E, 0x11E, 1), (0x11F, 0x11F, 2), (0x120, 0x120, 1),
   (0x121, 0x121, 2), (0x122, 0x122, 1), (0x123, 0x123, 2), (0x124, 0x124, 1), (0x125, 0x125, 2), (0x126, 0x126, 1),
   (0x127, 0x127, 2), (0x128, 0x128, 1), (0x129, 0x129, 2), (0x12A, 0x12A, 1), (0x12B, 0x12B, 2), (0x12C, 0x12C, 1),
   (0x12D, 0x12D, 2), (0x12E, 0x12E, 1), (0x12F, 0x12F, 2), (0x130, 0x130, 1), (0x131, 0x131, 2), (0x132, 0x132, 1),
   (0x133, 0x133, 2), (0x134, 0x134, 1), (0x135, 0x135, 2), (0x136, 0x136, 1), (0x137, 0x138, 2), (0x139, 0x139, 1),
   (0x13A, 0x13A, 2), (0x13B, 0x13B, 1), (0x13C, 0x13C, 2), (0x13D, 0x13D, 1), (0x13E, 0x13E, 2), (0x13F, 0x13F, 1),
   (0x140, 0x140, 2), (0x141, 0x141, 1), (0x142, 0x142, 2), (0x143, 0x143, 1), (0x144, 0x144, 2), (0x145, 0x145, 1),
   (0x146, 0x146, 2), (0x147, 0x147, 1), (0x148, 0x149, 2), (0x14A, 0x14A, 1), (0x14B, 0x14B, 2), (0x14C, 0x14C, 1),
   (0x14D, 0x14D, 2), (0x14E, 0x14E, 1), (0x14F, 0x14F, 2), (0x150, 0x150, 1), (0x151, 0x151, 2), (0x152, 0x152, 1),
   (0x153, 0x153, 2), (0x154, 0x154, 1), (0x155, 0x155, 2), (0x156, 0x156, 1), (0x157, 0x157, 2), (0x158, 0x158, 1),
   (0x159, 0x159, 2), (0x15A, 0x15A, 1), (0x15B, 0x15B, 2), (0x15C, 0x15C, 1), (0x15D, 0x15D, 2), (0x15E, 0x15E, 1),
   (0x15F, 0x15F, 2), (0x160, 0x160, 1), (0x161, 0x161, 2), (0x162, 0x162, 1), (0x163, 0x163, 2), (0x164, 0x164, 1),
   (0x165, 0x165, 2), (0x166, 0x166, 1), (0x167, 0x167, 2), (0x168, 0x168, 1), (0x169, 0x169, 2), (0x16A, 0x16A, 1),
   (0x16B, 0x16B, 2), (0x16C, 0x16C, 1), (0x16D, 0x16D, 2), (0x16E, 0x16E, 1), (0x16F, 0x16F, 2), (0x170, 0x170, 1),
   (0x171, 0x171, 2), (0x172, 0x172, 1), (0x173, 0x173, 2), (0x174, 0x174, 1), (0x175, 0x175, 2), (0x176, 0x176, 1),
   (0x177, 0x177, 2), (0x178, 0x179, 1), (0x17A, 0x17A, 2), (0x17B, 0x17B, 1), (0x17C, 0x17C, 2), (0x17D, 0x17D, 1),
   (0x17E, 0x180, 2), (0x181, 0x182, 1), (0x183, 0x183, 2), (0x184, 0x184, 1), (0x185, 0x185, 2), (0x186, 0x187, 1),
   (0x188, 0x188, 2), (0x189, 0x18B, 1), (0x18C, 0x18D, 2), (0x18E, 0x191, 1), (0x192, 0x192, 2), (0x193, 0x194, 1),
   (0x195, 0x195, 2), (0x196, 0x198, 1), (0x199, 0x19B, 2), (0x19C, 0x19D, 1), (0x19E, 0x19E, 2), (0x19F, 0x1A0, 1),
   (0x1A1, 0x1A1, 2), (0x1A2, 0x1A2, 1), (0x1A3, 0x1A3, 2), (0x1A4, 0x1A4, 1), (0x1A5, 0x1A5, 2), (0x1A6, 0x1A7, 1),
   (0x1A8, 0x1A8, 2), (0x1A9, 0x1A9, 1), (0x1AA, 0x1AB, 2), (0x1AC, 0x1AC, 1), (0x1AD, 0x1AD, 2), (0x1AE, 0x1AF, 1),
   (0x1B0, 0x1B0, 2), (0x1B1, 0x1B3, 1), (0x1B4, 0x1B4, 2), (0x1B5, 0x1B5, 1), (0x1B6, 0x1B6, 2), (0x1B7, 0x1B8, 1),
   (0x1B9, 0x1BA, 2), (0x1BB, 0x1BB, 5), (0x1BC, 0x1BC, 1), (0x1BD, 0x1BF, 2), (0x1C0, 0x1C3, 5), (0x1C4, 0x1C4, 1),
   (0x1C5, 0x1C5, 3), (0x1C6, 0x1C6, 2), (0x1C7, 0x1C7, 1), (0x1C8, 0x1C8, 3), (0x1C9, 0x1C9, 2), (0x1CA, 0x1CA, 1),
   (0x1CB, 0x1CB, 3), (0x1CC, 0x1CC, 2), (0x1CD, 0x1CD, 1), (0x1CE, 0x1CE, 2), (0x1CF, 0x1CF, 1), (0x1D0, 0x1D0, 2),
   (0x1D1, 0x1D1, 1), (0x1D2, 0x1D2, 2), (0x1D3, 0x1D3, 1), (0x1D4, 0x1D4, 2), (0x1D5, 0x1D5, 1), (0x1D6, 0x1D6, 2),
   (0x1D7, 0x1D7, 1), (0x1D8, 0x1D8, 2), (0x1D9, 0x1D9, 1), (0x1DA, 0x1DA, 2), (0x1DB, 0x1DB, 1), (0x1DC, 0x1DD, 2),
   (0x1DE, 0x1DE, 1), (0x1DF, 0x1DF, 2), (0x1E0, 0x1E0, 1), (0x1E1, 0x1E1, 2), (0x1E2, 0x1E2, 1), (0x1E3, 0x1E3, 2),
   (0x1E4, 0x1E4, 1), (0x1E5, 0x1E5, 2), (0x1E6, 0x1E6, 1), (0x1E7, 0x1E7, 2), (0x1E8, 0x1E8, 1), (0x1E9, 0x1E9, 2),
   (0x1EA, 0x1EA, 1), (0x1EB, 0x1EB, 2), (0x1EC, 0x1EC, 1), (0x1ED, 0x1ED, 2), (0x1EE, 0x1EE, 1), (0x1EF, 0x1F0, 2),
   (0x1F1, 0x1F1, 1), (0x1F2, 0x1F2, 3), (0x1F3, 0x1F3, 2), (0x1F4, 0x1F4, 1), (0x1F5, 0x1F5, 2), (0x1F6, 0x1F8, 1),
   (0x1F9, 0x1F9, 2), (0x1FA, 0x1FA, 1), (0x1FB, 0x1FB, 2), (0x1FC, 0x1FC, 1), (0x1FD, 0x1FD, 2), (0x1FE, 0x1FE, 1),
   (0x1FF, 0x1FF, 2), (0x200, 0x200, 1), (0x201, 0x201, 2), (0x202, 0x202, 1), (0x203, 0x203, 2), (0x204, 0x204, 1),
   (0x205, 0x205, 2), (0x206, 0x206, 1), (0x207, 0x207, 2), (0x208, 0x208, 1), (0x209, 0x209, 2), (0x20A, 0x20A, 1),
   (0x20B, 0x20B, 2), (0x20C, 0x20C, 1), (0x20D, 0x20D, 2), (0x20E, 0x20E, 1), (0x20F, 0x20F, 2), (0x210, 0x210, 1),
   (0x211, 0x211, 2), (0x212, 0x212, 1), (0x213, 0x213, 2)]

/-- General_Category. Part 2. -/
def categoryRuns_2 : List (Nat × Nat × Nat) :=
  [
   (0x214, 0x214, 1), (0x215, 0x215, 2), (0x216, 0x216, 1), (0x217, 0x217, 2), (0x218, 0x218, 1), (0x219, 0x219, 2),
   (0x21A, 0x21A, 1), (0x21B, 0x21B, 2), (0x21C, 0x21C, 1), (0x21D, 0x21D, 2), (0x21E, 0x21E, 1), (0x21F, 0x21F, 2),
   (0x220, 0x220, 1), (0x221, 0x221, 2), (0x222, 0x222, 1), (0x223, 0x223, 2), (0x224, 0x224, 1), (0x225, 0x225, 2),
   (0x226, 0x226, 1), (0x227, 0x227, 2), (0x228, 0x228, 1), (0x229, 0x229, 2), (0x22A, 0x22A, 1), (0x22B, 0x22B, 2),
   (0x22C, 0x22C, 1), (0x22D, 0x22D, 2), (0x22E, 0x22E, 1), (0x22F, 0x22F, 2), (0x230, 0x230, 1), (0x231, 0x231, 2),
   (0x232, 0x232, 1), (0x233, 0x239, 2), (0x23A, 0x23B, 1), (0x23C, 0x23C, 2), (0x23D, 0x23E, 1), (0x23F, 0x240, 2),
   (0x241, 0x241, 1), (0x242, 0x242, 2), (0x243, 0x246, 1), (0x247, 0x247, 2), (0x248, 0x248, 1), (0x249, 0x249, 2),
   (0x24A, 0x24A, 1), (0x24B, 0x24B, 2), (0x24C, 0x24C, 1), (0x24D, 0x24D, 2), (0x24E, 0x24E, 1), (0x24F, 0x293, 2),
   (0x294, 0x294, 5), (0x295, 0x2AF, 2), (0x2B0, 0x2C1, 4), (0x2C2, 0x2C5, 26), (0x2C6, 0x2D1, 4), (0x2D2, 0x2DF, 26),
   (0x2E0, 0x2E4, 4), (0x2E5, 0x2EB, 26), (0x2EC, 0x2EC, 4), (0x2ED, 0x2ED, 26), (0x2EE, 0x2EE, 4), (0x2EF, 0x2FF, 26),
   (0x300, 0x36F, 6), (0x370, 0x370, 1), (0x371, 0x371, 2), (0x372, 0x372, 1), (0x373, 0x373, 2), (0x374, 0x374, 4),
   (0x375, 0x375, 26), (0x376, 0x376, 1), (0x377, 0x377, 2), (0x37A, 0x37A, 4), (0x37B, 0x37D, 2), (0x37E, 0x37E, 23),
   (0x37F, 0x37F, 1), (0x384, 0x385, 26), (0x386, 0x386, 1), (0x387, 0x387, 23), (0x388, 0x38A, 1), (0x38C, 0x38C, 1),
   (0x38E, 0x38F, 1), (0x390, 0x390, 2), (0x391, 0x3A1, 1), (0x3A3, 0x3AB, 1), (0x3AC, 0x3CE, 2), (0x3CF, 0x3CF, 1),
   (0x3D0, 0x3D1, 2), (0x3D2, 0x3D4, 1), (0x3D5, 0x3D7, 2), (0x3D8, 0x3D8, 1), (0x3D9, 0x3D9, 2), (0x3DA, 0x3DA, 1),
   (0x3DB, 0x3DB, 2), (0x3DC, 0x3DC, 1), (0x3DD, 0x3DD, 2), (0x3DE, 0x3DE, 1), (0x3DF, 0x3DF, 2), (0x3E0, 0x3E0, 1),
   (0x3E1, 0x3E1, 2), (0x3E2, 0x3E2, 1), (0x3E3, 0x3E3, 2), (0x3E4, 0x3E4, 1), (0x3E5, 0x3E5, 2), (0x3E6, 0x3E6, 1),
   (0x3E7, 0x3E7, 2), (0x3E8, 0x3E8, 1), (0x3E9, 0x3E9, 2), (0x3EA, 0x3EA, 1), (0x3EB, 0x3EB, 2), (0x3EC, 0x3EC, 1),
   (0x3ED, 0x3ED, 2), (0x3EE, 0x3EE, 1), (0x3EF, 0x3F3, 2), (0x3F4, 0x3F4, 1), (0x3F5, 0x3F5, 2), (0x3F6, 0x3F6, 24),
   (0x3F7, 0x3F7, 1), (0x3F8, 0x3F8, 2), (0x3F9, 0x3FA, 1), (0x3FB, 0x3FC, 2), (0x3FD, 0x42F, 1), (0x430, 0x45F, 2),
   (0x460, 0x460, 1), (0x461, 0x461, 2), (0x462, 0x462, 1), (0x463, 0x463, 2), (0x464, 0x464, 1), (0x465, 0x465, 2),
   (0x466, 0x466, 1), (0x467, 0x467, 2), (0x468, 0x468, 1), (0x469, 0x469, 2), (0x46A, 0x46A, 1), (0x46B, 0x46B, 2),
   (0x46C, 0x46C, 1), (0x46D, 0x46D, 2), (0x46E, 0x46E, 1), (0x46F, 0x46F, 2), (0x470, 0x470, 1), (0x471, 0x471, 2),
   (0x472, 0x472, 1), (0x473, 0x473, 2), (0x474, 0x474, 1), (0x475, 0x475, 2), (0x476, 0x476, 1), (0x477, 0x477, 2),
   (0x478, 0x478, 1), (0x479, 0x479, 2), (0x47A, 0x47A, 1), (0x47B, 0x47B, 2), (0x47C, 0x47C, 1), (0x47D, 0x47D, 2),
   (0x47E, 0x47E, 1), (0x47F, 0x47F, 2), (0x480, 0x480, 1), (0x481, 0x481, 2), (0x482, 0x482, 27), (0x483, 0x487, 6),
   (0x488, 0x489, 7), (0x48A, 0x48A, 1), (0x48B, 0x48B, 2), (0x48C, 0x48C, 1), (0x48D, 0x48D, 2), (0x48E, 0x48E, 1),
   (0x48F, 0x48F, 2), (0x490, 0x490, 1), (0x491, 0x491, 2), (0x492, 0x492, 1), (0x493, 0x493, 2), (0x494, 0x494, 1),
   (0x495, 0x495, 2), (0x496, 0x496, 1), (0x497, 0x497, 2), (0x498, 0x498, 1), (0x499, 0x499, 2), (0x49A, 0x49A, 1),
   (0x49B, 0x49B, 2), (0x49C, 0x49C, 1), (0x49D, 0x49D, 2), (0x49E, 0x49E, 1), (0x49F, 0x49F, 2), (0x4A0, 0x4A0, 1),
   (0x4A1, 0x4A1, 2), (0x4A2, 0x4A2, 1), (0x4A3, 0x4A3, 2), (0x4A4, 0x4A4, 1), (0x4A5, 0x4A5, 2), (0x4A6, 0x4A6, 1),
   (0x4A7, 0x4A7, 2), (0x4A8, 0x4A8, 1), (0x4A9, 0x4A9, 2), (0x4AA, 0x4AA, 1), (0x4AB, 0x4AB, 2), (0x4AC, 0x4AC, 1),
   (0x4AD, 0x4AD, 2), (0x4AE, 0x4AE, 1), (0x4AF, 0x4AF, 2), (0x4B0, 0x4B0, 1), (0x4B1, 0x4B1, 2), (0x4B2, 0x4B2, 1),
   (0x4B3, 0x4B3, 2), (0x4B4, 0x4B4, 1), (0x4B5, 0x4B5, 2), (0x4B6, 0x4B6, 1), (0x4B7, 0x4B7, 2), (0x4B8, 0x4B8, 1),
   (0x4B9, 0x4B9, 2), (0x4BA, 0x4BA, 1), (0x4BB, 0x4BB, 2), (0x4BC, 0x4BC, 1), (0x4BD, 0x4BD, 2), (0x4BE, 0x4BE, 1),
   (0x4BF, 0x4BF, 2), (0x4C0, 0x4C1, 1), (0x4C2, 0x4C2, 2), (0x4C3, 0x4C3, 1), (0x4C4, 0x4C4, 2), (0x4C5, 0x4C5, 1),
   (0x4C6, 0x4C6, 2), (0x4C7, 0x4C7, 1), (0x4C8, 0x4C8, 2), (0x4C9, 0x4C9, 1), (0x4CA, 0x4CA, 2), (0x4CB, 0x4CB, 1),
   (0x4CC, 0x4CC, 2), (0x4CD, 0x4CD, 1), (0x4CE, 0x4CF, 2), (0x4D0, 0x4D0, 1), (0x4D1, 0x4D1, 2), (0x4D2, 0x4D2, 1),
   (0x4D3, 0x4D3, 2), (0x4D4, 0x4D4, 1), (0x4D5, 0x4D5, 2), (0x4D6, 0x4D6, 1), (0x4D7, 0x4D7, 2), (0x4D8, 0x4D8, 1),
   (0x4D9, 0x4D9, 2), (0x4DA, 0x4DA, 1), (0x4DB, 0x4DB, 2), (0x4DC, 0x4DC, 1), (0x4DD, 0x4DD, 2), (0x4DE, 0x4DE, 1),
   (0x4DF, 0x4DF, 2), (0x4E0, 0x4E0, 1), (0x4E1, 0x4E1, 2), (0x4E2, 0x4E2, 1), (0x4E3, 0x4E3, 2), (0x4E4, 0x4E4, 1),
   (0x4E5, 0x4E5, 2), (0x4E6, 0x4E6, 1), (0x4E7, 0x4E7, 2), (0x4E8, 0x4E8, 1), (0x4E9, 0x4E9, 2), (0x4EA, 0x4EA, 1),
   (0x4EB, 0x4EB, 2), (0x4EC, 0x4EC, 1), (0x4ED, 0x4ED, 2), (0x4EE, 0x4EE, 1), (0x4EF, 0x4EF, 2), (0x4F0, 0x4F0, 1),
   (0x4F1, 0x4F1, 2), (0x4F2, 0x4F2, 1), (0x4F3, 0x4F3, 2), (0x4F4, 0x4F4, 1), (0x4F5, 0x4F5, 2), (0x4F6, 0x4F6, 1),
   (0x4F7, 0x4F7, 2), (0x4F8, 0x4F8, 1), (0x4F9, 0x4F9, 2), (0x4FA, 0x4FA, 1), (0x4FB, 0x4FB, 2), (0x4FC, 0x4FC, 1),
   (0x4FD, 0x4FD, 2), (0x4FE, 0x4FE, 1), (0x4FF, 0x4FF, 2), (0x500, 0x500, 1), (0x501, 0x501, 2), (0x502, 0x502, 1),
   (0x503, 0x503, 2), (0x504, 0x504, 1), (0x505, 0x505, 2), (0x506, 0x506, 1), (0x507, 0x507, 2), (0x508, 0x508, 1),
   (0x509, 0x509, 2), (0x50A, 0x50A, 1), (0x50B, 0x50B, 2), (0x50C, 0x50C, 1), (0x50D, 0x50D, 2), (0x50E, 0x50E, 1),
   (0x50F, 0x50F, 2), (0x510, 0x510, 1), (0x511, 0x511, 2), (0x512, 0x512, 1), (0x513, 0x513, 2), (0x514, 0x514, 1),
   (0x515, 0x515, 2), (0x516, 0x516, 1), (0x517, 0x517, 2), (0x518, 0x518, 1), (0x519, 0x519, 2), (0x51A, 0x51A, 1)]

/-- General_Category. Part 3. -/
def categoryRuns_3 : List (Nat × Nat × Nat) :=
  [
   (0x51B, 0x51B, 2), (0x51C, 0x51C, 1), (0x51D, 0x51D, 2), (0x51E, 0x51E, 1), (0x51F, 0x51F, 2), (0x520, 0x520, 1),
   (0x521, 0x521, 2), (0x522, 0x522, 1), (0x523, 0x523, 2), (0x524, 0x524, 1), (0x525, 0x525, 2), (0x526, 0x526, 1),
   (0x527, 0x527, 2), (0x528, 0x528, 1), (0x529, 0x529, 2), (0x52A, 0x52A, 1), (0x52B, 0x52B, 2), (0x52C, 0x52C, 1),
   (0x52D, 0x52D, 2), (0x52E, 0x52E, 1), (0x52F, 0x52F, 2), (0x531, 0x556, 1), (0x559, 0x559, 4), (0x55A, 0x55F, 23),
   (0x560, 0x588, 2), (0x589, 0x589, 23), (0x58A, 0x58A, 19), (0x58D, 0x58E, 27), (0x58F, 0x58F, 25), (0x591, 0x5BD, 6),
   (0x5BE, 0x5BE, 19), (0x5BF, 0x5BF, 6), (0x5C0, 0x5C0, 23), (0x5C1, 0x5C2, 6), (0x5C3, 0x5C3, 23), (0x5C4, 0x5C5, 6),
   (0x5C6, 0x5C6, 23), (0x5C7, 0x5C7, 6), (0x5D0, 0x5EA, 5), (0x5EF, 0x5F2, 5), (0x5F3, 0x5F4, 23), (0x600, 0x605, 16),
   (0x606, 0x608, 24), (0x609, 0x60A, 23), (0x60B, 0x60B, 25), (0x60C, 0x60D, 23), (0x60E, 0x60F, 27), (0x610, 0x61A, 6),
   (0x61B, 0x61B, 23), (0x61C, 0x61C, 16), (0x61E, 0x61F, 23), (0x620, 0x63F, 5), (0x640, 0x640, 4), (0x641, 0x64A, 5),
   (0x64B, 0x65F, 6), (0x660, 0x669, 9), (0x66A, 0x66D, 23), (0x66E, 0x66F, 5), (0x670, 0x670, 6), (0x671, 0x6D3, 5),
   (0x6D4, 0x6D4, 23), (0x6D5, 0x6D5, 5), (0x6D6, 0x6DC, 6), (0x6DD, 0x6DD, 16), (0x6DE, 0x6DE, 27), (0x6DF, 0x6E4, 6),
   (0x6E5, 0x6E6, 4), (0x6E7, 0x6E8, 6), (0x6E9, 0x6E9, 27), (0x6EA, 0x6ED, 6), (0x6EE, 0x6EF, 5), (0x6F0, 0x6F9, 9),
   (0x6FA, 0x6FC, 5), (0x6FD, 0x6FE, 27), (0x6FF, 0x6FF, 5), (0x700, 0x70D, 23), (0x70F, 0x70F, 16), (0x710, 0x710, 5),
   (0x711, 0x711, 6), (0x712, 0x72F, 5), (0x730, 0x74A, 6), (0x74D, 0x7A5, 5), (0x7A6, 0x7B0, 6), (0x7B1, 0x7B1, 5),
   (0x7C0, 0x7C9, 9), (0x7CA, 0x7EA, 5), (0x7EB, 0x7F3, 6), (0x7F4, 0x7F5, 4), (0x7F6, 0x7F6, 27), (0x7F7, 0x7F9, 23),
   (0x7FA, 0x7FA, 4), (0x7FD, 0x7FD, 6), (0x7FE, 0x7FF, 25), (0x800, 0x815, 5), (0x816, 0x819, 6), (0x81A, 0x81A, 4),
   (0x81B, 0x823, 6), (0x824, 0x824, 4), (0x825, 0x827, 6), (0x828, 0x828, 4), (0x829, 0x82D, 6), (0x830, 0x83E, 23),
   (0x840, 0x858, 5), (0x859, 0x85B, 6), (0x85E, 0x85E, 23), (0x860, 0x86A, 5), (0x8A0, 0x8B4, 5), (0x8B6, 0x8C7, 5),
   (0x8D3, 0x8E1, 6), (0x8E2, 0x8E2, 16), (0x8E3, 0x902, 6), (0x903, 0x903, 8), (0x904, 0x939, 5), (0x93A, 0x93A, 6),
   (0x93B, 0x93B, 8), (0x93C, 0x93C, 6), (0x93D, 0x93D, 5), (0x93E, 0x940, 8), (0x941, 0x948, 6), (0x949, 0x94C, 8),
   (0x94D, 0x94D, 6), (0x94E, 0x94F, 8), (0x950, 0x950, 5), (0x951, 0x957, 6), (0x958, 0x961, 5), (0x962, 0x963, 6),
   (0x964, 0x965, 23), (0x966, 0x96F, 9), (0x970, 0x970, 23), (0x971, 0x971, 4), (0x972, 0x980, 5), (0x981, 0x981, 6),
   (0x982, 0x983, 8), (0x985, 0x98C, 5), (0x98F, 0x990, 5), (0x993, 0x9A8, 5), (0x9AA, 0x9B0, 5), (0x9B2, 0x9B2, 5),
   (0x9B6, 0x9B9, 5), (0x9BC, 0x9BC, 6), (0x9BD, 0x9BD, 5), (0x9BE, 0x9C0, 8), (0x9C1, 0x9C4, 6), (0x9C7, 0x9C8, 8),
   (0x9CB, 0x9CC, 8), (0x9CD, 0x9CD, 6), (0x9CE, 0x9CE, 5), (0x9D7, 0x9D7, 8), (0x9DC, 0x9DD, 5), (0x9DF, 0x9E1, 5),
   (0x9E2, 0x9E3, 6), (0x9E6, 0x9EF, 9), (0x9F0, 0x9F1, 5), (0x9F2, 0x9F3, 25), (0x9F4, 0x9F9, 11), (0x9FA, 0x9FA, 27),
   (0x9FB, 0x9FB, 25), (0x9FC, 0x9FC, 5), (0x9FD, 0x9FD, 23), (0x9FE, 0x9FE, 6), (0xA01, 0xA02, 6), (0xA03, 0xA03, 8),
   (0xA05, 0xA0A, 5), (0xA0F, 0xA10, 5), (0xA13, 0xA28, 5), (0xA2A, 0xA30, 5), (0xA32, 0xA33, 5), (0xA35, 0xA36, 5),
   (0xA38, 0xA39, 5), (0xA3C, 0xA3C, 6), (0xA3E, 0xA40, 8), (0xA41, 0xA42, 6), (0xA47, 0xA48, 6), (0xA4B, 0xA4D, 6),
   (0xA51, 0xA51, 6), (0xA59, 0xA5C, 5), (0xA5E, 0xA5E, 5), (0xA66, 0xA6F, 9), (0xA70, 0xA71, 6), (0xA72, 0xA74, 5),
   (0xA75, 0xA75, 6), (0xA76, 0xA76, 23), (0xA81, 0xA82, 6), (0xA83, 0xA83, 8), (0xA85, 0xA8D, 5), (0xA8F, 0xA91, 5),
   (0xA93, 0xAA8, 5), (0xAAA, 0xAB0, 5), (0xAB2, 0xAB3, 5), (0xAB5, 0xAB9, 5), (0xABC, 0xABC, 6), (0xABD, 0xABD, 5),
   (0xABE, 0xAC0, 8), (0xAC1, 0xAC5, 6), (0xAC7, 0xAC8, 6), (0xAC9, 0xAC9, 8), (0xACB, 0xACC, 8), (0xACD, 0xACD, 6),
   (0xAD0, 0xAD0, 5), (0xAE0, 0xAE1, 5), (0xAE2, 0xAE3, 6), (0xAE6, 0xAEF, 9), (0xAF0, 0xAF0, 23), (0xAF1, 0xAF1, 25),
   (0xAF9, 0xAF9, 5), (0xAFA, 0xAFF, 6), (0xB01, 0xB01, 6), (0xB02, 0xB03, 8), (0xB05, 0xB0C, 5), (0xB0F, 0xB10, 5),
   (0xB13, 0xB28, 5), (0xB2A, 0xB30, 5), (0xB32, 0xB33, 5), (0xB35, 0xB39, 5), (0xB3C, 0xB3C, 6), (0xB3D, 0xB3D, 5),
   (0xB3E, 0xB3E, 8), (0xB3F, 0xB3F, 6), (0xB40, 0xB40, 8), (0xB41, 0xB44, 6), (0xB47, 0xB48, 8), (0xB4B, 0xB4C, 8),
   (0xB4D, 0xB4D, 6), (0xB55, 0xB56, 6), (0xB57, 0xB57, 8), (0xB5C, 0xB5D, 5), (0xB5F, 0xB61, 5), (0xB62, 0xB63, 6),
   (0xB66, 0xB6F, 9), (0xB70, 0xB70, 27), (0xB71, 0xB71, 5), (0xB72, 0xB77, 11), (0xB82, 0xB82, 6), (0xB83, 0xB83, 5),
   (0xB85, 0xB8A, 5), (0xB8E, 0xB90, 5), (0xB92, 0xB95, 5), (0xB99, 0xB9A, 5), (0xB9C, 0xB9C, 5), (0xB9E, 0xB9F, 5),
   (0xBA3, 0xBA4, 5), (0xBA8, 0xBAA, 5), (0xBAE, 0xBB9, 5), (0xBBE, 0xBBF, 8), (0xBC0, 0xBC0, 6), (0xBC1, 0xBC2, 8),
   (0xBC6, 0xBC8, 8), (0xBCA, 0xBCC, 8), (0xBCD, 0xBCD, 6), (0xBD0, 0xBD0, 5), (0xBD7, 0xBD7, 8), (0xBE6, 0xBEF, 9),
   (0xBF0, 0xBF2, 11), (0xBF3, 0xBF8, 27), (0xBF9, 0xBF9, 25), (0xBFA, 0xBFA, 27), (0xC00, 0xC00, 6), (0xC01, 0xC03, 8),
   (0xC04, 0xC04, 6), (0xC05, 0xC0C, 5), (0xC0E, 0xC10, 5), (0xC12, 0xC28, 5), (0xC2A, 0xC39, 5), (0xC3D, 0xC3D, 5),
   (0xC3E, 0xC40, 6), (0xC41, 0xC44, 8), (0xC46, 0xC48, 6), (0xC4A, 0xC4D, 6), (0xC55, 0xC56, 6), (0xC58, 0xC5A, 5),
   (0xC60, 0xC61, 5), (0xC62, 0xC63, 6), (0xC66, 0xC6F, 9), (0xC77, 0xC77, 23), (0xC78, 0xC7E, 11), (0xC7F, 0xC7F, 27),
   (0xC80, 0xC80, 5), (0xC81, 0xC81, 6), (0xC82, 0xC83, 8), (0xC84, 0xC84, 23), (0xC85, 0xC8C, 5), (0xC8E, 0xC90, 5),
   (0xC92, 0xCA8, 5), (0xCAA, 0xCB3, 5), (0xCB5, 0xCB9, 5), (0xCBC, 0xCBC, 6), (0xCBD, 0xCBD, 5), (0xCBE, 0xCBE, 8),
   (0xCBF, 0xCBF, 6), (0xCC0, 0xCC4, 8), (0xCC6, 0xCC6, 6), (0xCC7, 0xCC8, 8), (0xCCA, 0xCCB, 8), (0xCCC, 0xCCD, 6),
   (0xCD5, 0xCD6, 8), (0xCDE, 0xCDE, 5), (0xCE0, 0xCE1, 5), (0xCE2, 0xCE3, 6), (0xCE6, 0xCEF, 9), (0xCF1, 0xCF2, 5)]

/-- General_Category. Part 4. -/
def categoryRuns_4 : List (Nat × Nat × Nat) :=
  [
   (0xD00, 0xD01, 6), (0xD02, 0xD03, 8), (0xD04, 0xD0C, 5), (0xD0E, 0xD10, 5), (0xD12, 0xD3A, 5), (0xD3B, 0xD3C, 6),
   (0xD3D, 0xD3D, 5), (0xD3E, 0xD40, 8), (0xD41, 0xD44, 6), (0xD46, 0xD48, 8), (0xD4A, 0xD4C, 8), (0xD4D, 0xD4D, 6),
   (0xD4E, 0xD4E, 5), (0xD4F, 0xD4F, 27), (0xD54, 0xD56, 5), (0xD57, 0xD57, 8), (0xD58, 0xD5E, 11), (0xD5F, 0xD61, 5),
   (0xD62, 0xD63, 6), (0xD66, 0xD6F, 9), (0xD70, 0xD78, 11), (0xD79, 0xD79, 27), (0xD7A, 0xD7F, 5), (0xD81, 0xD81, 6),
   (0xD82, 0xD83, 8), (0xD85, 0xD96, 5), (0xD9A, 0xDB1, 5), (0xDB3, 0xDBB, 5), (0xDBD, 0xDBD, 5), (0xDC0, 0xDC6, 5),
   (0xDCA, 0xDCA, 6), (0xDCF, 0xDD1, 8), (0xDD2, 0xDD4, 6), (0xDD6, 0xDD6, 6), (0xDD8, 0xDDF, 8), (0xDE6, 0xDEF, 9),
   (0xDF2, 0xDF3, 8), (0xDF4, 0xDF4, 23), (0xE01, 0xE30, 5), (0xE31, 0xE31, 6), (0xE32, 0xE33, 5), (0xE34, 0xE3A, 6),
   (0xE3F, 0xE3F, 25), (0xE40, 0xE45, 5), (0xE46, 0xE46, 4), (0xE47, 0xE4E, 6), (0xE4F, 0xE4F, 23), (0xE50, 0xE59, 9),
   (0xE5A, 0xE5B, 23), (0xE81, 0xE82, 5), (0xE84, 0xE84, 5), (0xE86, 0xE8A, 5), (0xE8C, 0xEA3, 5), (0xEA5, 0xEA5, 5),
   (0xEA7, 0xEB0, 5), (0xEB1, 0xEB1, 6), (0xEB2, 0xEB3, 5), (0xEB4, 0xEBC, 6), (0xEBD, 0xEBD, 5), (0xEC0, 0xEC4, 5),
   (0xEC6, 0xEC6, 4), (0xEC8, 0xECD, 6), (0xED0, 0xED9, 9), (0xEDC, 0xEDF, 5), (0xF00, 0xF00, 5), (0xF01, 0xF03, 27),
   (0xF04, 0xF12, 23), (0xF13, 0xF13, 27), (0xF14, 0xF14, 23), (0xF15, 0xF17, 27), (0xF18, 0xF19, 6), (0xF1A, 0xF1F, 27),
   (0xF20, 0xF29, 9), (0xF2A, 0xF33, 11), (0xF34, 0xF34, 27), (0xF35, 0xF35, 6), (0xF36, 0xF36, 27), (0xF37, 0xF37, 6),
   (0xF38, 0xF38, 27), (0xF39, 0xF39, 6), (0xF3A, 0xF3A, 20), (0xF3B, 0xF3B, 21), (0xF3C, 0xF3C, 20), (0xF3D, 0xF3D, 21),
   (0xF3E, 0xF3F, 8), (0xF40, 0xF47, 5), (0xF49, 0xF6C, 5), (0xF71, 0xF7E, 6), (0xF7F, 0xF7F, 8), (0xF80, 0xF84, 6),
   (0xF85, 0xF85, 23), (0xF86, 0xF87, 6), (0xF88, 0xF8C, 5), (0xF8D, 0xF97, 6), (0xF99, 0xFBC, 6), (0xFBE, 0xFC5, 27),
   (0xFC6, 0xFC6, 6), (0xFC7, 0xFCC, 27), (0xFCE, 0xFCF, 27), (0xFD0, 0xFD4, 23), (0xFD5, 0xFD8, 27), (0xFD9, 0xFDA, 23),
   (0x1000, 0x102A, 5), (0x102B, 0x102C, 8), (0x102D, 0x1030, 6), (0x1031, 0x1031, 8), (0x1032, 0x1037, 6), (0x1038, 0x1038, 8),
   (0x1039, 0x103A, 6), (0x103B, 0x103C, 8), (0x103D, 0x103E, 6), (0x103F, 0x103F, 5), (0x1040, 0x1049, 9), (0x104A, 0x104F, 23),
   (0x1050, 0x1055, 5), (0x1056, 0x1057, 8), (0x1058, 0x1059, 6), (0x105A, 0x105D, 5), (0x105E, 0x1060, 6), (0x1061, 0x1061, 5),
   (0x1062, 0x1064, 8), (0x1065, 0x1066, 5), (0x1067, 0x106D, 8), (0x106E, 0x1070, 5), (0x1071, 0x1074, 6), (0x1075, 0x1081, 5),
   (0x1082, 0x1082, 6), (0x1083, 0x1084, 8), (0x1085, 0x1086, 6), (0x1087, 0x108C, 8), (0x108D, 0x108D, 6), (0x108E, 0x108E, 5),
   (0x108F, 0x108F, 8), (0x1090, 0x1099, 9), (0x109A, 0x109C, 8), (0x109D, 0x109D, 6), (0x109E, 0x109F, 27), (0x10A0, 0x10C5, 1),
   (0x10C7, 0x10C7, 1), (0x10CD, 0x10CD, 1), (0x10D0, 0x10FA, 2), (0x10FB, 0x10FB, 23), (0x10FC, 0x10FC, 4), (0x10FD, 0x10FF, 2),
   (0x1100, 0x1248, 5), (0x124A, 0x124D, 5), (0x1250, 0x1256, 5), (0x1258, 0x1258, 5), (0x125A, 0x125D, 5), (0x1260, 0x1288, 5),
   (0x128A, 0x128D, 5), (0x1290, 0x12B0, 5), (0x12B2, 0x12B5, 5), (0x12B8, 0x12BE, 5), (0x12C0, 0x12C0, 5), (0x12C2, 0x12C5, 5),
   (0x12C8, 0x12D6, 5), (0x12D8, 0x1310, 5), (0x1312, 0x1315, 5), (0x1318, 0x135A, 5), (0x135D, 0x135F, 6), (0x1360, 0x1368, 23),
   (0x1369, 0x137C, 11), (0x1380, 0x138F, 5), (0x1390, 0x1399, 27), (0x13A0, 0x13F5, 1), (0x13F8, 0x13FD, 2), (0x1400, 0x1400, 19),
   (0x1401, 0x166C, 5), (0x166D, 0x166D, 27), (0x166E, 0x166E, 23), (0x166F, 0x167F, 5), (0x1680, 0x1680, 12), (0x1681, 0x169A, 5),
   (0x169B, 0x169B, 20), (0x169C, 0x169C, 21), (0x16A0, 0x16EA, 5), (0x16EB, 0x16ED, 23), (0x16EE, 0x16F0, 10), (0x16F1, 0x16F8, 5),
   (0x1700, 0x170C, 5), (0x170E, 0x1711, 5), (0x1712, 0x1714, 6), (0x1720, 0x1731, 5), (0x1732, 0x1734, 6), (0x1735, 0x1736, 23),
   (0x1740, 0x1751, 5), (0x1752, 0x1753, 6), (0x1760, 0x176C, 5), (0x176E, 0x1770, 5), (0x1772, 0x1773, 6), (0x1780, 0x17B3, 5),
   (0x17B4, 0x17B5, 6), (0x17B6, 0x17B6, 8), (0x17B7, 0x17BD, 6), (0x17BE, 0x17C5, 8), (0x17C6, 0x17C6, 6), (0x17C7, 0x17C8, 8),
   (0x17C9, 0x17D3, 6), (0x17D4, 0x17D6, 23), (0x17D7, 0x17D7, 4), (0x17D8, 0x17DA, 23), (0x17DB, 0x17DB, 25), (0x17DC, 0x17DC, 5),
   (0x17DD, 0x17DD, 6), (0x17E0, 0x17E9, 9), (0x17F0, 0x17F9, 11), (0x1800, 0x1805, 23), (0x1806, 0x1806, 19), (0x1807, 0x180A, 23),
   (0x180B, 0x180D, 6), (0x180E, 0x180E, 16), (0x1810, 0x1819, 9), (0x1820, 0x1842, 5), (0x1843, 0x1843, 4), (0x1844, 0x1878, 5),
   (0x1880, 0x1884, 5), (0x1885, 0x1886, 6), (0x1887, 0x18A8, 5), (0x18A9, 0x18A9, 6), (0x18AA, 0x18AA, 5), (0x18B0, 0x18F5, 5),
   (0x1900, 0x191E, 5), (0x1920, 0x1922, 6), (0x1923, 0x1926, 8), (0x1927, 0x1928, 6), (0x1929, 0x192B, 8), (0x1930, 0x1931, 8),
   (0x1932, 0x1932, 6), (0x1933, 0x1938, 8), (0x1939, 0x193B, 6), (0x1940, 0x1940, 27), (0x1944, 0x1945, 23), (0x1946, 0x194F, 9),
   (0x1950, 0x196D, 5), (0x1970, 0x1974, 5), (0x1980, 0x19AB, 5), (0x19B0, 0x19C9, 5), (0x19D0, 0x19D9, 9), (0x19DA, 0x19DA, 11),
   (0x19DE, 0x19FF, 27), (0x1A00, 0x1A16, 5), (0x1A17, 0x1A18, 6), (0x1A19, 0x1A1A, 8), (0x1A1B, 0x1A1B, 6), (0x1A1E, 0x1A1F, 23),
   (0x1A20, 0x1A54, 5), (0x1A55, 0x1A55, 8), (0x1A56, 0x1A56, 6), (0x1A57, 0x1A57, 8), (0x1A58, 0x1A5E, 6), (0x1A60, 0x1A60, 6),
   (0x1A61, 0x1A61, 8), (0x1A62, 0x1A62, 6), (0x1A63, 0x1A64, 8), (0x1A65, 0x1A6C, 6), (0x1A6D, 0x1A72, 8), (0x1A73, 0x1A7C, 6),
   (0x1A7F, 0x1A7F, 6), (0x1A80, 0x1A89, 9), (0x1A90, 0x1A99, 9), (0x1AA0, 0x1AA6, 23), (0x1AA7, 0x1AA7, 4), (0x1AA8, 0x1AAD, 23),
   (0x1AB0, 0x1ABD, 6), (0x1ABE, 0x1ABE, 7), (0x1ABF, 0x1AC0, 6), (0x1B00, 0x1B03, 6), (0x1B04, 0x1B04, 8), (0x1B05, 0x1B33, 5),
   (0x1B34, 0x1B34, 6), (0x1B35, 0x1B35, 8), (0x1B36, 0x1B3A, 6), (0x1B3B, 0x1B3B, 8), (0x1B3C, 0x1B3C, 6), (0x1B3D, 0x1B41, 8),
   (0x1B42, 0x1B42, 6), (0x1B43, 0x1B44, 8), (0x1B45, 0x1B4B, 5), (0x1B50, 0x1B59, 9), (0x1B5A, 0x1B60, 23), (0x1B61, 0x1B6A, 27),
   (0x1B6B, 0x1B73, 6), (0x1B74, 0x1B7C, 27), (0x1B80, 0x1B81, 6), (0x1B82, 0x1B82, 8), (0x1B83, 0x1BA0, 5), (0x1BA1, 0x1BA1, 8),
   (0x1BA2, 0x1BA5, 6), (0x1BA6, 0x1BA7, 8), (0x1BA8, 0x1BA9, 6), (0x1BAA, 0x1BAA, 8), (0x1BAB, 0x1BAD, 6), (0x1BAE, 0x1BAF, 5),
   (0x1BB0, 0x1BB9, 9), (0x1BBA, 0x1BE5, 5), (0x1BE6, 0x1BE6, 6), (0x1BE7, 0x1BE7, 8), (0x1BE8, 0x1BE9, 6), (0x1BEA, 0x1BEC, 8)]

/-- General_Category. Part 5. -/
def categoryRuns_5 : List (Nat × Nat × Nat) :=
  [
   (0x1BED, 0x1BED, 6), (0x1BEE, 0x1BEE, 8), (0x1BEF, 0x1BF1, 6), (0x1BF2, 0x1BF3, 8), (0x1BFC, 0x1BFF, 23), (0x1C00, 0x1C23, 5),
   (0x1C24, 0x1C2B, 8), (0x1C2C, 0x1C33, 6), (0x1C34, 0x1C35, 8), (0x1C36, 0x1C37, 6), (0x1C3B, 0x1C3F, 23), (0x1C40, 0x1C49, 9),
   (0x1C4D, 0x1C4F, 5), (0x1C50, 0x1C59, 9), (0x1C5A, 0x1C77, 5), (0x1C78, 0x1C7D, 4), (0x1C7E, 0x1C7F, 23), (0x1C80, 0x1C88, 2),
   (0x1C90, 0x1CBA, 1), (0x1CBD, 0x1CBF, 1), (0x1CC0, 0x1CC7, 23), (0x1CD0, 0x1CD2, 6), (0x1CD3, 0x1CD3, 23), (0x1CD4, 0x1CE0, 6),
   (0x1CE1, 0x1CE1, 8), (0x1CE2, 0x1CE8, 6), (0x1CE9, 0x1CEC, 5), (0x1CED, 0x1CED, 6), (0x1CEE, 0x1CF3, 5), (0x1CF4, 0x1CF4, 6),
   (0x1CF5, 0x1CF6, 5), (0x1CF7, 0x1CF7, 8), (0x1CF8, 0x1CF9, 6), (0x1CFA, 0x1CFA, 5), (0x1D00, 0x1D2B, 2), (0x1D2C, 0x1D6A, 4),
   (0x1D6B, 0x1D77, 2), (0x1D78, 0x1D78, 4), (0x1D79, 0x1D9A, 2), (0x1D9B, 0x1DBF, 4), (0x1DC0, 0x1DF9, 6), (0x1DFB, 0x1DFF, 6),
   (0x1E00, 0x1E00, 1), (0x1E01, 0x1E01, 2), (0x1E02, 0x1E02, 1), (0x1E03, 0x1E03, 2), (0x1E04, 0x1E04, 1), (0x1E05, 0x1E05, 2),
   (0x1E06, 0x1E06, 1), (0x1E07, 0x1E07, 2), (0x1E08, 0x1E08, 1), (0x1E09, 0x1E09, 2), (0x1E0A, 0x1E0A, 1), (0x1E0B, 0x1E0B, 2),
   (0x1E0C, 0x1E0C, 1), (0x1E0D, 0x1E0D, 2), (0x1E0E, 0x1E0E, 1), (0x1E0F, 0x1E0F, 2), (0x1E10, 0x1E10, 1), (0x1E11, 0x1E11, 2),
   (0x1E12, 0x1E12, 1), (0x1E13, 0x1E13, 2), (0x1E14, 0x1E14, 1), (0x1E15, 0x1E15, 2), (0x1E16, 0x1E16, 1), (0x1E17, 0x1E17, 2),
   (0x1E18, 0x1E18, 1), (0x1E19, 0x1E19, 2), (0x1E1A, 0x1E1A, 1), (0x1E1B, 0x1E1B, 2), (0x1E1C, 0x1E1C, 1), (0x1E1D, 0x1E1D, 2),
   (0x1E1E, 0x1E1E, 1), (0x1E1F, 0x1E1F, 2), (0x1E20, 0x1E20, 1), (0x1E21, 0x1E21, 2), (0x1E22, 0x1E22, 1), (0x1E23, 0x1E23, 2),
   (0x1E24, 0x1E24, 1), (0x1E25, 0x1E25, 2), (0x1E26, 0x1E26, 1), (0x1E27, 0x1E27, 2), (0x1E28, 0x1E28, 1), (0x1E29, 0x1E29, 2),
   (0x1E2A, 0x1E2A, 1), (0x1E2B, 0x1E2B, 2), (0x1E2C, 0x1E2C, 1), (0x1E2D, 0x1E2D, 2), (0x1E2E, 0x1E2E, 1), (0x1E2F, 0x1E2F, 2),
   (0x1E30, 0x1E30, 1), (0x1E31, 0x1E31, 2), (0x1E32, 0x1E32, 1), (0x1E33, 0x1E33, 2), (0x1E34, 0x1E34, 1), (0x1E35, 0x1E35, 2),
   (0x1E36, 0x1E36, 1), (0x1E37, 0x1E37, 2), (0x1E38, 0x1E38, 1), (0x1E39, 0x1E39, 2), (0x1E3A, 0x1E3A, 1), (0x1E3B, 0x1E3B, 2),
   (0x1E3C, 0x1E3C, 1), (0x1E3D, 0x1E3D, 2), (0x1E3E, 0x1E3E, 1), (0x1E3F, 0x1E3F, 2), (0x1E40, 0x1E40, 1), (0x1E41, 0x1E41, 2),
   (0x1E42, 0x1E42, 1), (0x1E43, 0x1E43, 2), (0x1E44, 0x1E44, 1), (0x1E45, 0x1E45, 2), (0x1E46, 0x1E46, 1), (0x1E47, 0x1E47, 2),
   (0x1E48, 0x1E48, 1), (0x1E49, 0x1E49, 2), (0x1E4A, 0x1E4A, 1), (0x1E4B, 0x1E4B, 2), (0x1E4C, 0x1E4C, 1), (0x1E4D, 0x1E4D, 2),
   (0x1E4E, 0x1E4E, 1), (0x1E4F, 0x1E4F, 2), (0x1E50, 0x1E50, 1), (0x1E51, 0x1E51, 2), (0x1E52, 0x1E52, 1), (0x1E53, 0x1E53, 2),
   (0x1E54, 0x1E54, 1), (0x1E55, 0x1E55, 2), (0x1E56, 0x1E56, 1), (0x1E57, 0x1E57, 2), (0x1E58, 0x1E58, 1), (0x1E59, 0x1E59, 2),
   (0x1E5A, 0x1E5A, 1), (0x1E5B, 0x1E5B, 2), (0x1E5C, 0x1E5C, 1), (0x1E5D, 0x1E5D, 2), (0x1E5E, 0x1E5E, 1), (0x1E5F, 0x1E5F, 2),
   (0x1E60, 0x1E60, 1), (0x1E61, 0x1E61, 2), (0x1E62, 0x1E62, 1), (0x1E63, 0x1E63, 2), (0x1E64, 0x1E64, 1), (0x1E65, 0x1E65, 2),
   (0x1E66, 0x1E66, 1), (0x1E67, 0x1E67, 2), (0x1E68, 0x1E68, 1), (0x1E69, 0x1E69, 2), (0x1E6A, 0x1E6A, 1), (0x1E6B, 0x1E6B, 2),
   (0x1E6C, 0x1E6C, 1), (0x1E6D, 0x1E6D, 2), (0x1E6E, 0x1E6E, 1), (0x1E6F, 0x1E6F, 2), (0x1E70, 0x1E70, 1), (0x1E71, 0x1E71, 2),
   (0x1E72, 0x1E72, 1), (0x1E73, 0x1E73, 2), (0x1E74, 0x1E74, 1), (0x1E75, 0x1E75, 2), (0x1E76, 0x1E76, 1), (0x1E77, 0x1E77, 2),
   (0x1E78, 0x1E78, 1), (0x1E79, 0x1E79, 2), (0x1E7A, 0x1E7A, 1), (0x1E7B, 0x1E7B, 2), (0x1E7C, 0x1E7C, 1), (0x1E7D, 0x1E7D, 2),
   (0x1E7E, 0x1E7E, 1), (0x1E7F, 0x1E7F, 2), (0x1E80, 0x1E80, 1), (0x1E81, 0x1E81, 2), (0x1E82, 0x1E82, 1), (0x1E83, 0x1E83, 2),
   (0x1E84, 0x1E84, 1), (0x1E85, 0x1E85, 2), (0x1E86, 0x1E86, 1), (0x1E87, 0x1E87, 2), (0x1E88, 0x1E88, 1), (0x1E89, 0x1E89, 2),
   (0x1E8A, 0x1E8A, 1), (0x1E8B, 0x1E8B, 2), (0x1E8C, 0x1E8C, 1), (0x1E8D, 0x1E8D, 2), (0x1E8E, 0x1E8E, 1), (0x1E8F, 0x1E8F, 2),
   (0x1E90, 0x1E90, 1), (0x1E91, 0x1E91, 2), (0x1E92, 0x1E92, 1), (0x1E93, 0x1E93, 2), (0x1E94, 0x1E94, 1), (0x1E95, 0x1E9D, 2),
   (0x1E9E, 0x1E9E, 1), (0x1E9F, 0x1E9F, 2), (0x1EA0, 0x1EA0, 1), (0x1EA1, 0x1EA1, 2), (0x1EA2, 0x1EA2, 1), (0x1EA3, 0x1EA3, 2),
   (0x1EA4, 0x1EA4, 1), (0x1EA5, 0x1EA5, 2), (0x1EA6, 0x1EA6, 1), (0x1EA7, 0x1EA7, 2), (0x1EA8, 0x1EA8, 1), (0x1EA9, 0x1EA9, 2),
   (0x1EAA, 0x1EAA, 1), (0x1EAB, 0x1EAB, 2), (0x1EAC, 0x1EAC, 1), (0x1EAD, 0x1EAD, 2), (0x1EAE, 0x1EAE, 1), (0x1EAF, 0x1EAF, 2),
   (0x1EB0, 0x1EB0, 1), (0x1EB1, 0x1EB1, 2), (0x1EB2, 0x1EB2, 1), (0x1EB3, 0x1EB3, 2), (0x1EB4, 0x1EB4, 1), (0x1EB5, 0x1EB5, 2),
   (0x1EB6, 0x1EB6, 1), (0x1EB7, 0x1EB7, 2), (0x1EB8, 0x1EB8, 1), (0x1EB9, 0x1EB9, 2), (0x1EBA, 0x1EBA, 1), (0x1EBB, 0x1EBB, 2),
   (0x1EBC, 0x1EBC, 1), (0x1EBD, 0x1EBD, 2), (0x1EBE, 0x1EBE, 1), (0x1EBF, 0x1EBF, 2), (0x1EC0, 0x1EC0, 1), (0x1EC1, 0x1EC1, 2),
   (0x1EC2, 0x1EC2, 1), (0x1EC3, 0x1EC3, 2), (0x1EC4, 0x1EC4, 1), (0x1EC5, 0x1EC5, 2), (0x1EC6, 0x1EC6, 1), (0x1EC7, 0x1EC7, 2),
   (0x1EC8, 0x1EC8, 1), (0x1EC9, 0x1EC9, 2), (0x1ECA, 0x1ECA, 1), (0x1ECB, 0x1ECB, 2), (0x1ECC, 0x1ECC, 1), (0x1ECD, 0x1ECD, 2),
   (0x1ECE, 0x1ECE, 1), (0x1ECF, 0x1ECF, 2), (0x1ED0, 0x1ED0, 1), (0x1ED1, 0x1ED1, 2), (0x1ED2, 0x1ED2, 1), (0x1ED3, 0x1ED3, 2),
   (0x1ED4, 0x1ED4, 1), (0x1ED5, 0x1ED5, 2), (0x1ED6, 0x1ED6, 1), (0x1ED7, 0x1ED7, 2), (0x1ED8, 0x1ED8, 1), (0x1ED9, 0x1ED9, 2),
   (0x1EDA, 0x1EDA, 1), (0x1EDB, 0x1EDB, 2), (0x1EDC, 0x1EDC, 1), (0x1EDD, 0x1EDD, 2), (0x1EDE, 0x1EDE, 1), (0x1EDF, 0x1EDF, 2),
   (0x1EE0, 0x1EE0, 1), (0x1EE1, 0x1EE1, 2), (0x1EE2, 0x1EE2, 1), (0x1EE3, 0x1EE3, 2), (0x1EE4, 0x1EE4, 1), (0x1EE5, 0x1EE5, 2),
   (0x1EE6, 0x1EE6, 1), (0x1EE7, 0x1EE7, 2), (0x1EE8, 0x1EE8, 1), (0x1EE9, 0x1EE9, 2), (0x1EEA, 0x1EEA, 1), (0x1EEB, 0x1EEB, 2),
   (0x1EEC, 0x1EEC, 1), (0x1EED, 0x1EED, 2), (0x1EEE, 0x1EEE, 1), (0x1EEF, 0x1EEF, 2), (0x1EF0, 0x1EF0, 1), (0x1EF1, 0x1EF1, 2),
   (0x1EF2, 0x1EF2, 1), (0x1EF3, 0x1EF3, 2), (0x1EF4, 0x1EF4, 1), (0x1EF5, 0x1EF5, 2), (0x1EF6, 0x1EF6, 1), (0x1EF7, 0x1EF7, 2),
   (0x1EF8, 0x1EF8, 1), (0x1EF9, 0x1EF9, 2), (0x1EFA, 0x1EFA, 1), (0x1EFB, 0x1EFB, 2), (0x1EFC, 0x1EFC, 1), (0x1EFD, 0x1EFD, 2),
   (0x1EFE, 0x1EFE, 1), (0x1EFF, 0x1F07, 2), (0x1F08, 0x1F0F, 1), (0x1F10, 0x1F15, 2), (0x1F18, 0x1F1D, 1), (0x1F20, 0x1F27, 2),
   (0x1F28, 0x1F2F, 1), (0x1F30, 0x1F37, 2), (0x1F38, 0x1F3F, 1), (0x1F40, 0x1F45, 2), (0x1F48, 0x1F4D, 1), (0x1F50, 0x1F57, 2)]

/-- General_Category. Part 6. -/
def categoryRuns_6 : List (Nat × Nat × Nat) :=
  [
   (0x1F59, 0x1F59, 1), (0x1F5B, 0x1F5B, 1), (0x1F5D, 0x1F5D, 1), (0x1F5F, 0x1F5F, 1), (0x1F60, 0x1F67, 2), (0x1F68, 0x1F6F, 1),
   (0x1F70, 0x1F7D, 2), (0x1F80, 0x1F87, 2), (0x1F88, 0x1F8F, 3), (0x1F90, 0x1F97, 2), (0x1F98, 0x1F9F, 3), (0x1FA0, 0x1FA7, 2),
   (0x1FA8, 0x1FAF, 3), (0x1FB0, 0x1FB4, 2), (0x1FB6, 0x1FB7, 2), (0x1FB8, 0x1FBB, 1), (0x1FBC, 0x1FBC, 3), (0x1FBD, 0x1FBD, 26),
   (0x1FBE, 0x1FBE, 2), (0x1FBF, 0x1FC1, 26), (0x1FC2, 0x1FC4, 2), (0x1FC6, 0x1FC7, 2), (0x1FC8, 0x1FCB, 1), (0x1FCC, 0x1FCC, 3),
   (0x1FCD, 0x1FCF, 26), (0x1FD0, 0x1FD3, 2), (0x1FD6, 0x1FD7, 2), (0x1FD8, 0x1FDB, 1), (0x1FDD, 0x1FDF, 26), (0x1FE0, 0x1FE7, 2),
   (0x1FE8, 0x1FEC, 1), (0x1FED, 0x1FEF, 26), (0x1FF2, 0x1FF4, 2), (0x1FF6, 0x1FF7, 2), (0x1FF8, 0x1FFB, 1), (0x1FFC, 0x1FFC, 3),
   (0x1FFD, 0x1FFE, 26), (0x2000, 0x200A, 12), (0x200B, 0x200F, 16), (0x2010, 0x2015, 19), (0x2016, 0x2017, 23),
   (0x2018, 0x2018, 28), (0x2019, 0x2019, 29), (0x201A, 0x201A, 20), (0x201B, 0x201C, 28), (0x201D, 0x201D, 29),
   (0x201E, 0x201E, 20), (0x201F, 0x201F, 28), (0x2020, 0x2027, 23), (0x2028, 0x2028, 13), (0x2029, 0x2029, 14),
   (0x202A, 0x202E, 16), (0x202F, 0x202F, 12), (0x2030, 0x2038, 23), (0x2039, 0x2039, 28), (0x203A, 0x203A, 29),
   (0x203B, 0x203E, 23), (0x203F, 0x2040, 22), (0x2041, 0x2043, 23), (0x2044, 0x2044, 24), (0x2045, 0x2045, 20),
   (0x2046, 0x2046, 21), (0x2047, 0x2051, 23), (0x2052, 0x2052, 24), (0x2053, 0x2053, 23), (0x2054, 0x2054, 22),
   (0x2055, 0x205E, 23), (0x205F, 0x205F, 12), (0x2060, 0x2064, 16), (0x2066, 0x206F, 16), (0x2070, 0x2070, 11),
   (0x2071, 0x2071, 4), (0x2074, 0x2079, 11), (0x207A, 0x207C, 24), (0x207D, 0x207D, 20), (0x207E, 0x207E, 21), (0x207F, 0x207F, 4),
   (0x2080, 0x2089, 11), (0x208A, 0x208C, 24), (0x208D, 0x208D, 20), (0x208E, 0x208E, 21), (0x2090, 0x209C, 4),
   (0x20A0, 0x20BF, 25), (0x20D0, 0x20DC, 6), (0x20DD, 0x20E0, 7), (0x20E1, 0x20E1, 6), (0x20E2, 0x20E4, 7), (0x20E5, 0x20F0, 6),
   (0x2100, 0x2101, 27), (0x2102, 0x2102, 1), (0x2103, 0x2106, 27), (0x2107, 0x2107, 1), (0x2108, 0x2109, 27), (0x210A, 0x210A, 2),
   (0x210B, 0x210D, 1), (0x210E, 0x210F, 2), (0x2110, 0x2112, 1), (0x2113, 0x2113, 2), (0x2114, 0x2114, 27), (0x2115, 0x2115, 1),
   (0x2116, 0x2117, 27), (0x2118, 0x2118, 24), (0x2119, 0x211D, 1), (0x211E, 0x2123, 27), (0x2124, 0x2124, 1), (0x2125, 0x2125, 27),
   (0x2126, 0x2126, 1), (0x2127, 0x2127, 27), (0x2128, 0x2128, 1), (0x2129, 0x2129, 27), (0x212A, 0x212D, 1), (0x212E, 0x212E, 27),
   (0x212F, 0x212F, 2), (0x2130, 0x2133, 1), (0x2134, 0x2134, 2), (0x2135, 0x2138, 5), (0x2139, 0x2139, 2), (0x213A, 0x213B, 27),
   (0x213C, 0x213D, 2), (0x213E, 0x213F, 1), (0x2140, 0x2144, 24), (0x2145, 0x2145, 1), (0x2146, 0x2149, 2), (0x214A, 0x214A, 27),
   (0x214B, 0x214B, 24), (0x214C, 0x214D, 27), (0x214E, 0x214E, 2), (0x214F, 0x214F, 27), (0x2150, 0x215F, 11),
   (0x2160, 0x2182, 10), (0x2183, 0x2183, 1), (0x2184, 0x2184, 2), (0x2185, 0x2188, 10), (0x2189, 0x2189, 11), (0x218A, 0x218B, 27),
   (0x2190, 0x2194, 24), (0x2195, 0x2199, 27), (0x219A, 0x219B, 24), (0x219C, 0x219F, 27), (0x21A0, 0x21A0, 24),
   (0x21A1, 0x21A2, 27), (0x21A3, 0x21A3, 24), (0x21A4, 0x21A5, 27), (0x21A6, 0x21A6, 24), (0x21A7, 0x21AD, 27),
   (0x21AE, 0x21AE, 24), (0x21AF, 0x21CD, 27), (0x21CE, 0x21CF, 24), (0x21D0, 0x21D1, 27), (0x21D2, 0x21D2, 24),
   (0x21D3, 0x21D3, 27), (0x21D4, 0x21D4, 24), (0x21D5, 0x21F3, 27), (0x21F4, 0x22FF, 24), (0x2300, 0x2307, 27),
   (0x2308, 0x2308, 20), (0x2309, 0x2309, 21), (0x230A, 0x230A, 20), (0x230B, 0x230B, 21), (0x230C, 0x231F, 27),
   (0x2320, 0x2321, 24), (0x2322, 0x2328, 27), (0x2329, 0x2329, 20), (0x232A, 0x232A, 21), (0x232B, 0x237B, 27),
   (0x237C, 0x237C, 24), (0x237D, 0x239A, 27), (0x239B, 0x23B3, 24), (0x23B4, 0x23DB, 27), (0x23DC, 0x23E1, 24),
   (0x23E2, 0x2426, 27), (0x2440, 0x244A, 27), (0x2460, 0x249B, 11), (0x249C, 0x24E9, 27), (0x24EA, 0x24FF, 11),
   (0x2500, 0x25B6, 27), (0x25B7, 0x25B7, 24), (0x25B8, 0x25C0, 27), (0x25C1, 0x25C1, 24), (0x25C2, 0x25F7, 27),
   (0x25F8, 0x25FF, 24), (0x2600, 0x266E, 27), (0x266F, 0x266F, 24), (0x2670, 0x2767, 27), (0x2768, 0x2768, 20),
   (0x2769, 0x2769, 21), (0x276A, 0x276A, 20), (0x276B, 0x276B, 21), (0x276C, 0x276C, 20), (0x276D, 0x276D, 21),
   (0x276E, 0x276E, 20), (0x276F, 0x276F, 21), (0x2770, 0x2770, 20), (0x2771, 0x2771, 21), (0x2772, 0x2772, 20),
   (0x2773, 0x2773, 21), (0x2774, 0x2774, 20), (0x2775, 0x2775, 21), (0x2776, 0x2793, 11), (0x2794, 0x27BF, 27),
   (0x27C0, 0x27C4, 24), (0x27C5, 0x27C5, 20), (0x27C6, 0x27C6, 21), (0x27C7, 0x27E5, 24), (0x27E6, 0x27E6, 20),
   (0x27E7, 0x27E7, 21), (0x27E8, 0x27E8, 20), (0x27E9, 0x27E9, 21), (0x27EA, 0x27EA, 20), (0x27EB, 0x27EB, 21),
   (0x27EC, 0x27EC, 20), (0x27ED, 0x27ED, 21), (0x27EE, 0x27EE, 20), (0x27EF, 0x27EF, 21), (0x27F0, 0x27FF, 24),
   (0x2800, 0x28FF, 27), (0x2900, 0x2982, 24), (0x2983, 0x2983, 20), (0x2984, 0x2984, 21), (0x2985, 0x2985, 20),
   (0x2986, 0x2986, 21), (0x2987, 0x2987, 20), (0x2988, 0x2988, 21), (0x2989, 0x2989, 20), (0x298A, 0x298A, 21),
   (0x298B, 0x298B, 20), (0x298C, 0x298C, 21), (0x298D, 0x298D, 20), (0x298E, 0x298E, 21), (0x298F, 0x298F, 20),
   (0x2990, 0x2990, 21), (0x2991, 0x2991, 20), (0x2992, 0x2992, 21), (0x2993, 0x2993, 20), (0x2994, 0x2994, 21),
   (0x2995, 0x2995, 20), (0x2996, 0x2996, 21), (0x2997, 0x2997, 20), (0x2998, 0x2998, 21), (0x2999, 0x29D7, 24),
   (0x29D8, 0x29D8, 20), (0x29D9, 0x29D9, 21), (0x29DA, 0x29DA, 20), (0x29DB, 0x29DB, 21), (0x29DC, 0x29FB, 24),
   (0x29FC, 0x29FC, 20), (0x29FD, 0x29FD, 21), (0x29FE, 0x2AFF, 24), (0x2B00, 0x2B2F, 27), (0x2B30, 0x2B44, 24),
   (0x2B45, 0x2B46, 27), (0x2B47, 0x2B4C, 24), (0x2B4D, 0x2B73, 27), (0x2B76, 0x2B95, 27), (0x2B97, 0x2BFF, 27),
   (0x2C00, 0x2C2E, 1), (0x2C30, 0x2C5E, 2), (0x2C60, 0x2C60, 1), (0x2C61, 0x2C61, 2), (0x2C62, 0x2C64, 1), (0x2C65, 0x2C66, 2),
   (0x2C67, 0x2C67, 1), (0x2C68, 0x2C68, 2), (0x2C69, 0x2C69, 1), (0x2C6A, 0x2C6A, 2), (0x2C6B, 0x2C6B, 1), (0x2C6C, 0x2C6C, 2),
   (0x2C6D, 0x2C70, 1), (0x2C71, 0x2C71, 2), (0x2C72, 0x2C72, 1), (0x2C73, 0x2C74, 2), (0x2C75, 0x2C75, 1), (0x2C76, 0x2C7B, 2),
   (0x2C7C, 0x2C7D, 4), (0x2C7E, 0x2C80, 1), (0x2C81, 0x2C81, 2), (0x2C82, 0x2C82, 1), (0x2C83, 0x2C83, 2), (0x2C84, 0x2C84, 1),
   (0x2C85, 0x2C85, 2), (0x2C86, 0x2C86, 1), (0x2C87, 0x2C87, 2), (0x2C88, 0x2C88, 1), (0x2C89, 0x2C89, 2), (0x2C8A, 0x2C8A, 1),
   (0x2C8B, 0x2C8B, 2), (0x2C8C, 0x2C8C, 1), (0x2C8D, 0x2C8D, 2), (0x2C8E, 0x2C8E, 1), (0x2C8F, 0x2C8F, 2), (0x2C90, 0x2C90, 1),
   (0x2C91, 0x2C91, 2), (0x2C92, 0x2C92, 1), (0x2C93, 0x2C93, 2), (0x2C94, 0x2C94, 1), (0x2C95, 0x2C95, 2), (0x2C96, 0x2C96, 1),
   (0x2C97, 0x2C97, 2), (0x2C98, 0x2C98, 1), (0x2C99, 0x2C99, 2)]

/-- General_Category. Part 7. -/
def categoryRuns_7 : List (Nat × Nat × Nat) :=
  [
   (0x2C9A, 0x2C9A, 1), (0x2C9B, 0x2C9B, 2), (0x2C9C, 0x2C9C, 1), (0x2C9D, 0x2C9D, 2), (0x2C9E, 0x2C9E, 1), (0x2C9F, 0x2C9F, 2),
   (0x2CA0, 0x2CA0, 1), (0x2CA1, 0x2CA1, 2), (0x2CA2, 0x2CA2, 1), (0x2CA3, 0x2CA3, 2), (0x2CA4, 0x2CA4, 1), (0x2CA5, 0x2CA5, 2),
   (0x2CA6, 0x2CA6, 1), (0x2CA7, 0x2CA7, 2), (0x2CA8, 0x2CA8, 1), (0x2CA9, 0x2CA9, 2), (0x2CAA, 0x2CAA, 1), (0x2CAB, 0x2CAB, 2),
   (0x2CAC, 0x2CAC, 1), (0x2CAD, 0x2CAD, 2), (0x2CAE, 0x2CAE, 1), (0x2CAF, 0x2CAF, 2), (0x2CB0, 0x2CB0, 1), (0x2CB1, 0x2CB1, 2),
   (0x2CB2, 0x2CB2, 1), (0x2CB3, 0x2CB3, 2), (0x2CB4, 0x2CB4, 1), (0x2CB5, 0x2CB5, 2), (0x2CB6, 0x2CB6, 1), (0x2CB7, 0x2CB7, 2),
   (0x2CB8, 0x2CB8, 1), (0x2CB9, 0x2CB9, 2), (0x2CBA, 0x2CBA, 1), (0x2CBB, 0x2CBB, 2), (0x2CBC, 0x2CBC, 1), (0x2CBD, 0x2CBD, 2),
   (0x2CBE, 0x2CBE, 1), (0x2CBF, 0x2CBF, 2), (0x2CC0, 0x2CC0, 1), (0x2CC1, 0x2CC1, 2), (0x2CC2, 0x2CC2, 1), (0x2CC3, 0x2CC3, 2),
   (0x2CC4, 0x2CC4, 1), (0x2CC5, 0x2CC5, 2), (0x2CC6, 0x2CC6, 1), (0x2CC7, 0x2CC7, 2), (0x2CC8, 0x2CC8, 1), (0x2CC9, 0x2CC9, 2),
   (0x2CCA, 0x2CCA, 1), (0x2CCB, 0x2CCB, 2), (0x2CCC, 0x2CCC, 1), (0x2CCD, 0x2CCD, 2), (0x2CCE, 0x2CCE, 1), (0x2CCF, 0x2CCF, 2),
   (0x2CD0, 0x2CD0, 1), (0x2CD1, 0x2CD1, 2), (0x2CD2, 0x2CD2, 1), (0x2CD3, 0x2CD3, 2), (0x2CD4, 0x2CD4, 1), (0x2CD5, 0x2CD5, 2),
   (0x2CD6, 0x2CD6, 1), (0x2CD7, 0x2CD7, 2), (0x2CD8, 0x2CD8, 1), (0x2CD9, 0x2CD9, 2), (0x2CDA, 0x2CDA, 1), (0x2CDB, 0x2CDB, 2),
   (0x2CDC, 0x2CDC, 1), (0x2CDD, 0x2CDD, 2), (0x2CDE, 0x2CDE, 1), (0x2CDF, 0x2CDF, 2), (0x2CE0, 0x2CE0, 1), (0x2CE1, 0x2CE1, 2),
   (0x2CE2, 0x2CE2, 1), (0x2CE3, 0x2CE4, 2), (0x2CE5, 0x2CEA, 27), (0x2CEB, 0x2CEB, 1), (0x2CEC, 0x2CEC, 2), (0x2CED, 0x2CED, 1),
   (0x2CEE, 0x2CEE, 2), (0x2CEF, 0x2CF1, 6), (0x2CF2, 0x2CF2, 1), (0x2CF3, 0x2CF3, 2), (0x2CF9, 0x2CFC, 23), (0x2CFD, 0x2CFD, 11),
   (0x2CFE, 0x2CFF, 23), (0x2D00, 0x2D25, 2), (0x2D27, 0x2D27, 2), (0x2D2D, 0x2D2D, 2), (0x2D30, 0x2D67, 5), (0x2D6F, 0x2D6F, 4),
   (0x2D70, 0x2D70, 23), (0x2D7F, 0x2D7F, 6), (0x2D80, 0x2D96, 5), (0x2DA0, 0x2DA6, 5), (0x2DA8, 0x2DAE, 5), (0x2DB0, 0x2DB6, 5),
   (0x2DB8, 0x2DBE, 5), (0x2DC0, 0x2DC6, 5), (0x2DC8, 0x2DCE, 5), (0x2DD0, 0x2DD6, 5), (0x2DD8, 0x2DDE, 5), (0x2DE0, 0x2DFF, 6),
   (0x2E00, 0x2E01, 23), (0x2E02, 0x2E02, 28), (0x2E03, 0x2E03, 29), (0x2E04, 0x2E04, 28), (0x2E05, 0x2E05, 29),
   (0x2E06, 0x2E08, 23), (0x2E09, 0x2E09, 28), (0x2E0A, 0x2E0A, 29), (0x2E0B, 0x2E0B, 23), (0x2E0C, 0x2E0C, 28),
   (0x2E0D, 0x2E0D, 29), (0x2E0E, 0x2E16, 23), (0x2E17, 0x2E17, 19), (0x2E18, 0x2E19, 23), (0x2E1A, 0x2E1A, 19),
   (0x2E1B, 0x2E1B, 23), (0x2E1C, 0x2E1C, 28), (0x2E1D, 0x2E1D, 29), (0x2E1E, 0x2E1F, 23), (0x2E20, 0x2E20, 28),
   (0x2E21, 0x2E21, 29), (0x2E22, 0x2E22, 20), (0x2E23, 0x2E23, 21), (0x2E24, 0x2E24, 20), (0x2E25, 0x2E25, 21),
   (0x2E26, 0x2E26, 20), (0x2E27, 0x2E27, 21), (0x2E28, 0x2E28, 20), (0x2E29, 0x2E29, 21), (0x2E2A, 0x2E2E, 23),
   (0x2E2F, 0x2E2F, 4), (0x2E30, 0x2E39, 23), (0x2E3A, 0x2E3B, 19), (0x2E3C, 0x2E3F, 23), (0x2E40, 0x2E40, 19),
   (0x2E41, 0x2E41, 23), (0x2E42, 0x2E42, 20), (0x2E43, 0x2E4F, 23), (0x2E50, 0x2E51, 27), (0x2E52, 0x2E52, 23),
   (0x2E80, 0x2E99, 27), (0x2E9B, 0x2EF3, 27), (0x2F00, 0x2FD5, 27), (0x2FF0, 0x2FFB, 27), (0x3000, 0x3000, 12),
   (0x3001, 0x3003, 23), (0x3004, 0x3004, 27), (0x3005, 0x3005, 4), (0x3006, 0x3006, 5), (0x3007, 0x3007, 10), (0x3008, 0x3008, 20),
   (0x3009, 0x3009, 21), (0x300A, 0x300A, 20), (0x300B, 0x300B, 21), (0x300C, 0x300C, 20), (0x300D, 0x300D, 21),
   (0x300E, 0x300E, 20), (0x300F, 0x300F, 21), (0x3010, 0x3010, 20), (0x3011, 0x3011, 21), (0x3012, 0x3013, 27),
   (0x3014, 0x3014, 20), (0x3015, 0x3015, 21), (0x3016, 0x3016, 20), (0x3017, 0x3017, 21), (0x3018, 0x3018, 20),
   (0x3019, 0x3019, 21), (0x301A, 0x301A, 20), (0x301B, 0x301B, 21), (0x301C, 0x301C, 19), (0x301D, 0x301D, 20),
   (0x301E, 0x301F, 21), (0x3020, 0x3020, 27), (0x3021, 0x3029, 10), (0x302A, 0x302D, 6), (0x302E, 0x302F, 8), (0x3030, 0x3030, 19),
   (0x3031, 0x3035, 4), (0x3036, 0x3037, 27), (0x3038, 0x303A, 10), (0x303B, 0x303B, 4), (0x303C, 0x303C, 5), (0x303D, 0x303D, 23),
   (0x303E, 0x303F, 27), (0x3041, 0x3096, 5), (0x3099, 0x309A, 6), (0x309B, 0x309C, 26), (0x309D, 0x309E, 4), (0x309F, 0x309F, 5),
   (0x30A0, 0x30A0, 19), (0x30A1, 0x30FA, 5), (0x30FB, 0x30FB, 23), (0x30FC, 0x30FE, 4), (0x30FF, 0x30FF, 5), (0x3105, 0x312F, 5),
   (0x3131, 0x318E, 5), (0x3190, 0x3191, 27), (0x3192, 0x3195, 11), (0x3196, 0x319F, 27), (0x31A0, 0x31BF, 5), (0x31C0, 0x31E3, 27),
   (0x31F0, 0x31FF, 5), (0x3200, 0x321E, 27), (0x3220, 0x3229, 11), (0x322A, 0x3247, 27), (0x3248, 0x324F, 11),
   (0x3250, 0x3250, 27), (0x3251, 0x325F, 11), (0x3260, 0x327F, 27), (0x3280, 0x3289, 11), (0x328A, 0x32B0, 27),
   (0x32B1, 0x32BF, 11), (0x32C0, 0x33FF, 27), (0x3400, 0x4DBF, 5), (0x4DC0, 0x4DFF, 27), (0x4E00, 0x9FFC, 5), (0xA000, 0xA014, 5),
   (0xA015, 0xA015, 4), (0xA016, 0xA48C, 5), (0xA490, 0xA4C6, 27), (0xA4D0, 0xA4F7, 5), (0xA4F8, 0xA4FD, 4), (0xA4FE, 0xA4FF, 23),
   (0xA500, 0xA60B, 5), (0xA60C, 0xA60C, 4), (0xA60D, 0xA60F, 23), (0xA610, 0xA61F, 5), (0xA620, 0xA629, 9), (0xA62A, 0xA62B, 5),
   (0xA640, 0xA640, 1), (0xA641, 0xA641, 2), (0xA642, 0xA642, 1), (0xA643, 0xA643, 2), (0xA644, 0xA644, 1), (0xA645, 0xA645, 2),
   (0xA646, 0xA646, 1), (0xA647, 0xA647, 2), (0xA648, 0xA648, 1), (0xA649, 0xA649, 2), (0xA64A, 0xA64A, 1), (0xA64B, 0xA64B, 2),
   (0xA64C, 0xA64C, 1), (0xA64D, 0xA64D, 2), (0xA64E, 0xA64E, 1), (0xA64F, 0xA64F, 2), (0xA650, 0xA650, 1), (0xA651, 0xA651, 2),
   (0xA652, 0xA652, 1), (0xA653, 0xA653, 2), (0xA654, 0xA654, 1), (0xA655, 0xA655, 2), (0xA656, 0xA656, 1), (0xA657, 0xA657, 2),
   (0xA658, 0xA658, 1), (0xA659, 0xA659, 2), (0xA65A, 0xA65A, 1), (0xA65B, 0xA65B, 2), (0xA65C, 0xA65C, 1), (0xA65D, 0xA65D, 2),
   (0xA65E, 0xA65E, 1), (0xA65F, 0xA65F, 2), (0xA660, 0xA660, 1), (0xA661, 0xA661, 2), (0xA662, 0xA662, 1), (0xA663, 0xA663, 2),
   (0xA664, 0xA664, 1), (0xA665, 0xA665, 2), (0xA666, 0xA666, 1), (0xA667, 0xA667, 2), (0xA668, 0xA668, 1), (0xA669, 0xA669, 2),
   (0xA66A, 0xA66A, 1), (0xA66B, 0xA66B, 2), (0xA66C, 0xA66C, 1), (0xA66D, 0xA66D, 2), (0xA66E, 0xA66E, 5), (0xA66F, 0xA66F, 6),
   (0xA670, 0xA672, 7), (0xA673, 0xA673, 23), (0xA674, 0xA67D, 6), (0xA67E, 0xA67E, 23), (0xA67F, 0xA67F, 4), (0xA680, 0xA680, 1),
   (0xA681, 0xA681, 2), (0xA682, 0xA682, 1), (0xA683, 0xA683, 2), (0xA684, 0xA684, 1), (0xA685, 0xA685, 2), (0xA686, 0xA686, 1),
   (0xA687, 0xA687, 2), (0xA688, 0xA688, 1), (0xA689, 0xA689, 2), (0xA68A, 0xA68A, 1), (0xA68B, 0xA68B, 2), (0xA68C, 0xA68C, 1),
   (0xA68D, 0xA68D, 2), (0xA68E, 0xA68E, 1), (0xA68F, 0xA68F, 2)]

/-- General_Category. Part 8. -/
def categoryRuns_8 : List (Nat × Nat × Nat) :=
  [
   (0xA690, 0xA690, 1), (0xA691, 0xA691, 2), (0xA692, 0xA692, 1), (0xA693, 0xA693, 2), (0xA694, 0xA694, 1), (0xA695, 0xA695, 2),
   (0xA696, 0xA696, 1), (0xA697, 0xA697, 2), (0xA698, 0xA698, 1), (0xA699, 0xA699, 2), (0xA69A, 0xA69A, 1), (0xA69B, 0xA69B, 2),
   (0xA69C, 0xA69D, 4), (0xA69E, 0xA69F, 6), (0xA6A0, 0xA6E5, 5), (0xA6E6, 0xA6EF, 10), (0xA6F0, 0xA6F1, 6), (0xA6F2, 0xA6F7, 23),
   (0xA700, 0xA716, 26), (0xA717, 0xA71F, 4), (0xA720, 0xA721, 26), (0xA722, 0xA722, 1), (0xA723, 0xA723, 2), (0xA724, 0xA724, 1),
   (0xA725, 0xA725, 2), (0xA726, 0xA726, 1), (0xA727, 0xA727, 2), (0xA728, 0xA728, 1), (0xA729, 0xA729, 2), (0xA72A, 0xA72A, 1),
   (0xA72B, 0xA72B, 2), (0xA72C, 0xA72C, 1), (0xA72D, 0xA72D, 2), (0xA72E, 0xA72E, 1), (0xA72F, 0xA731, 2), (0xA732, 0xA732, 1),
   (0xA733, 0xA733, 2), (0xA734, 0xA734, 1), (0xA735, 0xA735, 2), (0xA736, 0xA736, 1), (0xA737, 0xA737, 2), (0xA738, 0xA738, 1),
   (0xA739, 0xA739, 2), (0xA73A, 0xA73A, 1), (0xA73B, 0xA73B, 2), (0xA73C, 0xA73C, 1), (0xA73D, 0xA73D, 2), (0xA73E, 0xA73E, 1),
   (0xA73F, 0xA73F, 2), (0xA740, 0xA740, 1), (0xA741, 0xA741, 2), (0xA742, 0xA742, 1), (0xA743, 0xA743, 2), (0xA744, 0xA744, 1),
   (0xA745, 0xA745, 2), (0xA746, 0xA746, 1), (0xA747, 0xA747, 2), (0xA748, 0xA748, 1), (0xA749, 0xA749, 2), (0xA74A, 0xA74A, 1),
   (0xA74B, 0xA74B, 2), (0xA74C, 0xA74C, 1), (0xA74D, 0xA74D, 2), (0xA74E, 0xA74E, 1), (0xA74F, 0xA74F, 2), (0xA750, 0xA750, 1),
   (0xA751, 0xA751, 2), (0xA752, 0xA752, 1), (0xA753, 0xA753, 2), (0xA754, 0xA754, 1), (0xA755, 0xA755, 2), (0xA756, 0xA756, 1),
   (0xA757, 0xA757, 2), (0xA758, 0xA758, 1), (0xA759, 0xA759, 2), (0xA75A, 0xA75A, 1), (0xA75B, 0xA75B, 2), (0xA75C, 0xA75C, 1),
   (0xA75D, 0xA75D, 2), (0xA75E, 0xA75E, 1), (0xA75F, 0xA75F, 2), (0xA760, 0xA760, 1), (0xA761, 0xA761, 2), (0xA762, 0xA762, 1),
   (0xA763, 0xA763, 2), (0xA764, 0xA764, 1), (0xA765, 0xA765, 2), (0xA766, 0xA766, 1), (0xA767, 0xA767, 2), (0xA768, 0xA768, 1),
   (0xA769, 0xA769, 2), (0xA76A, 0xA76A, 1), (0xA76B, 0xA76B, 2), (0xA76C, 0xA76C, 1), (0xA76D, 0xA76D, 2), (0xA76E, 0xA76E, 1),
   (0xA76F, 0xA76F, 2), (0xA770, 0xA770, 4), (0xA771, 0xA778, 2), (0xA779, 0xA779, 1), (0xA77A, 0xA77A, 2), (0xA77B, 0xA77B, 1),
   (0xA77C, 0xA77C, 2), (0xA77D, 0xA77E, 1), (0xA77F, 0xA77F, 2), (0xA780, 0xA780, 1), (0xA781, 0xA781, 2), (0xA782, 0xA782, 1),
   (0xA783, 0xA783, 2), (0xA784, 0xA784, 1), (0xA785, 0xA785, 2), (0xA786, 0xA786, 1), (0xA787, 0xA787, 2), (0xA788, 0xA788, 4),
   (0xA789, 0xA78A, 26), (0xA78B, 0xA78B, 1), (0xA78C, 0xA78C, 2), (0xA78D, 0xA78D, 1), (0xA78E, 0xA78E, 2), (0xA78F, 0xA78F, 5),
   (0xA790, 0xA790, 1), (0xA791, 0xA791, 2), (0xA792, 0xA792, 1), (0xA793, 0xA795, 2), (0xA796, 0xA796, 1), (0xA797, 0xA797, 2),
   (0xA798, 0xA798, 1), (0xA799, 0xA799, 2), (0xA79A, 0xA79A, 1), (0xA79B, 0xA79B, 2), (0xA79C, 0xA79C, 1), (0xA79D, 0xA79D, 2),
   (0xA79E, 0xA79E, 1), (0xA79F, 0xA79F, 2), (0xA7A0, 0xA7A0, 1), (0xA7A1, 0xA7A1, 2), (0xA7A2, 0xA7A2, 1), (0xA7A3, 0xA7A3, 2),
   (0xA7A4, 0xA7A4, 1), (0xA7A5, 0xA7A5, 2), (0xA7A6, 0xA7A6, 1), (0xA7A7, 0xA7A7, 2), (0xA7A8, 0xA7A8, 1), (0xA7A9, 0xA7A9, 2),
   (0xA7AA, 0xA7AE, 1), (0xA7AF, 0xA7AF, 2), (0xA7B0, 0xA7B4, 1), (0xA7B5, 0xA7B5, 2), (0xA7B6, 0xA7B6, 1), (0xA7B7, 0xA7B7, 2),
   (0xA7B8, 0xA7B8, 1), (0xA7B9, 0xA7B9, 2), (0xA7BA, 0xA7BA, 1), (0xA7BB, 0xA7BB, 2), (0xA7BC, 0xA7BC, 1), (0xA7BD, 0xA7BD, 2),
   (0xA7BE, 0xA7BE, 1), (0xA7BF, 0xA7BF, 2), (0xA7C2, 0xA7C2, 1), (0xA7C3, 0xA7C3, 2), (0xA7C4, 0xA7C7, 1), (0xA7C8, 0xA7C8, 2),
   (0xA7C9, 0xA7C9, 1), (0xA7CA, 0xA7CA, 2), (0xA7F5, 0xA7F5, 1), (0xA7F6, 0xA7F6, 2), (0xA7F7, 0xA7F7, 5), (0xA7F8, 0xA7F9, 4),
   (0xA7FA, 0xA7FA, 2), (0xA7FB, 0xA801, 5), (0xA802, 0xA802, 6), (0xA803, 0xA805, 5), (0xA806, 0xA806, 6), (0xA807, 0xA80A, 5),
   (0xA80B, 0xA80B, 6), (0xA80C, 0xA822, 5), (0xA823, 0xA824, 8), (0xA825, 0xA826, 6), (0xA827, 0xA827, 8), (0xA828, 0xA82B, 27),
   (0xA82C, 0xA82C, 6), (0xA830, 0xA835, 11), (0xA836, 0xA837, 27), (0xA838, 0xA838, 25), (0xA839, 0xA839, 27), (0xA840, 0xA873, 5),
   (0xA874, 0xA877, 23), (0xA880, 0xA881, 8), (0xA882, 0xA8B3, 5), (0xA8B4, 0xA8C3, 8), (0xA8C4, 0xA8C5, 6), (0xA8CE, 0xA8CF, 23),
   (0xA8D0, 0xA8D9, 9), (0xA8E0, 0xA8F1, 6), (0xA8F2, 0xA8F7, 5), (0xA8F8, 0xA8FA, 23), (0xA8FB, 0xA8FB, 5), (0xA8FC, 0xA8FC, 23),
   (0xA8FD, 0xA8FE, 5), (0xA8FF, 0xA8FF, 6), (0xA900, 0xA909, 9), (0xA90A, 0xA925, 5), (0xA926, 0xA92D, 6), (0xA92E, 0xA92F, 23),
   (0xA930, 0xA946, 5), (0xA947, 0xA951, 6), (0xA952, 0xA953, 8), (0xA95F, 0xA95F, 23), (0xA960, 0xA97C, 5), (0xA980, 0xA982, 6),
   (0xA983, 0xA983, 8), (0xA984, 0xA9B2, 5), (0xA9B3, 0xA9B3, 6), (0xA9B4, 0xA9B5, 8), (0xA9B6, 0xA9B9, 6), (0xA9BA, 0xA9BB, 8),
   (0xA9BC, 0xA9BD, 6), (0xA9BE, 0xA9C0, 8), (0xA9C1, 0xA9CD, 23), (0xA9CF, 0xA9CF, 4), (0xA9D0, 0xA9D9, 9), (0xA9DE, 0xA9DF, 23),
   (0xA9E0, 0xA9E4, 5), (0xA9E5, 0xA9E5, 6), (0xA9E6, 0xA9E6, 4), (0xA9E7, 0xA9EF, 5), (0xA9F0, 0xA9F9, 9), (0xA9FA, 0xA9FE, 5),
   (0xAA00, 0xAA28, 5), (0xAA29, 0xAA2E, 6), (0xAA2F, 0xAA30, 8), (0xAA31, 0xAA32, 6), (0xAA33, 0xAA34, 8), (0xAA35, 0xAA36, 6),
   (0xAA40, 0xAA42, 5), (0xAA43, 0xAA43, 6), (0xAA44, 0xAA4B, 5), (0xAA4C, 0xAA4C, 6), (0xAA4D, 0xAA4D, 8), (0xAA50, 0xAA59, 9),
   (0xAA5C, 0xAA5F, 23), (0xAA60, 0xAA6F, 5), (0xAA70, 0xAA70, 4), (0xAA71, 0xAA76, 5), (0xAA77, 0xAA79, 27), (0xAA7A, 0xAA7A, 5),
   (0xAA7B, 0xAA7B, 8), (0xAA7C, 0xAA7C, 6), (0xAA7D, 0xAA7D, 8), (0xAA7E, 0xAAAF, 5), (0xAAB0, 0xAAB0, 6), (0xAAB1, 0xAAB1, 5),
   (0xAAB2, 0xAAB4, 6), (0xAAB5, 0xAAB6, 5), (0xAAB7, 0xAAB8, 6), (0xAAB9, 0xAABD, 5), (0xAABE, 0xAABF, 6), (0xAAC0, 0xAAC0, 5),
   (0xAAC1, 0xAAC1, 6), (0xAAC2, 0xAAC2, 5), (0xAADB, 0xAADC, 5), (0xAADD, 0xAADD, 4), (0xAADE, 0xAADF, 23), (0xAAE0, 0xAAEA, 5),
   (0xAAEB, 0xAAEB, 8), (0xAAEC, 0xAAED, 6), (0xAAEE, 0xAAEF, 8), (0xAAF0, 0xAAF1, 23), (0xAAF2, 0xAAF2, 5), (0xAAF3, 0xAAF4, 4),
   (0xAAF5, 0xAAF5, 8), (0xAAF6, 0xAAF6, 6), (0xAB01, 0xAB06, 5), (0xAB09, 0xAB0E, 5), (0xAB11, 0xAB16, 5), (0xAB20, 0xAB26, 5),
   (0xAB28, 0xAB2E, 5), (0xAB30, 0xAB5A, 2), (0xAB5B, 0xAB5B, 26), (0xAB5C, 0xAB5F, 4), (0xAB60, 0xAB68, 2), (0xAB69, 0xAB69, 4),
   (0xAB6A, 0xAB6B, 26), (0xAB70, 0xABBF, 2), (0xABC0, 0xABE2, 5), (0xABE3, 0xABE4, 8), (0xABE5, 0xABE5, 6), (0xABE6, 0xABE7, 8),
   (0xABE8, 0xABE8, 6), (0xABE9, 0xABEA, 8), (0xABEB, 0xABEB, 23), (0xABEC, 0xABEC, 8), (0xABED, 0xABED, 6), (0xABF0, 0xABF9, 9),
   (0xAC00, 0xD7A3, 5), (0xD7B0, 0xD7C6, 5), (0xD7CB, 0xD7FB, 5), (0xD800, 0xDFFF, 18), (0xE000, 0xF8FF, 17), (0xF900, 0xFA6D, 5)]

/-- General_Category. Part 9. -/
def categoryRuns_9 : List (Nat × Nat × Nat) :=
  [
   (0xFA70, 0xFAD9, 5), (0xFB00, 0xFB06, 2), (0xFB13, 0xFB17, 2), (0xFB1D, 0xFB1D, 5), (0xFB1E, 0xFB1E, 6), (0xFB1F, 0xFB28, 5),
   (0xFB29, 0xFB29, 24), (0xFB2A, 0xFB36, 5), (0xFB38, 0xFB3C, 5), (0xFB3E, 0xFB3E, 5), (0xFB40, 0xFB41, 5), (0xFB43, 0xFB44, 5),
   (0xFB46, 0xFBB1, 5), (0xFBB2, 0xFBC1, 26), (0xFBD3, 0xFD3D, 5), (0xFD3E, 0xFD3E, 21), (0xFD3F, 0xFD3F, 20), (0xFD50, 0xFD8F, 5),
   (0xFD92, 0xFDC7, 5), (0xFDF0, 0xFDFB, 5), (0xFDFC, 0xFDFC, 25), (0xFDFD, 0xFDFD, 27), (0xFE00, 0xFE0F, 6), (0xFE10, 0xFE16, 23),
   (0xFE17, 0xFE17, 20), (0xFE18, 0xFE18, 21), (0xFE19, 0xFE19, 23), (0xFE20, 0xFE2F, 6), (0xFE30, 0xFE30, 23),
   (0xFE31, 0xFE32, 19), (0xFE33, 0xFE34, 22), (0xFE35, 0xFE35, 20), (0xFE36, 0xFE36, 21), (0xFE37, 0xFE37, 20),
   (0xFE38, 0xFE38, 21), (0xFE39, 0xFE39, 20), (0xFE3A, 0xFE3A, 21), (0xFE3B, 0xFE3B, 20), (0xFE3C, 0xFE3C, 21),
   (0xFE3D, 0xFE3D, 20), (0xFE3E, 0xFE3E, 21), (0xFE3F, 0xFE3F, 20), (0xFE40, 0xFE40, 21), (0xFE41, 0xFE41, 20),
   (0xFE42, 0xFE42, 21), (0xFE43, 0xFE43, 20), (0xFE44, 0xFE44, 21), (0xFE45, 0xFE46, 23), (0xFE47, 0xFE47, 20),
   (0xFE48, 0xFE48, 21), (0xFE49, 0xFE4C, 23), (0xFE4D, 0xFE4F, 22), (0xFE50, 0xFE52, 23), (0xFE54, 0xFE57, 23),
   (0xFE58, 0xFE58, 19), (0xFE59, 0xFE59, 20), (0xFE5A, 0xFE5A, 21), (0xFE5B, 0xFE5B, 20), (0xFE5C, 0xFE5C, 21),
   (0xFE5D, 0xFE5D, 20), (0xFE5E, 0xFE5E, 21), (0xFE5F, 0xFE61, 23), (0xFE62, 0xFE62, 24), (0xFE63, 0xFE63, 19),
   (0xFE64, 0xFE66, 24), (0xFE68, 0xFE68, 23), (0xFE69, 0xFE69, 25), (0xFE6A, 0xFE6B, 23), (0xFE70, 0xFE74, 5), (0xFE76, 0xFEFC, 5),
   (0xFEFF, 0xFEFF, 16), (0xFF01, 0xFF03, 23), (0xFF04, 0xFF04, 25), (0xFF05, 0xFF07, 23), (0xFF08, 0xFF08, 20),
   (0xFF09, 0xFF09, 21), (0xFF0A, 0xFF0A, 23), (0xFF0B, 0xFF0B, 24), (0xFF0C, 0xFF0C, 23), (0xFF0D, 0xFF0D, 19),
   (0xFF0E, 0xFF0F, 23), (0xFF10, 0xFF19, 9), (0xFF1A, 0xFF1B, 23), (0xFF1C, 0xFF1E, 24), (0xFF1F, 0xFF20, 23), (0xFF21, 0xFF3A, 1),
   (0xFF3B, 0xFF3B, 20), (0xFF3C, 0xFF3C, 23), (0xFF3D, 0xFF3D, 21), (0xFF3E, 0xFF3E, 26), (0xFF3F, 0xFF3F, 22),
   (0xFF40, 0xFF40, 26), (0xFF41, 0xFF5A, 2), (0xFF5B, 0xFF5B, 20), (0xFF5C, 0xFF5C, 24), (0xFF5D, 0xFF5D, 21),
   (0xFF5E, 0xFF5E, 24), (0xFF5F, 0xFF5F, 20), (0xFF60, 0xFF60, 21), (0xFF61, 0xFF61, 23), (0xFF62, 0xFF62, 20),
   (0xFF63, 0xFF63, 21), (0xFF64, 0xFF65, 23), (0xFF66, 0xFF6F, 5), (0xFF70, 0xFF70, 4), (0xFF71, 0xFF9D, 5), (0xFF9E, 0xFF9F, 4),
   (0xFFA0, 0xFFBE, 5), (0xFFC2, 0xFFC7, 5), (0xFFCA, 0xFFCF, 5), (0xFFD2, 0xFFD7, 5), (0xFFDA, 0xFFDC, 5), (0xFFE0, 0xFFE1, 25),
   (0xFFE2, 0xFFE2, 24), (0xFFE3, 0xFFE3, 26), (0xFFE4, 0xFFE4, 27), (0xFFE5, 0xFFE6, 25), (0xFFE8, 0xFFE8, 27),
   (0xFFE9, 0xFFEC, 24), (0xFFED, 0xFFEE, 27), (0xFFF9, 0xFFFB, 16), (0xFFFC, 0xFFFD, 27), (0x10000, 0x1000B, 5),
   (0x1000D, 0x10026, 5), (0x10028, 0x1003A, 5), (0x1003C, 0x1003D, 5), (0x1003F, 0x1004D, 5), (0x10050, 0x1005D, 5),
   (0x10080, 0x100FA, 5), (0x10100, 0x10102, 23), (0x10107, 0x10133, 11), (0x10137, 0x1013F, 27), (0x10140, 0x10174, 10),
   (0x10175, 0x10178, 11), (0x10179, 0x10189, 27), (0x1018A, 0x1018B, 11), (0x1018C, 0x1018E, 27), (0x10190, 0x1019C, 27),
   (0x101A0, 0x101A0, 27), (0x101D0, 0x101FC, 27), (0x101FD, 0x101FD, 6), (0x10280, 0x1029C, 5), (0x102A0, 0x102D0, 5),
   (0x102E0, 0x102E0, 6), (0x102E1, 0x102FB, 11), (0x10300, 0x1031F, 5), (0x10320, 0x10323, 11), (0x1032D, 0x10340, 5),
   (0x10341, 0x10341, 10), (0x10342, 0x10349, 5), (0x1034A, 0x1034A, 10), (0x10350, 0x10375, 5), (0x10376, 0x1037A, 6),
   (0x10380, 0x1039D, 5), (0x1039F, 0x1039F, 23), (0x103A0, 0x103C3, 5), (0x103C8, 0x103CF, 5), (0x103D0, 0x103D0, 23),
   (0x103D1, 0x103D5, 10), (0x10400, 0x10427, 1), (0x10428, 0x1044F, 2), (0x10450, 0x1049D, 5), (0x104A0, 0x104A9, 9),
   (0x104B0, 0x104D3, 1), (0x104D8, 0x104FB, 2), (0x10500, 0x10527, 5), (0x10530, 0x10563, 5), (0x1056F, 0x1056F, 23),
   (0x10600, 0x10736, 5), (0x10740, 0x10755, 5), (0x10760, 0x10767, 5), (0x10800, 0x10805, 5), (0x10808, 0x10808, 5),
   (0x1080A, 0x10835, 5), (0x10837, 0x10838, 5), (0x1083C, 0x1083C, 5), (0x1083F, 0x10855, 5), (0x10857, 0x10857, 23),
   (0x10858, 0x1085F, 11), (0x10860, 0x10876, 5), (0x10877, 0x10878, 27), (0x10879, 0x1087F, 11), (0x10880, 0x1089E, 5),
   (0x108A7, 0x108AF, 11), (0x108E0, 0x108F2, 5), (0x108F4, 0x108F5, 5), (0x108FB, 0x108FF, 11), (0x10900, 0x10915, 5),
   (0x10916, 0x1091B, 11), (0x1091F, 0x1091F, 23), (0x10920, 0x10939, 5), (0x1093F, 0x1093F, 23), (0x10980, 0x109B7, 5),
   (0x109BC, 0x109BD, 11), (0x109BE, 0x109BF, 5), (0x109C0, 0x109CF, 11), (0x109D2, 0x109FF, 11), (0x10A00, 0x10A00, 5),
   (0x10A01, 0x10A03, 6), (0x10A05, 0x10A06, 6), (0x10A0C, 0x10A0F, 6), (0x10A10, 0x10A13, 5), (0x10A15, 0x10A17, 5),
   (0x10A19, 0x10A35, 5), (0x10A38, 0x10A3A, 6), (0x10A3F, 0x10A3F, 6), (0x10A40, 0x10A48, 11), (0x10A50, 0x10A58, 23),
   (0x10A60, 0x10A7C, 5), (0x10A7D, 0x10A7E, 11), (0x10A7F, 0x10A7F, 23), (0x10A80, 0x10A9C, 5), (0x10A9D, 0x10A9F, 11),
   (0x10AC0, 0x10AC7, 5), (0x10AC8, 0x10AC8, 27), (0x10AC9, 0x10AE4, 5), (0x10AE5, 0x10AE6, 6), (0x10AEB, 0x10AEF, 11),
   (0x10AF0, 0x10AF6, 23), (0x10B00, 0x10B35, 5), (0x10B39, 0x10B3F, 23), (0x10B40, 0x10B55, 5), (0x10B58, 0x10B5F, 11),
   (0x10B60, 0x10B72, 5), (0x10B78, 0x10B7F, 11), (0x10B80, 0x10B91, 5), (0x10B99, 0x10B9C, 23), (0x10BA9, 0x10BAF, 11),
   (0x10C00, 0x10C48, 5), (0x10C80, 0x10CB2, 1), (0x10CC0, 0x10CF2, 2), (0x10CFA, 0x10CFF, 11), (0x10D00, 0x10D23, 5),
   (0x10D24, 0x10D27, 6), (0x10D30, 0x10D39, 9), (0x10E60, 0x10E7E, 11), (0x10E80, 0x10EA9, 5), (0x10EAB, 0x10EAC, 6),
   (0x10EAD, 0x10EAD, 19), (0x10EB0, 0x10EB1, 5), (0x10F00, 0x10F1C, 5), (0x10F1D, 0x10F26, 11), (0x10F27, 0x10F27, 5),
   (0x10F30, 0x10F45, 5), (0x10F46, 0x10F50, 6), (0x10F51, 0x10F54, 11), (0x10F55, 0x10F59, 23), (0x10FB0, 0x10FC4, 5),
   (0x10FC5, 0x10FCB, 11), (0x10FE0, 0x10FF6, 5), (0x11000, 0x11000, 8), (0x11001, 0x11001, 6), (0x11002, 0x11002, 8),
   (0x11003, 0x11037, 5), (0x11038, 0x11046, 6), (0x11047, 0x1104D, 23), (0x11052, 0x11065, 11), (0x11066, 0x1106F, 9),
   (0x1107F, 0x11081, 6), (0x11082, 0x11082, 8), (0x11083, 0x110AF, 5), (0x110B0, 0x110B2, 8), (0x110B3, 0x110B6, 6),
   (0x110B7, 0x110B8, 8), (0x110B9, 0x110BA, 6), (0x110BB, 0x110BC, 23), (0x110BD, 0x110BD, 16), (0x110BE, 0x110C1, 23),
   (0x110CD, 0x110CD, 16), (0x110D0, 0x110E8, 5), (0x110F0, 0x110F9, 9), (0x11100, 0x11102, 6), (0x11103, 0x11126, 5),
   (0x11127, 0x1112B, 6), (0x1112C, 0x1112C, 8), (0x1112D, 0x11134, 6), (0x11136, 0x1113F, 9), (0x11140, 0x11143, 23),
   (0x11144, 0x11144, 5), (0x11145, 0x11146, 8), (0x11147, 0x11147, 5), (0x11150, 0x11172, 5), (0x11173, 0x11173, 6),
   (0x11174, 0x11175, 23), (0x11176, 0x11176, 5), (0x11180, 0x11181, 6), (0x11182, 0x11182, 8), (0x11183, 0x111B2, 5),
   (0x111B3, 0x111B5, 8), (0x111B6, 0x111BE, 6), (0x111BF, 0x111C0, 8), (0x111C1, 0x111C4, 5), (0x111C5, 0x111C8, 23),
   (0x111C9, 0x111CC, 6), (0x111CD, 0x111CD, 23), (0x111CE, 0x111CE, 8), (0x111CF, 0x111CF, 6), (0x111D0, 0x111D9, 9),
   (0x111DA, 0x111DA, 5), (0x111DB, 0x111DB, 23)]

/-- General_Category. Part 10. -/
def categoryRuns_10 : List (Nat × Nat × Nat) :=
  [
   (0x111DC, 0x111DC, 5), (0x111DD, 0x111DF, 23), (0x111E1, 0x111F4, 11), (0x11200, 0x11211, 5), (0x11213, 0x1122B, 5),
   (0x1122C, 0x1122E, 8), (0x1122F, 0x11231, 6), (0x11232, 0x11233, 8), (0x11234, 0x11234, 6), (0x11235, 0x11235, 8),
   (0x11236, 0x11237, 6), (0x11238, 0x1123D, 23), (0x1123E, 0x1123E, 6), (0x11280, 0x11286, 5), (0x11288, 0x11288, 5),
   (0x1128A, 0x1128D, 5), (0x1128F, 0x1129D, 5), (0x1129F, 0x112A8, 5), (0x112A9, 0x112A9, 23), (0x112B0, 0x112DE, 5),
   (0x112DF, 0x112DF, 6), (0x112E0, 0x112E2, 8), (0x112E3, 0x112EA, 6), (0x112F0, 0x112F9, 9), (0x11300, 0x11301, 6),
   (0x11302, 0x11303, 8), (0x11305, 0x1130C, 5), (0x1130F, 0x11310, 5), (0x11313, 0x11328, 5), (0x1132A, 0x11330, 5),
   (0x11332, 0x11333, 5), (0x11335, 0x11339, 5), (0x1133B, 0x1133C, 6), (0x1133D, 0x1133D, 5), (0x1133E, 0x1133F, 8),
   (0x11340, 0x11340, 6), (0x11341, 0x11344, 8), (0x11347, 0x11348, 8), (0x1134B, 0x1134D, 8), (0x11350, 0x11350, 5),
   (0x11357, 0x11357, 8), (0x1135D, 0x11361, 5), (0x11362, 0x11363, 8), (0x11366, 0x1136C, 6), (0x11370, 0x11374, 6),
   (0x11400, 0x11434, 5), (0x11435, 0x11437, 8), (0x11438, 0x1143F, 6), (0x11440, 0x11441, 8), (0x11442, 0x11444, 6),
   (0x11445, 0x11445, 8), (0x11446, 0x11446, 6), (0x11447, 0x1144A, 5), (0x1144B, 0x1144F, 23), (0x11450, 0x11459, 9),
   (0x1145A, 0x1145B, 23), (0x1145D, 0x1145D, 23), (0x1145E, 0x1145E, 6), (0x1145F, 0x11461, 5), (0x11480, 0x114AF, 5),
   (0x114B0, 0x114B2, 8), (0x114B3, 0x114B8, 6), (0x114B9, 0x114B9, 8), (0x114BA, 0x114BA, 6), (0x114BB, 0x114BE, 8),
   (0x114BF, 0x114C0, 6), (0x114C1, 0x114C1, 8), (0x114C2, 0x114C3, 6), (0x114C4, 0x114C5, 5), (0x114C6, 0x114C6, 23),
   (0x114C7, 0x114C7, 5), (0x114D0, 0x114D9, 9), (0x11580, 0x115AE, 5), (0x115AF, 0x115B1, 8), (0x115B2, 0x115B5, 6),
   (0x115B8, 0x115BB, 8), (0x115BC, 0x115BD, 6), (0x115BE, 0x115BE, 8), (0x115BF, 0x115C0, 6), (0x115C1, 0x115D7, 23),
   (0x115D8, 0x115DB, 5), (0x115DC, 0x115DD, 6), (0x11600, 0x1162F, 5), (0x11630, 0x11632, 8), (0x11633, 0x1163A, 6),
   (0x1163B, 0x1163C, 8), (0x1163D, 0x1163D, 6), (0x1163E, 0x1163E, 8), (0x1163F, 0x11640, 6), (0x11641, 0x11643, 23),
   (0x11644, 0x11644, 5), (0x11650, 0x11659, 9), (0x11660, 0x1166C, 23), (0x11680, 0x116AA, 5), (0x116AB, 0x116AB, 6),
   (0x116AC, 0x116AC, 8), (0x116AD, 0x116AD, 6), (0x116AE, 0x116AF, 8), (0x116B0, 0x116B5, 6), (0x116B6, 0x116B6, 8),
   (0x116B7, 0x116B7, 6), (0x116B8, 0x116B8, 5), (0x116C0, 0x116C9, 9), (0x11700, 0x1171A, 5), (0x1171D, 0x1171F, 6),
   (0x11720, 0x11721, 8), (0x11722, 0x11725, 6), (0x11726, 0x11726, 8), (0x11727, 0x1172B, 6), (0x11730, 0x11739, 9),
   (0x1173A, 0x1173B, 11), (0x1173C, 0x1173E, 23), (0x1173F, 0x1173F, 27), (0x11800, 0x1182B, 5), (0x1182C, 0x1182E, 8),
   (0x1182F, 0x11837, 6), (0x11838, 0x11838, 8), (0x11839, 0x1183A, 6), (0x1183B, 0x1183B, 23), (0x118A0, 0x118BF, 1),
   (0x118C0, 0x118DF, 2), (0x118E0, 0x118E9, 9), (0x118EA, 0x118F2, 11), (0x118FF, 0x11906, 5), (0x11909, 0x11909, 5),
   (0x1190C, 0x11913, 5), (0x11915, 0x11916, 5), (0x11918, 0x1192F, 5), (0x11930, 0x11935, 8), (0x11937, 0x11938, 8),
   (0x1193B, 0x1193C, 6), (0x1193D, 0x1193D, 8), (0x1193E, 0x1193E, 6), (0x1193F, 0x1193F, 5), (0x11940, 0x11940, 8),
   (0x11941, 0x11941, 5), (0x11942, 0x11942, 8), (0x11943, 0x11943, 6), (0x11944, 0x11946, 23), (0x11950, 0x11959, 9),
   (0x119A0, 0x119A7, 5), (0x119AA, 0x119D0, 5), (0x119D1, 0x119D3, 8), (0x119D4, 0x119D7, 6), (0x119DA, 0x119DB, 6),
   (0x119DC, 0x119DF, 8), (0x119E0, 0x119E0, 6), (0x119E1, 0x119E1, 5), (0x119E2, 0x119E2, 23), (0x119E3, 0x119E3, 5),
   (0x119E4, 0x119E4, 8), (0x11A00, 0x11A00, 5), (0x11A01, 0x11A0A, 6), (0x11A0B, 0x11A32, 5), (0x11A33, 0x11A38, 6),
   (0x11A39, 0x11A39, 8), (0x11A3A, 0x11A3A, 5), (0x11A3B, 0x11A3E, 6), (0x11A3F, 0x11A46, 23), (0x11A47, 0x11A47, 6),
   (0x11A50, 0x11A50, 5), (0x11A51, 0x11A56, 6), (0x11A57, 0x11A58, 8), (0x11A59, 0x11A5B, 6), (0x11A5C, 0x11A89, 5),
   (0x11A8A, 0x11A96, 6), (0x11A97, 0x11A97, 8), (0x11A98, 0x11A99, 6), (0x11A9A, 0x11A9C, 23), (0x11A9D, 0x11A9D, 5),
   (0x11A9E, 0x11AA2, 23), (0x11AC0, 0x11AF8, 5), (0x11C00, 0x11C08, 5), (0x11C0A, 0x11C2E, 5), (0x11C2F, 0x11C2F, 8),
   (0x11C30, 0x11C36, 6), (0x11C38, 0x11C3D, 6), (0x11C3E, 0x11C3E, 8), (0x11C3F, 0x11C3F, 6), (0x11C40, 0x11C40, 5),
   (0x11C41, 0x11C45, 23), (0x11C50, 0x11C59, 9), (0x11C5A, 0x11C6C, 11), (0x11C70, 0x11C71, 23), (0x11C72, 0x11C8F, 5),
   (0x11C92, 0x11CA7, 6), (0x11CA9, 0x11CA9, 8), (0x11CAA, 0x11CB0, 6), (0x11CB1, 0x11CB1, 8), (0x11CB2, 0x11CB3, 6),
   (0x11CB4, 0x11CB4, 8), (0x11CB5, 0x11CB6, 6), (0x11D00, 0x11D06, 5), (0x11D08, 0x11D09, 5), (0x11D0B, 0x11D30, 5),
   (0x11D31, 0x11D36, 6), (0x11D3A, 0x11D3A, 6), (0x11D3C, 0x11D3D, 6), (0x11D3F, 0x11D45, 6), (0x11D46, 0x11D46, 5),
   (0x11D47, 0x11D47, 6), (0x11D50, 0x11D59, 9), (0x11D60, 0x11D65, 5), (0x11D67, 0x11D68, 5), (0x11D6A, 0x11D89, 5),
   (0x11D8A, 0x11D8E, 8), (0x11D90, 0x11D91, 6), (0x11D93, 0x11D94, 8), (0x11D95, 0x11D95, 6), (0x11D96, 0x11D96, 8),
   (0x11D97, 0x11D97, 6), (0x11D98, 0x11D98, 5), (0x11DA0, 0x11DA9, 9), (0x11EE0, 0x11EF2, 5), (0x11EF3, 0x11EF4, 6),
   (0x11EF5, 0x11EF6, 8), (0x11EF7, 0x11EF8, 23), (0x11FB0, 0x11FB0, 5), (0x11FC0, 0x11FD4, 11), (0x11FD5, 0x11FDC, 27),
   (0x11FDD, 0x11FE0, 25), (0x11FE1, 0x11FF1, 27), (0x11FFF, 0x11FFF, 23), (0x12000, 0x12399, 5), (0x12400, 0x1246E, 10),
   (0x12470, 0x12474, 23), (0x12480, 0x12543, 5), (0x13000, 0x1342E, 5), (0x13430, 0x13438, 16), (0x14400, 0x14646, 5),
   (0x16800, 0x16A38, 5), (0x16A40, 0x16A5E, 5), (0x16A60, 0x16A69, 9), (0x16A6E, 0x16A6F, 23), (0x16AD0, 0x16AED, 5),
   (0x16AF0, 0x16AF4, 6), (0x16AF5, 0x16AF5, 23), (0x16B00, 0x16B2F, 5), (0x16B30, 0x16B36, 6), (0x16B37, 0x16B3B, 23),
   (0x16B3C, 0x16B3F, 27), (0x16B40, 0x16B43, 4), (0x16B44, 0x16B44, 23), (0x16B45, 0x16B45, 27), (0x16B50, 0x16B59, 9),
   (0x16B5B, 0x16B61, 11), (0x16B63, 0x16B77, 5), (0x16B7D, 0x16B8F, 5), (0x16E40, 0x16E5F, 1), (0x16E60, 0x16E7F, 2),
   (0x16E80, 0x16E96, 11), (0x16E97, 0x16E9A, 23), (0x16F00, 0x16F4A, 5), (0x16F4F, 0x16F4F, 6), (0x16F50, 0x16F50, 5),
   (0x16F51, 0x16F87, 8), (0x16F8F, 0x16F92, 6), (0x16F93, 0x16F9F, 4), (0x16FE0, 0x16FE1, 4), (0x16FE2, 0x16FE2, 23),
   (0x16FE3, 0x16FE3, 4), (0x16FE4, 0x16FE4, 6), (0x16FF0, 0x16FF1, 8), (0x17000, 0x187F7, 5), (0x18800, 0x18CD5, 5),
   (0x18D00, 0x18D08, 5), (0x1B000, 0x1B11E, 5), (0x1B150, 0x1B152, 5), (0x1B164, 0x1B167, 5), (0x1B170, 0x1B2FB, 5),
   (0x1BC00, 0x1BC6A, 5), (0x1BC70, 0x1BC7C, 5), (0x1BC80, 0x1BC88, 5), (0x1BC90, 0x1BC99, 5), (0x1BC9C, 0x1BC9C, 27),
   (0x1BC9D, 0x1BC9E, 6), (0x1BC9F, 0x1BC9F, 23), (0x1BCA0, 0x1BCA3, 16), (0x1D000, 0x1D0F5, 27), (0x1D100, 0x1D126, 27),
   (0x1D129, 0x1D164, 27), (0x1D165, 0x1D166, 8), (0x1D167, 0x1D169, 6), (0x1D16A, 0x1D16C, 27), (0x1D16D, 0x1D172, 8),
   (0x1D173, 0x1D17A, 16), (0x1D17B, 0x1D182, 6), (0x1D183, 0x1D184, 27), (0x1D185, 0x1D18B, 6), (0x1D18C, 0x1D1A9, 27),
   (0x1D1AA, 0x1D1AD, 6), (0x1D1AE, 0x1D1E8, 27), (0x1D200, 0x1D241, 27), (0x1D242, 0x1D244, 6), (0x1D245, 0x1D245, 27),
   (0x1D2E0, 0x1D2F3, 11), (0x1D300, 0x1D356, 27), (0x1D360, 0x1D378, 11), (0x1D400, 0x1D419, 1), (0x1D41A, 0x1D433, 2)]

/-- General_Category. Part 11. -/
def categoryRuns_11 : List (Nat × Nat × Nat) :=
  [
   (0x1D434, 0x1D44D, 1), (0x1D44E, 0x1D454, 2), (0x1D456, 0x1D467, 2), (0x1D468, 0x1D481, 1), (0x1D482, 0x1D49B, 2),
   (0x1D49C, 0x1D49C, 1), (0x1D49E, 0x1D49F, 1), (0x1D4A2, 0x1D4A2, 1), (0x1D4A5, 0x1D4A6, 1), (0x1D4A9, 0x1D4AC, 1),
   (0x1D4AE, 0x1D4B5, 1), (0x1D4B6, 0x1D4B9, 2), (0x1D4BB, 0x1D4BB, 2), (0x1D4BD, 0x1D4C3, 2), (0x1D4C5, 0x1D4CF, 2),
   (0x1D4D0, 0x1D4E9, 1), (0x1D4EA, 0x1D503, 2), (0x1D504, 0x1D505, 1), (0x1D507, 0x1D50A, 1), (0x1D50D, 0x1D514, 1),
   (0x1D516, 0x1D51C, 1), (0x1D51E, 0x1D537, 2), (0x1D538, 0x1D539, 1), (0x1D53B, 0x1D53E, 1), (0x1D540, 0x1D544, 1),
   (0x1D546, 0x1D546, 1), (0x1D54A, 0x1D550, 1), (0x1D552, 0x1D56B, 2), (0x1D56C, 0x1D585, 1), (0x1D586, 0x1D59F, 2),
   (0x1D5A0, 0x1D5B9, 1), (0x1D5BA, 0x1D5D3, 2), (0x1D5D4, 0x1D5ED, 1), (0x1D5EE, 0x1D607, 2), (0x1D608, 0x1D621, 1),
   (0x1D622, 0x1D63B, 2), (0x1D63C, 0x1D655, 1), (0x1D656, 0x1D66F, 2), (0x1D670, 0x1D689, 1), (0x1D68A, 0x1D6A5, 2),
   (0x1D6A8, 0x1D6C0, 1), (0x1D6C1, 0x1D6C1, 24), (0x1D6C2, 0x1D6DA, 2), (0x1D6DB, 0x1D6DB, 24), (0x1D6DC, 0x1D6E1, 2),
   (0x1D6E2, 0x1D6FA, 1), (0x1D6FB, 0x1D6FB, 24), (0x1D6FC, 0x1D714, 2), (0x1D715, 0x1D715, 24), (0x1D716, 0x1D71B, 2),
   (0x1D71C, 0x1D734, 1), (0x1D735, 0x1D735, 24), (0x1D736, 0x1D74E, 2), (0x1D74F, 0x1D74F, 24), (0x1D750, 0x1D755, 2),
   (0x1D756, 0x1D76E, 1), (0x1D76F, 0x1D76F, 24), (0x1D770, 0x1D788, 2), (0x1D789, 0x1D789, 24), (0x1D78A, 0x1D78F, 2),
   (0x1D790, 0x1D7A8, 1), (0x1D7A9, 0x1D7A9, 24), (0x1D7AA, 0x1D7C2, 2), (0x1D7C3, 0x1D7C3, 24), (0x1D7C4, 0x1D7C9, 2),
   (0x1D7CA, 0x1D7CA, 1), (0x1D7CB, 0x1D7CB, 2), (0x1D7CE, 0x1D7FF, 9), (0x1D800, 0x1D9FF, 27), (0x1DA00, 0x1DA36, 6),
   (0x1DA37, 0x1DA3A, 27), (0x1DA3B, 0x1DA6C, 6), (0x1DA6D, 0x1DA74, 27), (0x1DA75, 0x1DA75, 6), (0x1DA76, 0x1DA83, 27),
   (0x1DA84, 0x1DA84, 6), (0x1DA85, 0x1DA86, 27), (0x1DA87, 0x1DA8B, 23), (0x1DA9B, 0x1DA9F, 6), (0x1DAA1, 0x1DAAF, 6),
   (0x1E000, 0x1E006, 6), (0x1E008, 0x1E018, 6), (0x1E01B, 0x1E021, 6), (0x1E023, 0x1E024, 6), (0x1E026, 0x1E02A, 6),
   (0x1E100, 0x1E12C, 5), (0x1E130, 0x1E136, 6), (0x1E137, 0x1E13D, 4), (0x1E140, 0x1E149, 9), (0x1E14E, 0x1E14E, 5),
   (0x1E14F, 0x1E14F, 27), (0x1E2C0, 0x1E2EB, 5), (0x1E2EC, 0x1E2EF, 6), (0x1E2F0, 0x1E2F9, 9), (0x1E2FF, 0x1E2FF, 25),
   (0x1E800, 0x1E8C4, 5), (0x1E8C7, 0x1E8CF, 11), (0x1E8D0, 0x1E8D6, 6), (0x1E900, 0x1E921, 1), (0x1E922, 0x1E943, 2),
   (0x1E944, 0x1E94A, 6), (0x1E94B, 0x1E94B, 4), (0x1E950, 0x1E959, 9), (0x1E95E, 0x1E95F, 23), (0x1EC71, 0x1ECAB, 11),
   (0x1ECAC, 0x1ECAC, 27), (0x1ECAD, 0x1ECAF, 11), (0x1ECB0, 0x1ECB0, 25), (0x1ECB1, 0x1ECB4, 11), (0x1ED01, 0x1ED2D, 11),
   (0x1ED2E, 0x1ED2E, 27), (0x1ED2F, 0x1ED3D, 11), (0x1EE00, 0x1EE03, 5), (0x1EE05, 0x1EE1F, 5), (0x1EE21, 0x1EE22, 5),
   (0x1EE24, 0x1EE24, 5), (0x1EE27, 0x1EE27, 5), (0x1EE29, 0x1EE32, 5), (0x1EE34, 0x1EE37, 5), (0x1EE39, 0x1EE39, 5),
   (0x1EE3B, 0x1EE3B, 5), (0x1EE42, 0x1EE42, 5), (0x1EE47, 0x1EE47, 5), (0x1EE49, 0x1EE49, 5), (0x1EE4B, 0x1EE4B, 5),
   (0x1EE4D, 0x1EE4F, 5), (0x1EE51, 0x1EE52, 5), (0x1EE54, 0x1EE54, 5), (0x1EE57, 0x1EE57, 5), (0x1EE59, 0x1EE59, 5),
   (0x1EE5B, 0x1EE5B, 5), (0x1EE5D, 0x1EE5D, 5), (0x1EE5F, 0x1EE5F, 5), (0x1EE61, 0x1EE62, 5), (0x1EE64, 0x1EE64, 5),
   (0x1EE67, 0x1EE6A, 5), (0x1EE6C, 0x1EE72, 5), (0x1EE74, 0x1EE77, 5), (0x1EE79, 0x1EE7C, 5), (0x1EE7E, 0x1EE7E, 5),
   (0x1EE80, 0x1EE89, 5), (0x1EE8B, 0x1EE9B, 5), (0x1EEA1, 0x1EEA3, 5), (0x1EEA5, 0x1EEA9, 5), (0x1EEAB, 0x1EEBB, 5),
   (0x1EEF0, 0x1EEF1, 24), (0x1F000, 0x1F02B, 27), (0x1F030, 0x1F093, 27), (0x1F0A0, 0x1F0AE, 27), (0x1F0B1, 0x1F0BF, 27),
   (0x1F0C1, 0x1F0CF, 27), (0x1F0D1, 0x1F0F5, 27), (0x1F100, 0x1F10C, 11), (0x1F10D, 0x1F1AD, 27), (0x1F1E6, 0x1F202, 27),
   (0x1F210, 0x1F23B, 27), (0x1F240, 0x1F248, 27), (0x1F250, 0x1F251, 27), (0x1F260, 0x1F265, 27), (0x1F300, 0x1F3FA, 27),
   (0x1F3FB, 0x1F3FF, 26), (0x1F400, 0x1F6D7, 27), (0x1F6E0, 0x1F6EC, 27), (0x1F6F0, 0x1F6FC, 27), (0x1F700, 0x1F773, 27),
   (0x1F780, 0x1F7D8, 27), (0x1F7E0, 0x1F7EB, 27), (0x1F800, 0x1F80B, 27), (0x1F810, 0x1F847, 27), (0x1F850, 0x1F859, 27),
   (0x1F860, 0x1F887, 27), (0x1F890, 0x1F8AD, 27), (0x1F8B0, 0x1F8B1, 27), (0x1F900, 0x1F978, 27), (0x1F97A, 0x1F9CB, 27),
   (0x1F9CD, 0x1FA53, 27), (0x1FA60, 0x1FA6D, 27), (0x1FA70, 0x1FA74, 27), (0x1FA78, 0x1FA7A, 27), (0x1FA80, 0x1FA86, 27),
   (0x1FA90, 0x1FAA8, 27), (0x1FAB0, 0x1FAB6, 27), (0x1FAC0, 0x1FAC2, 27), (0x1FAD0, 0x1FAD6, 27), (0x1FB00, 0x1FB92, 27),
   (0x1FB94, 0x1FBCA, 27), (0x1FBF0, 0x1FBF9, 9), (0x20000, 0x2A6DD, 5), (0x2A700, 0x2B734, 5), (0x2B740, 0x2B81D, 5),
   (0x2B820, 0x2CEA1, 5), (0x2CEB0, 0x2EBE0, 5), (0x2F800, 0x2FA1D, 5), (0x30000, 0x3134A, 5), (0xE0001, 0xE0001, 16),
   (0xE0020, 0xE007F, 16), (0xE0100, 0xE01EF, 6), (0xF0000, 0xFFFFD, 17), (0x100000, 0x10FFFD, 17)]

/-- General_Category. -/
def categoryRuns : List (Nat × Nat × Nat) :=
  categoryRuns_1 ++ (categoryRuns_2 ++ (categoryRuns_3 ++ (categoryRuns_4 ++ (categoryRuns_5 ++ (categoryRuns_6 ++
    (categoryRuns_7 ++ (categoryRuns_8 ++ (categoryRuns_9 ++ (categoryRuns_10 ++ (categoryRuns_11))))))))))

end Verif.Spec
