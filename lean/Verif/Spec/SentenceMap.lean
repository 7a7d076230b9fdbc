/-!
# Sentence break classes of the Unicode standard, version 13.0

SentenceBreakProperty.txt. Lines `first, last, value` in ascending order; code points in none of them have the default
value. The default is XX (0).
-/
namespace Verif.Spec
set_option maxRecDepth 10000

/-- The sentence break classes and their numbers. -/
def sentenceLegend : List (Nat × String) :=
  [
   (0, "XX"), (1, "AT"), (2, "CL"), (3, "FO"), (4, "LO"), (5, "NU"), (6, "LE"), (7, "SE"), (8, "SP"), (9, "ST"), (10, "UP"),
   (11, "CR"), (12, "EX"), (13, "LF"), (14, "SC")]

/-- Sentence_Break. Part 1. -/
def sentenceRuns_1 : List (Nat × Nat × Nat) :=
  [
   (0x9, 0x9, 8), (0xA, 0xA, 13), (0xB, 0xC, 8), (0xD, 0xD, 11), (0x20, 0x20, 8), (0x21, 0x21, 9), (0x22, 0x22, 2), (0x27, 0x29, 2),
   (0x2C, 0x2D, 14), (0x2E, 0x2E, 1), (0x30, 0x39, 5), (0x3A, 0x3A, 14), (0x3F, 0x3F, 9), (0x41, 0x5A, 10), (0x5B, 0x5B, 2),
   (0x5D, 0x5D, 2), (0x61, 0x7A, 4), (0x7B, 0x7B, 2), (0x7D, 0x7D, 2), (0x85, 0x85, 7), (0xA0, 0xA0, 8), (0xAA, 0xAA, 4),
   (0xAB, 0xAB, 2), (0xAD, 0xAD, 3), (0xB5, 0xB5, 4), (0xBA, 0xBA, 4), (0xBB, 0xBB, 2), (0xC0, 0xD6, 10), (0xD8, 0xDE, 10),
   (0xDF, 0xF6, 4), (0xF8, 0xFF, 4), (0x100, 0x100, 10), (0x101, 0x101, 4), (0x102, 0x102, 10), (0x103, 0x103, 4),
   (0x104, 0x104, 10), (0x105, 0x105, 4), (0x106, 0x106, 10), (0x107, 0x107, 4), (0x108, 0x108, 10), (0x109, 0x109, 4),
   (0x10A, 0x10A, 10), (0x10B, 0x10B, 4), (0x10C, 0x10C, 10), (0x10D, 0x10D, 4), (0x10E, 0x10E, 10), (0x10F, 0x10F, 4),
   (0x110, 0x110, 10), (0x111, 0x111, 4), (0x112, 0x112, 10), (0x113, 0x113, 4), (0x114, 0x114, 10), (0x115, 0x115, 4),
   (0x116, 0x116, 10), (0x117, 0x117, 4), (0x118, 0x118, 10), (0x119, 0x119, 4), (0x11A, 0x11A, 10), (0x11B, 0x11B, 4),
   (0x11C, 0x11C, 10), (0x11D, 0x11D, 4), (0x11E, 0x11E, 10), (0x11F, 0x11F, 4), (0x120, 0x120, 10), (0x121, 0x121, 4),
   (0x122, 0x122, 10), (0x123, 0x123, 4), (0x124, 0x124, 10), (0x125, 0x125, 4), (0x126, 0x126, 10), (0x127, 0x127, 4),
   (0x128, 0x128, 10), (0x129, 0x129, 4), (0x12A, 0x12A, 10), (0x12B, 0x12B, 4), (0x12C, 0x12C, 10), (0x12D, 0x12D, 4),
   (0x12E, 0x12E, 10), (0x12F, 0x12F, 4), (0x130, 0x130, 10), (0x131, 0x131, 4), (0x132, 0x132, 10), (0x133, 0x133, 4),
   (0x134, 0x134, 10), (0x135, 0x135, 4), (0x136, 0x136, 10), (0x137, 0x138, 4), (0x139, 0x139, 10), (0x13A, 0x13A, 4),
   (0x13B, 0x13B, 10), (0x13C, 0x13C, 4), (0x13D, 0x13D, 10), (0x13E, 0x13E, 4), (0x13F, 0x13F, 10), (0x140, 0x140, 4),
   (0x141, 0x141, 10), (0x142, 0x142, 4), (0x143, 0x143, 10), (0x144, 0x144, 4), (0x145, 0x145, 10), (0x146, 0x146, 4),
   (0x147, 0x147, 10), (0x148, 0x149, 4), (0x14A, 0x14A, 10), (0x14B, 0x14B, 4), (0x14C, 0x14C, 10), (0x14D, 0x14D, 4),
   (0x14E, 0x14E, 10), (0x14F, 0x14F, 4), (0x150, 0x150, 10), (0x151, 0x151, 4), (0x152, 0x152, 10), (0x153, 0x153, 4),
   (0x154, 0x154, 10), (0x155, 0x155, 4), (0x156, 0x156, 10), (0x157, 0x157, 4), (0x158, 0x158, 10), (0x159, 0x159, 4),
   (0x15A, 0x15A, 10), (0x15B, 0x15B, 4), (0x15C, 0x15C, 10), (0x15D, 0x15D, 4), (0x15E, 0x15E, 10), (0x15F, 0x15F, 4),
   (0x160, 0x160, 10), (0x161, 0x161, 4), (0x162, 0x162, 10), (0x163, 0x163, 4), (0x164, 0x164, 10), (0x165, 0x165, 4),
   (0x166, 0x166, 10), (0x167, 0x167, 4), (0x168, 0x168, 10), (0x169, 0x169, 4), (0x16A, 0x16A, 10), (0x16B, 0x16B, 4),
   (0x16C, 0x16C, 10), (0x16D, 0x16D, 4), (0x16E, 0x16E, 10), (0x16F, 0x16F, 4), (0x170, 0x170, 10), (0x171, 0x171, 4),
   (0x172, 0x172, 10), (0x173, 0x173, 4), (0x174, 0x174, 10), (0x175, 0x175, 4), (0x176, 0x176, 10), (0x177, 0x177, 4),
   (0x178, 0x179, 10), (0x17A, 0x17A, 4), (0x17B, 0x17B, 10), (0x17C, 0x17C, 4), (0x17D, 0x17D, 10), (0x17E, 0x180, 4),
   (0x181, 0x182, 10), (0x183, 0x183, 4), (0x184, 0x184, 10), (0x185, 0x185, 4), (0x186, 0x187, 10), (0x188, 0x188, 4),
   (0x189, 0x18B, 10), (0x18C, 0x18D, 4), (0x18E, 0x191, 10), (0x192, 0x192, 4), (0x193, 0x194, 10), (0x195, 0x195, 4),
   (0x196, 0x198, 10), (0x199, 0x19B, 4), (0x19C, 0x19D, 10), (0x19E, 0x19E, 4), (0x19F, 0x1A0, 10), (0x1A1, 0x1A1, 4),
   (0x1A2, 0x1A2, 10), (0x1A3, 0x1A3, 4), (0x1A4, 0x1A4, 10), (0x1A5, 0x1A5, 4), (0x1A6, 0x1A7, 10), (0x1A8, 0x1A8, 4),
   (0x1A9, 0x1A9, 10), (0x1AA, 0x1AB, 4), (0x1AC, 0x1AC, 10), (0x1AD, 0x1AD, 4), (0x1AE, 0x1AF, 10), (0x1B0, 0x1B0, 4),
   (0x1B1, 0x1B3, 10), (0x1B4, 0x1B4, 4), (0x1B5, 0x1B5, 10), (0x1B6, 0x1B6, 4), (0x1B7, 0x1B8, 10), (0x1B9, 0x1BA, 4),
   (0x1BB, 0x1BB, 6), (0x1BC, 0x1BC, 10), (0x1BD, 0x1BF, 4), (0x1C0, 0x1C3, 6), (0x1C4, 0x1C5, 10), (0x1C6, 0x1C6, 4),
   (0x1C7, 0x1C8, 10), (0x1C9, 0x1C9, 4), (0x1CA, 0x1CB, 10), (0x1CC, 0x1CC, 4), (0x1CD, 0x1CD, 10), (0x1CE, 0x1CE, 4),
   (0x1CF, 0x1CF, 10), (0x1D0, 0x1D0, 4), (0x1D1, 0x1D1, 10), (0x1D2, 0x1D2, 4), (0x1D3, 0x1D3, 10), (0x1D4, 0x1D4, 4),
   (0x1D5, 0x1D5, 10), (0x1D6, 0x1D6, 4), (0x1D7, 0x1D7, 10), (0x1D8, 0x1D8, 4), (0x1D9, 0x1D9, 10), (0x1DA, 0x1DA, 4),
   (0x1DB, 0x1DB, 10), (0x1DC, 0x1DD, 4), (0x1DE, 0x1DE, 10), (0x1DF, 0x1DF, 4), (0x1E0, 0x1E0, 10), (0x1E1, 0x1E1, 4),
   (0x1E2, 0x1E2, 10), (0x1E3, 0x1E3, 4), (0x1E4, 0x1E4, 10), (0x1E5, 0x1E5, 4), (0x1E6, 0x1E6, 10), (0x1E7, 0x1E7, 4),
   (0x1E8, 0x1E8, 10), (0x1E9, 0x1E9, 4), (0x1EA, 0x1EA, 10), (0x1EB, 0x1EB, 4), (0x1EC, 0x1EC, 10), (0x1ED, 0x1ED, 4),
   (0x1EE, 0x1EE, 10), (0x1EF, 0x1F0, 4), (0x1F1, 0x1F2, 10), (0x1F3, 0x1F3, 4), (0x1F4, 0x1F4, 10), (0x1F5, 0x1F5, 4),
   (0x1F6, 0x1F8, 10), (0x1F9, 0x1F9, 4), (0x1FA, 0x1FA, 10), (0x1FB, 0x1FB, 4), (0x1FC, 0x1FC, 10), (0x1FD, 0x1FD, 4),
   (0x1FE, 0x1FE, 10), (0x1FF, 0x1FF, 4), (0x200, 0x200, 10), (0x201, 0x201, 4), (0x202, 0x202, 10), (0x203, 0x203, 4),
   (0x204, 0x204, 10), (0x205, 0x205, 4), (0x206, 0x206, 10), (0x207, 0x207, 4), (0x208, 0x208, 10), (0x209, 0x209, 4),
   (0x20A, 0x20A, 10), (0x20B, 0x20B, 4), (0x20C, 0x20C, 10), (0x20D, 0x20D, 4), (0x20E, 0x20E, 10), (0x20F, 0x20F, 4),
   (0x210, 0x210, 10), (0x211, 0x211, 4), (0x212, 0x212, 10), (0x213, 0x213, 4), (0x214, 0x214, 10), (0x215, 0x215, 4),
   (0x216, 0x216, 10), (0x217, 0x217, 4), (0x218, 0x218, 10), (0x219, 0x219, 4), (0x21A, 0x21A, 10), (0x21B, 0x21B, 4),
   (0x21C, 0x21C, 10), (0x21D, 0x21D, 4), (0x21E, 0x21E, 10), (0x21F, 0x21F, 4), (0x220, 0x220, 10), (0x221, 0x221, 4),
   (0x222, 0x222, 10), (0x223, 0x223, 4), (0x224, 0x224, 10), (0x225, 0x225, 4), (0x226, 0x226, 10), (0x227, 0x227, 4),
   (0x228, 0x228, 10), (0x229, 0x229, 4), (0x22A, 0x22A, 10), (0x22B, 0x22B, 4), (0x22C, 0x22C, 10), (0x22D, 0x22D, 4),
   (0x22E, 0x22E, 10), (0x22F, 0x22F, 4), (0x230, 0x230, 10), (0x231, 0x231, 4), (0x232, 0x232, 10), (0x233, 0x239, 4),
   (0x23A, 0x23B, 10)]

/-- Sentence_Break. Part 2. -/
def sentenceRuns_2 : List (Nat × Nat × Nat) :=
  [
   (0x23C, 0x23C, 4), (0x23D, 0x23E, 10), (0x23F, 0x240, 4), (0x241, 0x241, 10), (0x242, 0x242, 4), (0x243, 0x246, 10),
   (0x247, 0x247, 4), (0x248, 0x248, 10), (0x249, 0x249, 4), (0x24A, 0x24A, 10), (0x24B, 0x24B, 4), (0x24C, 0x24C, 10),
   (0x24D, 0x24D, 4), (0x24E, 0x24E, 10), (0x24F, 0x293, 4), (0x294, 0x294, 6), (0x295, 0x2B8, 4), (0x2B9, 0x2BF, 6),
   (0x2C0, 0x2C1, 4), (0x2C6, 0x2D1, 6), (0x2E0, 0x2E4, 4), (0x2EC, 0x2EC, 6), (0x2EE, 0x2EE, 6), (0x300, 0x36F, 12),
   (0x370, 0x370, 10), (0x371, 0x371, 4), (0x372, 0x372, 10), (0x373, 0x373, 4), (0x374, 0x374, 6), (0x376, 0x376, 10),
   (0x377, 0x377, 4), (0x37A, 0x37D, 4), (0x37F, 0x37F, 10), (0x386, 0x386, 10), (0x388, 0x38A, 10), (0x38C, 0x38C, 10),
   (0x38E, 0x38F, 10), (0x390, 0x390, 4), (0x391, 0x3A1, 10), (0x3A3, 0x3AB, 10), (0x3AC, 0x3CE, 4), (0x3CF, 0x3CF, 10),
   (0x3D0, 0x3D1, 4), (0x3D2, 0x3D4, 10), (0x3D5, 0x3D7, 4), (0x3D8, 0x3D8, 10), (0x3D9, 0x3D9, 4), (0x3DA, 0x3DA, 10),
   (0x3DB, 0x3DB, 4), (0x3DC, 0x3DC, 10), (0x3DD, 0x3DD, 4), (0x3DE, 0x3DE, 10), (0x3DF, 0x3DF, 4), (0x3E0, 0x3E0, 10),
   (0x3E1, 0x3E1, 4), (0x3E2, 0x3E2, 10), (0x3E3, 0x3E3, 4), (0x3E4, 0x3E4, 10), (0x3E5, 0x3E5, 4), (0x3E6, 0x3E6, 10),
   (0x3E7, 0x3E7, 4), (0x3E8, 0x3E8, 10), (0x3E9, 0x3E9, 4), (0x3EA, 0x3EA, 10), (0x3EB, 0x3EB, 4), (0x3EC, 0x3EC, 10),
   (0x3ED, 0x3ED, 4), (0x3EE, 0x3EE, 10), (0x3EF, 0x3F3, 4), (0x3F4, 0x3F4, 10), (0x3F5, 0x3F5, 4), (0x3F7, 0x3F7, 10),
   (0x3F8, 0x3F8, 4), (0x3F9, 0x3FA, 10), (0x3FB, 0x3FC, 4), (0x3FD, 0x42F, 10), (0x430, 0x45F, 4), (0x460, 0x460, 10),
   (0x461, 0x461, 4), (0x462, 0x462, 10), (0x463, 0x463, 4), (0x464, 0x464, 10), (0x465, 0x465, 4), (0x466, 0x466, 10),
   (0x467, 0x467, 4), (0x468, 0x468, 10), (0x469, 0x469, 4), (0x46A, 0x46A, 10), (0x46B, 0x46B, 4), (0x46C, 0x46C, 10),
   (0x46D, 0x46D, 4), (0x46E, 0x46E, 10), (0x46F, 0x46F, 4), (0x470, 0x470, 10), (0x471, 0x471, 4), (0x472, 0x472, 10),
   (0x473, 0x473, 4), (0x474, 0x474, 10), (0x475, 0x475, 4), (0x476, 0x476, 10), (0x477, 0x477, 4), (0x478, 0x478, 10),
   (0x479, 0x479, 4), (0x47A, 0x47A, 10), (0x47B, 0x47B, 4), (0x47C, 0x47C, 10), (0x47D, 0x47D, 4), (0x47E, 0x47E, 10),
   (0x47F, 0x47F, 4), (0x480, 0x480, 10), (0x481, 0x481, 4), (0x483, 0x489, 12), (0x48A, 0x48A, 10), (0x48B, 0x48B, 4),
   (0x48C, 0x48C, 10), (0x48D, 0x48D, 4), (0x48E, 0x48E, 10), (0x48F, 0x48F, 4), (0x490, 0x490, 10), (0x491, 0x491, 4),
   (0x492, 0x492, 10), (0x493, 0x493, 4), (0x494, 0x494, 10), (0x495, 0x495, 4), (0x496, 0x496, 10), (0x497, 0x497, 4),
   (0x498, 0x498, 10), (0x499, 0x499, 4), (0x49A, 0x49A, 10), (0x49B, 0x49B, 4), (0x49C, 0x49C, 10), (0x49D, 0x49D, 4),
   (0x49E, 0x49E, 10), (0x49F, 0x49F, 4), (0x4A0, 0x4A0, 10), (0x4A1, 0x4A1, 4), (0x4A2, 0x4A2, 10), (0x4A3, 0x4A3, 4),
   (0x4A4, 0x4A4, 10), (0x4A5, 0x4A5, 4), (0x4A6, 0x4A6, 10), (0x4A7, 0x4A7, 4), (0x4A8, 0x4A8, 10), (0x4A9, 0x4A9, 4),
   (0x4AA, 0x4AA, 10), (0x4AB, 0x4AB, 4), (0x4AC, 0x4AC, 10), (0x4AD, 0x4AD, 4), (0x4AE, 0x4AE, 10), (0x4AF, 0x4AF, 4),
   (0x4B0, 0x4B0, 10), (0x4B1, 0x4B1, 4), (0x4B2, 0x4B2, 10), (0x4B3, 0x4B3, 4), (0x4B4, 0x4B4, 10), (0x4B5, 0x4B5, 4),
   (0x4B6, 0x4B6, 10), (0x4B7, 0x4B7, 4), (0x4B8, 0x4B8, 10), (0x4B9, 0x4B9, 4), (0x4BA, 0x4BA, 10), (0x4BB, 0x4BB, 4),
   (0x4BC, 0x4BC, 10), (0x4BD, 0x4BD, 4), (0x4BE, 0x4BE, 10), (0x4BF, 0x4BF, 4), (0x4C0, 0x4C1, 10), (0x4C2, 0x4C2, 4),
   (0x4C3, 0x4C3, 10), (0x4C4, 0x4C4, 4), (0x4C5, 0x4C5, 10), (0x4C6, 0x4C6, 4), (0x4C7, 0x4C7, 10), (0x4C8, 0x4C8, 4),
   (0x4C9, 0x4C9, 10), (0x4CA, 0x4CA, 4), (0x4CB, 0x4CB, 10), (0x4CC, 0x4CC, 4), (0x4CD, 0x4CD, 10), (0x4CE, 0x4CF, 4),
   (0x4D0, 0x4D0, 10), (0x4D1, 0x4D1, 4), (0x4D2, 0x4D2, 10), (0x4D3, 0x4D3, 4), (0x4D4, 0x4D4, 10), (0x4D5, 0x4D5, 4),
   (0x4D6, 0x4D6, 10), (0x4D7, 0x4D7, 4), (0x4D8, 0x4D8, 10), (0x4D9, 0x4D9, 4), (0x4DA, 0x4DA, 10), (0x4DB, 0x4DB, 4),
   (0x4DC, 0x4DC, 10), (0x4DD, 0x4DD, 4), (0x4DE, 0x4DE, 10), (0x4DF, 0x4DF, 4), (0x4E0, 0x4E0, 10), (0x4E1, 0x4E1, 4),
   (0x4E2, 0x4E2, 10), (0x4E3, 0x4E3, 4), (0x4E4, 0x4E4, 10), (0x4E5, 0x4E5, 4), (0x4E6, 0x4E6, 10), (0x4E7, 0x4E7, 4),
   (0x4E8, 0x4E8, 10), (0x4E9, 0x4E9, 4), (0x4EA, 0x4EA, 10), (0x4EB, 0x4EB, 4), (0x4EC, 0x4EC, 10), (0x4ED, 0x4ED, 4),
   (0x4EE, 0x4EE, 10), (0x4EF, 0x4EF, 4), (0x4F0, 0x4F0, 10), (0x4F1, 0x4F1, 4), (0x4F2, 0x4F2, 10), (0x4F3, 0x4F3, 4),
   (0x4F4, 0x4F4, 10), (0x4F5, 0x4F5, 4), (0x4F6, 0x4F6, 10), (0x4F7, 0x4F7, 4), (0x4F8, 0x4F8, 10), (0x4F9, 0x4F9, 4),
   (0x4FA, 0x4FA, 10), (0x4FB, 0x4FB, 4), (0x4FC, 0x4FC, 10), (0x4FD, 0x4FD, 4), (0x4FE, 0x4FE, 10), (0x4FF, 0x4FF, 4),
   (0x500, 0x500, 10), (0x501, 0x501, 4), (0x502, 0x502, 10), (0x503, 0x503, 4), (0x504, 0x504, 10), (0x505, 0x505, 4),
   (0x506, 0x506, 10), (0x507, 0x507, 4), (0x508, 0x508, 10), (0x509, 0x509, 4), (0x50A, 0x50A, 10), (0x50B, 0x50B, 4),
   (0x50C, 0x50C, 10), (0x50D, 0x50D, 4), (0x50E, 0x50E, 10), (0x50F, 0x50F, 4), (0x510, 0x510, 10), (0x511, 0x511, 4),
   (0x512, 0x512, 10), (0x513, 0x513, 4), (0x514, 0x514, 10), (0x515, 0x515, 4), (0x516, 0x516, 10), (0x517, 0x517, 4),
   (0x518, 0x518, 10), (0x519, 0x519, 4), (0x51A, 0x51A, 10), (0x51B, 0x51B, 4), (0x51C, 0x51C, 10), (0x51D, 0x51D, 4),
   (0x51E, 0x51E, 10), (0x51F, 0x51F, 4), (0x520, 0x520, 10), (0x521, 0x521, 4), (0x522, 0x522, 10), (0x523, 0x523, 4),
   (0x524, 0x524, 10), (0x525, 0x525, 4), (0x526, 0x526, 10), (0x527, 0x527, 4), (0x528, 0x528, 10), (0x529, 0x529, 4),
   (0x52A, 0x52A, 10), (0x52B, 0x52B, 4), (0x52C, 0x52C, 10), (0x52D, 0x52D, 4), (0x52E, 0x52E, 10), (0x52F, 0x52F, 4),
   (0x531, 0x556, 10), (0x559, 0x559, 6), (0x55D, 0x55D, 14), (0x560, 0x588, 4), (0x589, 0x589, 9), (0x591, 0x5BD, 12),
   (0x5BF, 0x5BF, 12), (0x5C1, 0x5C2, 12), (0x5C4, 0x5C5, 12), (0x5C7, 0x5C7, 12), (0x5D0, 0x5EA, 6), (0x5EF, 0x5F3, 6),
   (0x600, 0x605, 3), (0x60C, 0x60D, 14), (0x610, 0x61A, 12), (0x61C, 0x61C, 3), (0x61E, 0x61F, 9), (0x620, 0x64A, 6),
   (0x64B, 0x65F, 12), (0x660, 0x669, 5), (0x66B, 0x66C, 5), (0x66E, 0x66F, 6), (0x670, 0x670, 12), (0x671, 0x6D3, 6)]

/-- Sentence_Break. Part 3. -/
def sentenceRuns_3 : List (Nat × Nat × Nat) :=
  [
   (0x6D4, 0x6D4, 9), (0x6D5, 0x6D5, 6), (0x6D6, 0x6DC, 12), (0x6DD, 0x6DD, 3), (0x6DF, 0x6E4, 12), (0x6E5, 0x6E6, 6),
   (0x6E7, 0x6E8, 12), (0x6EA, 0x6ED, 12), (0x6EE, 0x6EF, 6), (0x6F0, 0x6F9, 5), (0x6FA, 0x6FC, 6), (0x6FF, 0x6FF, 6),
   (0x700, 0x702, 9), (0x70F, 0x70F, 3), (0x710, 0x710, 6), (0x711, 0x711, 12), (0x712, 0x72F, 6), (0x730, 0x74A, 12),
   (0x74D, 0x7A5, 6), (0x7A6, 0x7B0, 12), (0x7B1, 0x7B1, 6), (0x7C0, 0x7C9, 5), (0x7CA, 0x7EA, 6), (0x7EB, 0x7F3, 12),
   (0x7F4, 0x7F5, 6), (0x7F8, 0x7F8, 14), (0x7F9, 0x7F9, 9), (0x7FA, 0x7FA, 6), (0x7FD, 0x7FD, 12), (0x800, 0x815, 6),
   (0x816, 0x819, 12), (0x81A, 0x81A, 6), (0x81B, 0x823, 12), (0x824, 0x824, 6), (0x825, 0x827, 12), (0x828, 0x828, 6),
   (0x829, 0x82D, 12), (0x837, 0x837, 9), (0x839, 0x839, 9), (0x83D, 0x83E, 9), (0x840, 0x858, 6), (0x859, 0x85B, 12),
   (0x860, 0x86A, 6), (0x8A0, 0x8B4, 6), (0x8B6, 0x8C7, 6), (0x8D3, 0x8E1, 12), (0x8E2, 0x8E2, 3), (0x8E3, 0x903, 12),
   (0x904, 0x939, 6), (0x93A, 0x93C, 12), (0x93D, 0x93D, 6), (0x93E, 0x94F, 12), (0x950, 0x950, 6), (0x951, 0x957, 12),
   (0x958, 0x961, 6), (0x962, 0x963, 12), (0x964, 0x965, 9), (0x966, 0x96F, 5), (0x971, 0x980, 6), (0x981, 0x983, 12),
   (0x985, 0x98C, 6), (0x98F, 0x990, 6), (0x993, 0x9A8, 6), (0x9AA, 0x9B0, 6), (0x9B2, 0x9B2, 6), (0x9B6, 0x9B9, 6),
   (0x9BC, 0x9BC, 12), (0x9BD, 0x9BD, 6), (0x9BE, 0x9C4, 12), (0x9C7, 0x9C8, 12), (0x9CB, 0x9CD, 12), (0x9CE, 0x9CE, 6),
   (0x9D7, 0x9D7, 12), (0x9DC, 0x9DD, 6), (0x9DF, 0x9E1, 6), (0x9E2, 0x9E3, 12), (0x9E6, 0x9EF, 5), (0x9F0, 0x9F1, 6),
   (0x9FC, 0x9FC, 6), (0x9FE, 0x9FE, 12), (0xA01, 0xA03, 12), (0xA05, 0xA0A, 6), (0xA0F, 0xA10, 6), (0xA13, 0xA28, 6),
   (0xA2A, 0xA30, 6), (0xA32, 0xA33, 6), (0xA35, 0xA36, 6), (0xA38, 0xA39, 6), (0xA3C, 0xA3C, 12), (0xA3E, 0xA42, 12),
   (0xA47, 0xA48, 12), (0xA4B, 0xA4D, 12), (0xA51, 0xA51, 12), (0xA59, 0xA5C, 6), (0xA5E, 0xA5E, 6), (0xA66, 0xA6F, 5),
   (0xA70, 0xA71, 12), (0xA72, 0xA74, 6), (0xA75, 0xA75, 12), (0xA81, 0xA83, 12), (0xA85, 0xA8D, 6), (0xA8F, 0xA91, 6),
   (0xA93, 0xAA8, 6), (0xAAA, 0xAB0, 6), (0xAB2, 0xAB3, 6), (0xAB5, 0xAB9, 6), (0xABC, 0xABC, 12), (0xABD, 0xABD, 6),
   (0xABE, 0xAC5, 12), (0xAC7, 0xAC9, 12), (0xACB, 0xACD, 12), (0xAD0, 0xAD0, 6), (0xAE0, 0xAE1, 6), (0xAE2, 0xAE3, 12),
   (0xAE6, 0xAEF, 5), (0xAF9, 0xAF9, 6), (0xAFA, 0xAFF, 12), (0xB01, 0xB03, 12), (0xB05, 0xB0C, 6), (0xB0F, 0xB10, 6),
   (0xB13, 0xB28, 6), (0xB2A, 0xB30, 6), (0xB32, 0xB33, 6), (0xB35, 0xB39, 6), (0xB3C, 0xB3C, 12), (0xB3D, 0xB3D, 6),
   (0xB3E, 0xB44, 12), (0xB47, 0xB48, 12), (0xB4B, 0xB4D, 12), (0xB55, 0xB57, 12), (0xB5C, 0xB5D, 6), (0xB5F, 0xB61, 6),
   (0xB62, 0xB63, 12), (0xB66, 0xB6F, 5), (0xB71, 0xB71, 6), (0xB82, 0xB82, 12), (0xB83, 0xB83, 6), (0xB85, 0xB8A, 6),
   (0xB8E, 0xB90, 6), (0xB92, 0xB95, 6), (0xB99, 0xB9A, 6), (0xB9C, 0xB9C, 6), (0xB9E, 0xB9F, 6), (0xBA3, 0xBA4, 6),
   (0xBA8, 0xBAA, 6), (0xBAE, 0xBB9, 6), (0xBBE, 0xBC2, 12), (0xBC6, 0xBC8, 12), (0xBCA, 0xBCD, 12), (0xBD0, 0xBD0, 6),
   (0xBD7, 0xBD7, 12), (0xBE6, 0xBEF, 5), (0xC00, 0xC04, 12), (0xC05, 0xC0C, 6), (0xC0E, 0xC10, 6), (0xC12, 0xC28, 6),
   (0xC2A, 0xC39, 6), (0xC3D, 0xC3D, 6), (0xC3E, 0xC44, 12), (0xC46, 0xC48, 12), (0xC4A, 0xC4D, 12), (0xC55, 0xC56, 12),
   (0xC58, 0xC5A, 6), (0xC60, 0xC61, 6), (0xC62, 0xC63, 12), (0xC66, 0xC6F, 5), (0xC80, 0xC80, 6), (0xC81, 0xC83, 12),
   (0xC85, 0xC8C, 6), (0xC8E, 0xC90, 6), (0xC92, 0xCA8, 6), (0xCAA, 0xCB3, 6), (0xCB5, 0xCB9, 6), (0xCBC, 0xCBC, 12),
   (0xCBD, 0xCBD, 6), (0xCBE, 0xCC4, 12), (0xCC6, 0xCC8, 12), (0xCCA, 0xCCD, 12), (0xCD5, 0xCD6, 12), (0xCDE, 0xCDE, 6),
   (0xCE0, 0xCE1, 6), (0xCE2, 0xCE3, 12), (0xCE6, 0xCEF, 5), (0xCF1, 0xCF2, 6), (0xD00, 0xD03, 12), (0xD04, 0xD0C, 6),
   (0xD0E, 0xD10, 6), (0xD12, 0xD3A, 6), (0xD3B, 0xD3C, 12), (0xD3D, 0xD3D, 6), (0xD3E, 0xD44, 12), (0xD46, 0xD48, 12),
   (0xD4A, 0xD4D, 12), (0xD4E, 0xD4E, 6), (0xD54, 0xD56, 6), (0xD57, 0xD57, 12), (0xD5F, 0xD61, 6), (0xD62, 0xD63, 12),
   (0xD66, 0xD6F, 5), (0xD7A, 0xD7F, 6), (0xD81, 0xD83, 12), (0xD85, 0xD96, 6), (0xD9A, 0xDB1, 6), (0xDB3, 0xDBB, 6),
   (0xDBD, 0xDBD, 6), (0xDC0, 0xDC6, 6), (0xDCA, 0xDCA, 12), (0xDCF, 0xDD4, 12), (0xDD6, 0xDD6, 12), (0xDD8, 0xDDF, 12),
   (0xDE6, 0xDEF, 5), (0xDF2, 0xDF3, 12), (0xE01, 0xE30, 6), (0xE31, 0xE31, 12), (0xE32, 0xE33, 6), (0xE34, 0xE3A, 12),
   (0xE40, 0xE46, 6), (0xE47, 0xE4E, 12), (0xE50, 0xE59, 5), (0xE81, 0xE82, 6), (0xE84, 0xE84, 6), (0xE86, 0xE8A, 6),
   (0xE8C, 0xEA3, 6), (0xEA5, 0xEA5, 6), (0xEA7, 0xEB0, 6), (0xEB1, 0xEB1, 12), (0xEB2, 0xEB3, 6), (0xEB4, 0xEBC, 12),
   (0xEBD, 0xEBD, 6), (0xEC0, 0xEC4, 6), (0xEC6, 0xEC6, 6), (0xEC8, 0xECD, 12), (0xED0, 0xED9, 5), (0xEDC, 0xEDF, 6),
   (0xF00, 0xF00, 6), (0xF18, 0xF19, 12), (0xF20, 0xF29, 5), (0xF35, 0xF35, 12), (0xF37, 0xF37, 12), (0xF39, 0xF39, 12),
   (0xF3A, 0xF3D, 2), (0xF3E, 0xF3F, 12), (0xF40, 0xF47, 6), (0xF49, 0xF6C, 6), (0xF71, 0xF84, 12), (0xF86, 0xF87, 12),
   (0xF88, 0xF8C, 6), (0xF8D, 0xF97, 12), (0xF99, 0xFBC, 12), (0xFC6, 0xFC6, 12), (0x1000, 0x102A, 6), (0x102B, 0x103E, 12),
   (0x103F, 0x103F, 6), (0x1040, 0x1049, 5), (0x104A, 0x104B, 9), (0x1050, 0x1055, 6), (0x1056, 0x1059, 12), (0x105A, 0x105D, 6),
   (0x105E, 0x1060, 12), (0x1061, 0x1061, 6), (0x1062, 0x1064, 12), (0x1065, 0x1066, 6), (0x1067, 0x106D, 12), (0x106E, 0x1070, 6),
   (0x1071, 0x1074, 12), (0x1075, 0x1081, 6), (0x1082, 0x108D, 12), (0x108E, 0x108E, 6), (0x108F, 0x108F, 12), (0x1090, 0x1099, 5),
   (0x109A, 0x109D, 12), (0x10A0, 0x10C5, 10), (0x10C7, 0x10C7, 10), (0x10CD, 0x10CD, 10), (0x10D0, 0x10FA, 6), (0x10FC, 0x1248, 6),
   (0x124A, 0x124D, 6), (0x1250, 0x1256, 6), (0x1258, 0x1258, 6), (0x125A, 0x125D, 6), (0x1260, 0x1288, 6), (0x128A, 0x128D, 6),
   (0x1290, 0x12B0, 6), (0x12B2, 0x12B5, 6), (0x12B8, 0x12BE, 6), (0x12C0, 0x12C0, 6), (0x12C2, 0x12C5, 6), (0x12C8, 0x12D6, 6),
   (0x12D8, 0x1310, 6), (0x1312, 0x1315, 6), (0x1318, 0x135A, 6), (0x135D, 0x135F, 12), (0x1362, 0x1362, 9), (0x1367, 0x1368, 9),
   (0x1380, 0x138F, 6), (0x13A0, 0x13F5, 10), (0x13F8, 0x13FD, 4), (0x1401, 0x166C, 6), (0x166E, 0x166E, 9), (0x166F, 0x167F, 6)]

/-- Sentence_Break. Part 4. -/
def sentenceRuns_4 : List (Nat × Nat × Nat) :=
  [
   (0x1680, 0x1680, 8), (0x1681, 0x169A, 6), (0x169B, 0x169C, 2), (0x16A0, 0x16EA, 6), (0x16EE, 0x16F8, 6), (0x1700, 0x170C, 6),
   (0x170E, 0x1711, 6), (0x1712, 0x1714, 12), (0x1720, 0x1731, 6), (0x1732, 0x1734, 12), (0x1735, 0x1736, 9), (0x1740, 0x1751, 6),
   (0x1752, 0x1753, 12), (0x1760, 0x176C, 6), (0x176E, 0x1770, 6), (0x1772, 0x1773, 12), (0x1780, 0x17B3, 6), (0x17B4, 0x17D3, 12),
   (0x17D7, 0x17D7, 6), (0x17DC, 0x17DC, 6), (0x17DD, 0x17DD, 12), (0x17E0, 0x17E9, 5), (0x1802, 0x1802, 14), (0x1803, 0x1803, 9),
   (0x1808, 0x1808, 14), (0x1809, 0x1809, 9), (0x180B, 0x180D, 12), (0x180E, 0x180E, 3), (0x1810, 0x1819, 5), (0x1820, 0x1878, 6),
   (0x1880, 0x1884, 6), (0x1885, 0x1886, 12), (0x1887, 0x18A8, 6), (0x18A9, 0x18A9, 12), (0x18AA, 0x18AA, 6), (0x18B0, 0x18F5, 6),
   (0x1900, 0x191E, 6), (0x1920, 0x192B, 12), (0x1930, 0x193B, 12), (0x1944, 0x1945, 9), (0x1946, 0x194F, 5), (0x1950, 0x196D, 6),
   (0x1970, 0x1974, 6), (0x1980, 0x19AB, 6), (0x19B0, 0x19C9, 6), (0x19D0, 0x19D9, 5), (0x1A00, 0x1A16, 6), (0x1A17, 0x1A1B, 12),
   (0x1A20, 0x1A54, 6), (0x1A55, 0x1A5E, 12), (0x1A60, 0x1A7C, 12), (0x1A7F, 0x1A7F, 12), (0x1A80, 0x1A89, 5), (0x1A90, 0x1A99, 5),
   (0x1AA7, 0x1AA7, 6), (0x1AA8, 0x1AAB, 9), (0x1AB0, 0x1AC0, 12), (0x1B00, 0x1B04, 12), (0x1B05, 0x1B33, 6), (0x1B34, 0x1B44, 12),
   (0x1B45, 0x1B4B, 6), (0x1B50, 0x1B59, 5), (0x1B5A, 0x1B5B, 9), (0x1B5E, 0x1B5F, 9), (0x1B6B, 0x1B73, 12), (0x1B80, 0x1B82, 12),
   (0x1B83, 0x1BA0, 6), (0x1BA1, 0x1BAD, 12), (0x1BAE, 0x1BAF, 6), (0x1BB0, 0x1BB9, 5), (0x1BBA, 0x1BE5, 6), (0x1BE6, 0x1BF3, 12),
   (0x1C00, 0x1C23, 6), (0x1C24, 0x1C37, 12), (0x1C3B, 0x1C3C, 9), (0x1C40, 0x1C49, 5), (0x1C4D, 0x1C4F, 6), (0x1C50, 0x1C59, 5),
   (0x1C5A, 0x1C7D, 6), (0x1C7E, 0x1C7F, 9), (0x1C80, 0x1C88, 4), (0x1C90, 0x1CBA, 6), (0x1CBD, 0x1CBF, 6), (0x1CD0, 0x1CD2, 12),
   (0x1CD4, 0x1CE8, 12), (0x1CE9, 0x1CEC, 6), (0x1CED, 0x1CED, 12), (0x1CEE, 0x1CF3, 6), (0x1CF4, 0x1CF4, 12), (0x1CF5, 0x1CF6, 6),
   (0x1CF7, 0x1CF9, 12), (0x1CFA, 0x1CFA, 6), (0x1D00, 0x1DBF, 4), (0x1DC0, 0x1DF9, 12), (0x1DFB, 0x1DFF, 12), (0x1E00, 0x1E00, 10),
   (0x1E01, 0x1E01, 4), (0x1E02, 0x1E02, 10), (0x1E03, 0x1E03, 4), (0x1E04, 0x1E04, 10), (0x1E05, 0x1E05, 4), (0x1E06, 0x1E06, 10),
   (0x1E07, 0x1E07, 4), (0x1E08, 0x1E08, 10), (0x1E09, 0x1E09, 4), (0x1E0A, 0x1E0A, 10), (0x1E0B, 0x1E0B, 4), (0x1E0C, 0x1E0C, 10),
   (0x1E0D, 0x1E0D, 4), (0x1E0E, 0x1E0E, 10), (0x1E0F, 0x1E0F, 4), (0x1E10, 0x1E10, 10), (0x1E11, 0x1E11, 4), (0x1E12, 0x1E12, 10),
   (0x1E13, 0x1E13, 4), (0x1E14, 0x1E14, 10), (0x1E15, 0x1E15, 4), (0x1E16, 0x1E16, 10), (0x1E17, 0x1E17, 4), (0x1E18, 0x1E18, 10),
   (0x1E19, 0x1E19, 4), (0x1E1A, 0x1E1A, 10), (0x1E1B, 0x1E1B, 4), (0x1E1C, 0x1E1C, 10), (0x1E1D, 0x1E1D, 4), (0x1E1E, 0x1E1E, 10),
   (0x1E1F, 0x1E1F, 4), (0x1E20, 0x1E20, 10), (0x1E21, 0x1E21, 4), (0x1E22, 0x1E22, 10), (0x1E23, 0x1E23, 4), (0x1E24, 0x1E24, 10),
   (0x1E25, 0x1E25, 4), (0x1E26, 0x1E26, 10), (0x1E27, 0x1E27, 4), (0x1E28, 0x1E28, 10), (0x1E29, 0x1E29, 4), (0x1E2A, 0x1E2A, 10),
   (0x1E2B, 0x1E2B, 4), (0x1E2C, 0x1E2C, 10), (0x1E2D, 0x1E2D, 4), (0x1E2E, 0x1E2E, 10), (0x1E2F, 0x1E2F, 4), (0x1E30, 0x1E30, 10),
   (0x1E31, 0x1E31, 4), (0x1E32, 0x1E32, 10), (0x1E33, 0x1E33, 4), (0x1E34, 0x1E34, 10), (0x1E35, 0x1E35, 4), (0x1E36, 0x1E36, 10),
   (0x1E37, 0x1E37, 4), (0x1E38, 0x1E38, 10), (0x1E39, 0x1E39, 4), (0x1E3A, 0x1E3A, 10), (0x1E3B, 0x1E3B, 4), (0x1E3C, 0x1E3C, 10),
   (0x1E3D, 0x1E3D, 4), (0x1E3E, 0x1E3E, 10), (0x1E3F, 0x1E3F, 4), (0x1E40, 0x1E40, 10), (0x1E41, 0x1E41, 4), (0x1E42, 0x1E42, 10),
   (0x1E43, 0x1E43, 4), (0x1E44, 0x1E44, 10), (0x1E45, 0x1E45, 4), (0x1E46, 0x1E46, 10), (0x1E47, 0x1E47, 4), (0x1E48, 0x1E48, 10),
   (0x1E49, 0x1E49, 4), (0x1E4A, 0x1E4A, 10), (0x1E4B, 0x1E4B, 4), (0x1E4C, 0x1E4C, 10), (0x1E4D, 0x1E4D, 4), (0x1E4E, 0x1E4E, 10),
   (0x1E4F, 0x1E4F, 4), (0x1E50, 0x1E50, 10), (0x1E51, 0x1E51, 4), (0x1E52, 0x1E52, 10), (0x1E53, 0x1E53, 4), (0x1E54, 0x1E54, 10),
   (0x1E55, 0x1E55, 4), (0x1E56, 0x1E56, 10), (0x1E57, 0x1E57, 4), (0x1E58, 0x1E58, 10), (0x1E59, 0x1E59, 4), (0x1E5A, 0x1E5A, 10),
   (0x1E5B, 0x1E5B, 4), (0x1E5C, 0x1E5C, 10), (0x1E5D, 0x1E5D, 4), (0x1E5E, 0x1E5E, 10), (0x1E5F, 0x1E5F, 4), (0x1E60, 0x1E60, 10),
   (0x1E61, 0x1E61, 4), (0x1E62, 0x1E62, 10), (0x1E63, 0x1E63, 4), (0x1E64, 0x1E64, 10), (0x1E65, 0x1E65, 4), (0x1E66, 0x1E66, 10),
   (0x1E67, 0x1E67, 4), (0x1E68, 0x1E68, 10), (0x1E69, 0x1E69, 4), (0x1E6A, 0x1E6A, 10), (0x1E6B, 0x1E6B, 4), (0x1E6C, 0x1E6C, 10),
   (0x1E6D, 0x1E6D, 4), (0x1E6E, 0x1E6E, 10), (0x1E6F, 0x1E6F, 4), (0x1E70, 0x1E70, 10), (0x1E71, 0x1E71, 4), (0x1E72, 0x1E72, 10),
   (0x1E73, 0x1E73, 4), (0x1E74, 0x1E74, 10), (0x1E75, 0x1E75, 4), (0x1E76, 0x1E76, 10), (0x1E77, 0x1E77, 4), (0x1E78, 0x1E78, 10),
   (0x1E79, 0x1E79, 4), (0x1E7A, 0x1E7A, 10), (0x1E7B, 0x1E7B, 4), (0x1E7C, 0x1E7C, 10), (0x1E7D, 0x1E7D, 4), (0x1E7E, 0x1E7E, 10),
   (0x1E7F, 0x1E7F, 4), (0x1E80, 0x1E80, 10), (0x1E81, 0x1E81, 4), (0x1E82, 0x1E82, 10), (0x1E83, 0x1E83, 4), (0x1E84, 0x1E84, 10),
   (0x1E85, 0x1E85, 4), (0x1E86, 0x1E86, 10), (0x1E87, 0x1E87, 4), (0x1E88, 0x1E88, 10), (0x1E89, 0x1E89, 4), (0x1E8A, 0x1E8A, 10),
   (0x1E8B, 0x1E8B, 4), (0x1E8C, 0x1E8C, 10), (0x1E8D, 0x1E8D, 4), (0x1E8E, 0x1E8E, 10), (0x1E8F, 0x1E8F, 4), (0x1E90, 0x1E90, 10),
   (0x1E91, 0x1E91, 4), (0x1E92, 0x1E92, 10), (0x1E93, 0x1E93, 4), (0x1E94, 0x1E94, 10), (0x1E95, 0x1E9D, 4), (0x1E9E, 0x1E9E, 10),
   (0x1E9F, 0x1E9F, 4), (0x1EA0, 0x1EA0, 10), (0x1EA1, 0x1EA1, 4), (0x1EA2, 0x1EA2, 10), (0x1EA3, 0x1EA3, 4), (0x1EA4, 0x1EA4, 10),
   (0x1EA5, 0x1EA5, 4), (0x1EA6, 0x1EA6, 10), (0x1EA7, 0x1EA7, 4), (0x1EA8, 0x1EA8, 10), (0x1EA9, 0x1EA9, 4), (0x1EAA, 0x1EAA, 10),
   (0x1EAB, 0x1EAB, 4), (0x1EAC, 0x1EAC, 10), (0x1EAD, 0x1EAD, 4), (0x1EAE, 0x1EAE, 10), (0x1EAF, 0x1EAF, 4), (0x1EB0, 0x1EB0, 10),
   (0x1EB1, 0x1EB1, 4), (0x1EB2, 0x1EB2, 10), (0x1EB3, 0x1EB3, 4), (0x1EB4, 0x1EB4, 10), (0x1EB5, 0x1EB5, 4), (0x1EB6, 0x1EB6, 10),
   (0x1EB7, 0x1EB7, 4), (0x1EB8, 0x1EB8, 10), (0x1EB9, 0x1EB9, 4), (0x1EBA, 0x1EBA, 10), (0x1EBB, 0x1EBB, 4), (0x1EBC, 0x1EBC, 10),
   (0x1EBD, 0x1EBD, 4), (0x1EBE, 0x1EBE, 10), (0x1EBF, 0x1EBF, 4), (0x1EC0, 0x1EC0, 10), (0x1EC1, 0x1EC1, 4), (0x1EC2, 0x1EC2, 10),
   (0x1EC3, 0x1EC3, 4), (0x1EC4, 0x1EC4, 10), (0x1EC5, 0x1EC5, 4), (0x1EC6, 0x1EC6, 10), (0x1EC7, 0x1EC7, 4), (0x1EC8, 0x1EC8, 10),
   (0x1EC9, 0x1EC9, 4), (0x1ECA, 0x1ECA, 10), (0x1ECB, 0x1ECB, 4), (0x1ECC, 0x1ECC, 10), (0x1ECD, 0x1ECD, 4), (0x1ECE, 0x1ECE, 10),
   (0x1ECF, 0x1ECF, 4), (0x1ED0, 0x1ED0, 10), (0x1ED1, 0x1ED1, 4), (0x1ED2, 0x1ED2, 10), (0x1ED3, 0x1ED3, 4), (0x1ED4, 0x1ED4, 10)]

/-- Sentence_Break. Part 5. -/
def sentenceRuns_5 : List (Nat × Nat × Nat) :=
  [
   (0x1ED5, 0x1ED5, 4), (0x1ED6, 0x1ED6, 10), (0x1ED7, 0x1ED7, 4), (0x1ED8, 0x1ED8, 10), (0x1ED9, 0x1ED9, 4), (0x1EDA, 0x1EDA, 10),
   (0x1EDB, 0x1EDB, 4), (0x1EDC, 0x1EDC, 10), (0x1EDD, 0x1EDD, 4), (0x1EDE, 0x1EDE, 10), (0x1EDF, 0x1EDF, 4), (0x1EE0, 0x1EE0, 10),
   (0x1EE1, 0x1EE1, 4), (0x1EE2, 0x1EE2, 10), (0x1EE3, 0x1EE3, 4), (0x1EE4, 0x1EE4, 10), (0x1EE5, 0x1EE5, 4), (0x1EE6, 0x1EE6, 10),
   (0x1EE7, 0x1EE7, 4), (0x1EE8, 0x1EE8, 10), (0x1EE9, 0x1EE9, 4), (0x1EEA, 0x1EEA, 10), (0x1EEB, 0x1EEB, 4), (0x1EEC, 0x1EEC, 10),
   (0x1EED, 0x1EED, 4), (0x1EEE, 0x1EEE, 10), (0x1EEF, 0x1EEF, 4), (0x1EF0, 0x1EF0, 10), (0x1EF1, 0x1EF1, 4), (0x1EF2, 0x1EF2, 10),
   (0x1EF3, 0x1EF3, 4), (0x1EF4, 0x1EF4, 10), (0x1EF5, 0x1EF5, 4), (0x1EF6, 0x1EF6, 10), (0x1EF7, 0x1EF7, 4), (0x1EF8, 0x1EF8, 10),
   (0x1EF9, 0x1EF9, 4), (0x1EFA, 0x1EFA, 10), (0x1EFB, 0x1EFB, 4), (0x1EFC, 0x1EFC, 10), (0x1EFD, 0x1EFD, 4), (0x1EFE, 0x1EFE, 10),
   (0x1EFF, 0x1F07, 4), (0x1F08, 0x1F0F, 10), (0x1F10, 0x1F15, 4), (0x1F18, 0x1F1D, 10), (0x1F20, 0x1F27, 4), (0x1F28, 0x1F2F, 10),
   (0x1F30, 0x1F37, 4), (0x1F38, 0x1F3F, 10), (0x1F40, 0x1F45, 4), (0x1F48, 0x1F4D, 10), (0x1F50, 0x1F57, 4), (0x1F59, 0x1F59, 10),
   (0x1F5B, 0x1F5B, 10), (0x1F5D, 0x1F5D, 10), (0x1F5F, 0x1F5F, 10), (0x1F60, 0x1F67, 4), (0x1F68, 0x1F6F, 10), (0x1F70, 0x1F7D, 4),
   (0x1F80, 0x1F87, 4), (0x1F88, 0x1F8F, 10), (0x1F90, 0x1F97, 4), (0x1F98, 0x1F9F, 10), (0x1FA0, 0x1FA7, 4), (0x1FA8, 0x1FAF, 10),
   (0x1FB0, 0x1FB4, 4), (0x1FB6, 0x1FB7, 4), (0x1FB8, 0x1FBC, 10), (0x1FBE, 0x1FBE, 4), (0x1FC2, 0x1FC4, 4), (0x1FC6, 0x1FC7, 4),
   (0x1FC8, 0x1FCC, 10), (0x1FD0, 0x1FD3, 4), (0x1FD6, 0x1FD7, 4), (0x1FD8, 0x1FDB, 10), (0x1FE0, 0x1FE7, 4), (0x1FE8, 0x1FEC, 10),
   (0x1FF2, 0x1FF4, 4), (0x1FF6, 0x1FF7, 4), (0x1FF8, 0x1FFC, 10), (0x2000, 0x200A, 8), (0x200B, 0x200B, 3), (0x200C, 0x200D, 12),
   (0x200E, 0x200F, 3), (0x2013, 0x2014, 14), (0x2018, 0x201F, 2), (0x2024, 0x2024, 1), (0x2028, 0x2029, 7), (0x202A, 0x202E, 3),
   (0x202F, 0x202F, 8), (0x2039, 0x203A, 2), (0x203C, 0x203D, 9), (0x2045, 0x2046, 2), (0x2047, 0x2049, 9), (0x205F, 0x205F, 8),
   (0x2060, 0x2064, 3), (0x2066, 0x206F, 3), (0x2071, 0x2071, 4), (0x207D, 0x207E, 2), (0x207F, 0x207F, 4), (0x208D, 0x208E, 2),
   (0x2090, 0x209C, 4), (0x20D0, 0x20F0, 12), (0x2102, 0x2102, 10), (0x2107, 0x2107, 10), (0x210A, 0x210A, 4), (0x210B, 0x210D, 10),
   (0x210E, 0x210F, 4), (0x2110, 0x2112, 10), (0x2113, 0x2113, 4), (0x2115, 0x2115, 10), (0x2119, 0x211D, 10), (0x2124, 0x2124, 10),
   (0x2126, 0x2126, 10), (0x2128, 0x2128, 10), (0x212A, 0x212D, 10), (0x212F, 0x212F, 4), (0x2130, 0x2133, 10), (0x2134, 0x2134, 4),
   (0x2135, 0x2138, 6), (0x2139, 0x2139, 4), (0x213C, 0x213D, 4), (0x213E, 0x213F, 10), (0x2145, 0x2145, 10), (0x2146, 0x2149, 4),
   (0x214E, 0x214E, 4), (0x2160, 0x216F, 10), (0x2170, 0x217F, 4), (0x2180, 0x2182, 6), (0x2183, 0x2183, 10), (0x2184, 0x2184, 4),
   (0x2185, 0x2188, 6), (0x2308, 0x230B, 2), (0x2329, 0x232A, 2), (0x24B6, 0x24CF, 10), (0x24D0, 0x24E9, 4), (0x275B, 0x2760, 2),
   (0x2768, 0x2775, 2), (0x27C5, 0x27C6, 2), (0x27E6, 0x27EF, 2), (0x2983, 0x2998, 2), (0x29D8, 0x29DB, 2), (0x29FC, 0x29FD, 2),
   (0x2C00, 0x2C2E, 10), (0x2C30, 0x2C5E, 4), (0x2C60, 0x2C60, 10), (0x2C61, 0x2C61, 4), (0x2C62, 0x2C64, 10), (0x2C65, 0x2C66, 4),
   (0x2C67, 0x2C67, 10), (0x2C68, 0x2C68, 4), (0x2C69, 0x2C69, 10), (0x2C6A, 0x2C6A, 4), (0x2C6B, 0x2C6B, 10), (0x2C6C, 0x2C6C, 4),
   (0x2C6D, 0x2C70, 10), (0x2C71, 0x2C71, 4), (0x2C72, 0x2C72, 10), (0x2C73, 0x2C74, 4), (0x2C75, 0x2C75, 10), (0x2C76, 0x2C7D, 4),
   (0x2C7E, 0x2C80, 10), (0x2C81, 0x2C81, 4), (0x2C82, 0x2C82, 10), (0x2C83, 0x2C83, 4), (0x2C84, 0x2C84, 10), (0x2C85, 0x2C85, 4),
   (0x2C86, 0x2C86, 10), (0x2C87, 0x2C87, 4), (0x2C88, 0x2C88, 10), (0x2C89, 0x2C89, 4), (0x2C8A, 0x2C8A, 10), (0x2C8B, 0x2C8B, 4),
   (0x2C8C, 0x2C8C, 10), (0x2C8D, 0x2C8D, 4), (0x2C8E, 0x2C8E, 10), (0x2C8F, 0x2C8F, 4), (0x2C90, 0x2C90, 10), (0x2C91, 0x2C91, 4),
   (0x2C92, 0x2C92, 10), (0x2C93, 0x2C93, 4), (0x2C94, 0x2C94, 10), (0x2C95, 0x2C95, 4), (0x2C96, 0x2C96, 10), (0x2C97, 0x2C97, 4),
   (0x2C98, 0x2C98, 10), (0x2C99, 0x2C99, 4), (0x2C9A, 0x2C9A, 10), (0x2C9B, 0x2C9B, 4), (0x2C9C, 0x2C9C, 10), (0x2C9D, 0x2C9D, 4),
   (0x2C9E, 0x2C9E, 10), (0x2C9F, 0x2C9F, 4), (0x2CA0, 0x2CA0, 10), (0x2CA1, 0x2CA1, 4), (0x2CA2, 0x2CA2, 10), (0x2CA3, 0x2CA3, 4),
   (0x2CA4, 0x2CA4, 10), (0x2CA5, 0x2CA5, 4), (0x2CA6, 0x2CA6, 10), (0x2CA7, 0x2CA7, 4), (0x2CA8, 0x2CA8, 10), (0x2CA9, 0x2CA9, 4),
   (0x2CAA, 0x2CAA, 10), (0x2CAB, 0x2CAB, 4), (0x2CAC, 0x2CAC, 10), (0x2CAD, 0x2CAD, 4), (0x2CAE, 0x2CAE, 10), (0x2CAF, 0x2CAF, 4),
   (0x2CB0, 0x2CB0, 10), (0x2CB1, 0x2CB1, 4), (0x2CB2, 0x2CB2, 10), (0x2CB3, 0x2CB3, 4), (0x2CB4, 0x2CB4, 10), (0x2CB5, 0x2CB5, 4),
   (0x2CB6, 0x2CB6, 10), (0x2CB7, 0x2CB7, 4), (0x2CB8, 0x2CB8, 10), (0x2CB9, 0x2CB9, 4), (0x2CBA, 0x2CBA, 10), (0x2CBB, 0x2CBB, 4),
   (0x2CBC, 0x2CBC, 10), (0x2CBD, 0x2CBD, 4), (0x2CBE, 0x2CBE, 10), (0x2CBF, 0x2CBF, 4), (0x2CC0, 0x2CC0, 10), (0x2CC1, 0x2CC1, 4),
   (0x2CC2, 0x2CC2, 10), (0x2CC3, 0x2CC3, 4), (0x2CC4, 0x2CC4, 10), (0x2CC5, 0x2CC5, 4), (0x2CC6, 0x2CC6, 10), (0x2CC7, 0x2CC7, 4),
   (0x2CC8, 0x2CC8, 10), (0x2CC9, 0x2CC9, 4), (0x2CCA, 0x2CCA, 10), (0x2CCB, 0x2CCB, 4), (0x2CCC, 0x2CCC, 10), (0x2CCD, 0x2CCD, 4),
   (0x2CCE, 0x2CCE, 10), (0x2CCF, 0x2CCF, 4), (0x2CD0, 0x2CD0, 10), (0x2CD1, 0x2CD1, 4), (0x2CD2, 0x2CD2, 10), (0x2CD3, 0x2CD3, 4),
   (0x2CD4, 0x2CD4, 10), (0x2CD5, 0x2CD5, 4), (0x2CD6, 0x2CD6, 10), (0x2CD7, 0x2CD7, 4), (0x2CD8, 0x2CD8, 10), (0x2CD9, 0x2CD9, 4),
   (0x2CDA, 0x2CDA, 10), (0x2CDB, 0x2CDB, 4), (0x2CDC, 0x2CDC, 10), (0x2CDD, 0x2CDD, 4), (0x2CDE, 0x2CDE, 10), (0x2CDF, 0x2CDF, 4),
   (0x2CE0, 0x2CE0, 10), (0x2CE1, 0x2CE1, 4), (0x2CE2, 0x2CE2, 10), (0x2CE3, 0x2CE4, 4), (0x2CEB, 0x2CEB, 10), (0x2CEC, 0x2CEC, 4),
   (0x2CED, 0x2CED, 10), (0x2CEE, 0x2CEE, 4), (0x2CEF, 0x2CF1, 12), (0x2CF2, 0x2CF2, 10), (0x2CF3, 0x2CF3, 4), (0x2D00, 0x2D25, 4),
   (0x2D27, 0x2D27, 4), (0x2D2D, 0x2D2D, 4), (0x2D30, 0x2D67, 6), (0x2D6F, 0x2D6F, 6), (0x2D7F, 0x2D7F, 12), (0x2D80, 0x2D96, 6),
   (0x2DA0, 0x2DA6, 6), (0x2DA8, 0x2DAE, 6), (0x2DB0, 0x2DB6, 6), (0x2DB8, 0x2DBE, 6), (0x2DC0, 0x2DC6, 6), (0x2DC8, 0x2DCE, 6),
   (0x2DD0, 0x2DD6, 6), (0x2DD8, 0x2DDE, 6), (0x2DE0, 0x2DFF, 12), (0x2E00, 0x2E0D, 2), (0x2E1C, 0x2E1D, 2), (0x2E20, 0x2E29, 2),
   (0x2E2E, 0x2E2E, 9), (0x2E2F, 0x2E2F, 6), (0x2E3C, 0x2E3C, 9), (0x2E42, 0x2E42, 2), (0x3000, 0x3000, 8), (0x3001, 0x3001, 14),
   (0x3002, 0x3002, 9), (0x3005, 0x3007, 6), (0x3008, 0x3011, 2), (0x3014, 0x301B, 2), (0x301D, 0x301F, 2), (0x3021, 0x3029, 6)]

/-- Sentence_Break. Part 6. -/
def sentenceRuns_6 : List (Nat × Nat × Nat) :=
  [
   (0x302A, 0x302F, 12), (0x3031, 0x3035, 6), (0x3038, 0x303C, 6), (0x3041, 0x3096, 6), (0x3099, 0x309A, 12), (0x309D, 0x309F, 6),
   (0x30A1, 0x30FA, 6), (0x30FC, 0x30FF, 6), (0x3105, 0x312F, 6), (0x3131, 0x318E, 6), (0x31A0, 0x31BF, 6), (0x31F0, 0x31FF, 6),
   (0x3400, 0x4DBF, 6), (0x4E00, 0x9FFC, 6), (0xA000, 0xA48C, 6), (0xA4D0, 0xA4FD, 6), (0xA4FF, 0xA4FF, 9), (0xA500, 0xA60C, 6),
   (0xA60E, 0xA60F, 9), (0xA610, 0xA61F, 6), (0xA620, 0xA629, 5), (0xA62A, 0xA62B, 6), (0xA640, 0xA640, 10), (0xA641, 0xA641, 4),
   (0xA642, 0xA642, 10), (0xA643, 0xA643, 4), (0xA644, 0xA644, 10), (0xA645, 0xA645, 4), (0xA646, 0xA646, 10), (0xA647, 0xA647, 4),
   (0xA648, 0xA648, 10), (0xA649, 0xA649, 4), (0xA64A, 0xA64A, 10), (0xA64B, 0xA64B, 4), (0xA64C, 0xA64C, 10), (0xA64D, 0xA64D, 4),
   (0xA64E, 0xA64E, 10), (0xA64F, 0xA64F, 4), (0xA650, 0xA650, 10), (0xA651, 0xA651, 4), (0xA652, 0xA652, 10), (0xA653, 0xA653, 4),
   (0xA654, 0xA654, 10), (0xA655, 0xA655, 4), (0xA656, 0xA656, 10), (0xA657, 0xA657, 4), (0xA658, 0xA658, 10), (0xA659, 0xA659, 4),
   (0xA65A, 0xA65A, 10), (0xA65B, 0xA65B, 4), (0xA65C, 0xA65C, 10), (0xA65D, 0xA65D, 4), (0xA65E, 0xA65E, 10), (0xA65F, 0xA65F, 4),
   (0xA660, 0xA660, 10), (0xA661, 0xA661, 4), (0xA662, 0xA662, 10), (0xA663, 0xA663, 4), (0xA664, 0xA664, 10), (0xA665, 0xA665, 4),
   (0xA666, 0xA666, 10), (0xA667, 0xA667, 4), (0xA668, 0xA668, 10), (0xA669, 0xA669, 4), (0xA66A, 0xA66A, 10), (0xA66B, 0xA66B, 4),
   (0xA66C, 0xA66C, 10), (0xA66D, 0xA66D, 4), (0xA66E, 0xA66E, 6), (0xA66F, 0xA672, 12), (0xA674, 0xA67D, 12), (0xA67F, 0xA67F, 6),
   (0xA680, 0xA680, 10), (0xA681, 0xA681, 4), (0xA682, 0xA682, 10), (0xA683, 0xA683, 4), (0xA684, 0xA684, 10), (0xA685, 0xA685, 4),
   (0xA686, 0xA686, 10), (0xA687, 0xA687, 4), (0xA688, 0xA688, 10), (0xA689, 0xA689, 4), (0xA68A, 0xA68A, 10), (0xA68B, 0xA68B, 4),
   (0xA68C, 0xA68C, 10), (0xA68D, 0xA68D, 4), (0xA68E, 0xA68E, 10), (0xA68F, 0xA68F, 4), (0xA690, 0xA690, 10), (0xA691, 0xA691, 4),
   (0xA692, 0xA692, 10), (0xA693, 0xA693, 4), (0xA694, 0xA694, 10), (0xA695, 0xA695, 4), (0xA696, 0xA696, 10), (0xA697, 0xA697, 4),
   (0xA698, 0xA698, 10), (0xA699, 0xA699, 4), (0xA69A, 0xA69A, 10), (0xA69B, 0xA69D, 4), (0xA69E, 0xA69F, 12), (0xA6A0, 0xA6EF, 6),
   (0xA6F0, 0xA6F1, 12), (0xA6F3, 0xA6F3, 9), (0xA6F7, 0xA6F7, 9), (0xA717, 0xA71F, 6), (0xA722, 0xA722, 10), (0xA723, 0xA723, 4),
   (0xA724, 0xA724, 10), (0xA725, 0xA725, 4), (0xA726, 0xA726, 10), (0xA727, 0xA727, 4), (0xA728, 0xA728, 10), (0xA729, 0xA729, 4),
   (0xA72A, 0xA72A, 10), (0xA72B, 0xA72B, 4), (0xA72C, 0xA72C, 10), (0xA72D, 0xA72D, 4), (0xA72E, 0xA72E, 10), (0xA72F, 0xA731, 4),
   (0xA732, 0xA732, 10), (0xA733, 0xA733, 4), (0xA734, 0xA734, 10), (0xA735, 0xA735, 4), (0xA736, 0xA736, 10), (0xA737, 0xA737, 4),
   (0xA738, 0xA738, 10), (0xA739, 0xA739, 4), (0xA73A, 0xA73A, 10), (0xA73B, 0xA73B, 4), (0xA73C, 0xA73C, 10), (0xA73D, 0xA73D, 4),
   (0xA73E, 0xA73E, 10), (0xA73F, 0xA73F, 4), (0xA740, 0xA740, 10), (0xA741, 0xA741, 4), (0xA742, 0xA742, 10), (0xA743, 0xA743, 4),
   (0xA744, 0xA744, 10), (0xA745, 0xA745, 4), (0xA746, 0xA746, 10), (0xA747, 0xA747, 4), (0xA748, 0xA748, 10), (0xA749, 0xA749, 4),
   (0xA74A, 0xA74A, 10), (0xA74B, 0xA74B, 4), (0xA74C, 0xA74C, 10), (0xA74D, 0xA74D, 4), (0xA74E, 0xA74E, 10), (0xA74F, 0xA74F, 4),
   (0xA750, 0xA750, 10), (0xA751, 0xA751, 4), (0xA752, 0xA752, 10), (0xA753, 0xA753, 4), (0xA754, 0xA754, 10), (0xA755, 0xA755, 4),
   (0xA756, 0xA756, 10), (0xA757, 0xA757, 4), (0xA758, 0xA758, 10), (0xA759, 0xA759, 4), (0xA75A, 0xA75A, 10), (0xA75B, 0xA75B, 4),
   (0xA75C, 0xA75C, 10), (0xA75D, 0xA75D, 4), (0xA75E, 0xA75E, 10), (0xA75F, 0xA75F, 4), (0xA760, 0xA760, 10), (0xA761, 0xA761, 4),
   (0xA762, 0xA762, 10), (0xA763, 0xA763, 4), (0xA764, 0xA764, 10), (0xA765, 0xA765, 4), (0xA766, 0xA766, 10), (0xA767, 0xA767, 4),
   (0xA768, 0xA768, 10), (0xA769, 0xA769, 4), (0xA76A, 0xA76A, 10), (0xA76B, 0xA76B, 4), (0xA76C, 0xA76C, 10), (0xA76D, 0xA76D, 4),
   (0xA76E, 0xA76E, 10), (0xA76F, 0xA778, 4), (0xA779, 0xA779, 10), (0xA77A, 0xA77A, 4), (0xA77B, 0xA77B, 10), (0xA77C, 0xA77C, 4),
   (0xA77D, 0xA77E, 10), (0xA77F, 0xA77F, 4), (0xA780, 0xA780, 10), (0xA781, 0xA781, 4), (0xA782, 0xA782, 10), (0xA783, 0xA783, 4),
   (0xA784, 0xA784, 10), (0xA785, 0xA785, 4), (0xA786, 0xA786, 10), (0xA787, 0xA787, 4), (0xA788, 0xA788, 6), (0xA78B, 0xA78B, 10),
   (0xA78C, 0xA78C, 4), (0xA78D, 0xA78D, 10), (0xA78E, 0xA78E, 4), (0xA78F, 0xA78F, 6), (0xA790, 0xA790, 10), (0xA791, 0xA791, 4),
   (0xA792, 0xA792, 10), (0xA793, 0xA795, 4), (0xA796, 0xA796, 10), (0xA797, 0xA797, 4), (0xA798, 0xA798, 10), (0xA799, 0xA799, 4),
   (0xA79A, 0xA79A, 10), (0xA79B, 0xA79B, 4), (0xA79C, 0xA79C, 10), (0xA79D, 0xA79D, 4), (0xA79E, 0xA79E, 10), (0xA79F, 0xA79F, 4),
   (0xA7A0, 0xA7A0, 10), (0xA7A1, 0xA7A1, 4), (0xA7A2, 0xA7A2, 10), (0xA7A3, 0xA7A3, 4), (0xA7A4, 0xA7A4, 10), (0xA7A5, 0xA7A5, 4),
   (0xA7A6, 0xA7A6, 10), (0xA7A7, 0xA7A7, 4), (0xA7A8, 0xA7A8, 10), (0xA7A9, 0xA7A9, 4), (0xA7AA, 0xA7AE, 10), (0xA7AF, 0xA7AF, 4),
   (0xA7B0, 0xA7B4, 10), (0xA7B5, 0xA7B5, 4), (0xA7B6, 0xA7B6, 10), (0xA7B7, 0xA7B7, 4), (0xA7B8, 0xA7B8, 10), (0xA7B9, 0xA7B9, 4),
   (0xA7BA, 0xA7BA, 10), (0xA7BB, 0xA7BB, 4), (0xA7BC, 0xA7BC, 10), (0xA7BD, 0xA7BD, 4), (0xA7BE, 0xA7BE, 10), (0xA7BF, 0xA7BF, 4),
   (0xA7C2, 0xA7C2, 10), (0xA7C3, 0xA7C3, 4), (0xA7C4, 0xA7C7, 10), (0xA7C8, 0xA7C8, 4), (0xA7C9, 0xA7C9, 10), (0xA7CA, 0xA7CA, 4),
   (0xA7F5, 0xA7F5, 10), (0xA7F6, 0xA7F6, 4), (0xA7F7, 0xA7F7, 6), (0xA7F8, 0xA7FA, 4), (0xA7FB, 0xA801, 6), (0xA802, 0xA802, 12),
   (0xA803, 0xA805, 6), (0xA806, 0xA806, 12), (0xA807, 0xA80A, 6), (0xA80B, 0xA80B, 12), (0xA80C, 0xA822, 6), (0xA823, 0xA827, 12),
   (0xA82C, 0xA82C, 12), (0xA840, 0xA873, 6), (0xA876, 0xA877, 9), (0xA880, 0xA881, 12), (0xA882, 0xA8B3, 6), (0xA8B4, 0xA8C5, 12),
   (0xA8CE, 0xA8CF, 9), (0xA8D0, 0xA8D9, 5), (0xA8E0, 0xA8F1, 12), (0xA8F2, 0xA8F7, 6), (0xA8FB, 0xA8FB, 6), (0xA8FD, 0xA8FE, 6),
   (0xA8FF, 0xA8FF, 12), (0xA900, 0xA909, 5), (0xA90A, 0xA925, 6), (0xA926, 0xA92D, 12), (0xA92F, 0xA92F, 9), (0xA930, 0xA946, 6),
   (0xA947, 0xA953, 12), (0xA960, 0xA97C, 6), (0xA980, 0xA983, 12), (0xA984, 0xA9B2, 6), (0xA9B3, 0xA9C0, 12), (0xA9C8, 0xA9C9, 9),
   (0xA9CF, 0xA9CF, 6), (0xA9D0, 0xA9D9, 5), (0xA9E0, 0xA9E4, 6), (0xA9E5, 0xA9E5, 12), (0xA9E6, 0xA9EF, 6), (0xA9F0, 0xA9F9, 5),
   (0xA9FA, 0xA9FE, 6), (0xAA00, 0xAA28, 6), (0xAA29, 0xAA36, 12), (0xAA40, 0xAA42, 6), (0xAA43, 0xAA43, 12), (0xAA44, 0xAA4B, 6),
   (0xAA4C, 0xAA4D, 12), (0xAA50, 0xAA59, 5), (0xAA5D, 0xAA5F, 9), (0xAA60, 0xAA76, 6), (0xAA7A, 0xAA7A, 6), (0xAA7B, 0xAA7D, 12)]

/-- Sentence_Break. Part 7. -/
def sentenceRuns_7 : List (Nat × Nat × Nat) :=
  [
   (0xAA7E, 0xAAAF, 6), (0xAAB0, 0xAAB0, 12), (0xAAB1, 0xAAB1, 6), (0xAAB2, 0xAAB4, 12), (0xAAB5, 0xAAB6, 6), (0xAAB7, 0xAAB8, 12),
   (0xAAB9, 0xAABD, 6), (0xAABE, 0xAABF, 12), (0xAAC0, 0xAAC0, 6), (0xAAC1, 0xAAC1, 12), (0xAAC2, 0xAAC2, 6), (0xAADB, 0xAADD, 6),
   (0xAAE0, 0xAAEA, 6), (0xAAEB, 0xAAEF, 12), (0xAAF0, 0xAAF1, 9), (0xAAF2, 0xAAF4, 6), (0xAAF5, 0xAAF6, 12), (0xAB01, 0xAB06, 6),
   (0xAB09, 0xAB0E, 6), (0xAB11, 0xAB16, 6), (0xAB20, 0xAB26, 6), (0xAB28, 0xAB2E, 6), (0xAB30, 0xAB5A, 4), (0xAB5C, 0xAB68, 4),
   (0xAB69, 0xAB69, 6), (0xAB70, 0xABBF, 4), (0xABC0, 0xABE2, 6), (0xABE3, 0xABEA, 12), (0xABEB, 0xABEB, 9), (0xABEC, 0xABED, 12),
   (0xABF0, 0xABF9, 5), (0xAC00, 0xD7A3, 6), (0xD7B0, 0xD7C6, 6), (0xD7CB, 0xD7FB, 6), (0xF900, 0xFA6D, 6), (0xFA70, 0xFAD9, 6),
   (0xFB00, 0xFB06, 4), (0xFB13, 0xFB17, 4), (0xFB1D, 0xFB1D, 6), (0xFB1E, 0xFB1E, 12), (0xFB1F, 0xFB28, 6), (0xFB2A, 0xFB36, 6),
   (0xFB38, 0xFB3C, 6), (0xFB3E, 0xFB3E, 6), (0xFB40, 0xFB41, 6), (0xFB43, 0xFB44, 6), (0xFB46, 0xFBB1, 6), (0xFBD3, 0xFD3D, 6),
   (0xFD3E, 0xFD3F, 2), (0xFD50, 0xFD8F, 6), (0xFD92, 0xFDC7, 6), (0xFDF0, 0xFDFB, 6), (0xFE00, 0xFE0F, 12), (0xFE10, 0xFE11, 14),
   (0xFE13, 0xFE13, 14), (0xFE17, 0xFE18, 2), (0xFE20, 0xFE2F, 12), (0xFE31, 0xFE32, 14), (0xFE35, 0xFE44, 2), (0xFE47, 0xFE48, 2),
   (0xFE50, 0xFE51, 14), (0xFE52, 0xFE52, 1), (0xFE55, 0xFE55, 14), (0xFE56, 0xFE57, 9), (0xFE58, 0xFE58, 14), (0xFE59, 0xFE5E, 2),
   (0xFE63, 0xFE63, 14), (0xFE70, 0xFE74, 6), (0xFE76, 0xFEFC, 6), (0xFEFF, 0xFEFF, 3), (0xFF01, 0xFF01, 9), (0xFF08, 0xFF09, 2),
   (0xFF0C, 0xFF0D, 14), (0xFF0E, 0xFF0E, 1), (0xFF10, 0xFF19, 5), (0xFF1A, 0xFF1A, 14), (0xFF1F, 0xFF1F, 9), (0xFF21, 0xFF3A, 10),
   (0xFF3B, 0xFF3B, 2), (0xFF3D, 0xFF3D, 2), (0xFF41, 0xFF5A, 4), (0xFF5B, 0xFF5B, 2), (0xFF5D, 0xFF5D, 2), (0xFF5F, 0xFF60, 2),
   (0xFF61, 0xFF61, 9), (0xFF62, 0xFF63, 2), (0xFF64, 0xFF64, 14), (0xFF66, 0xFF9D, 6), (0xFF9E, 0xFF9F, 12), (0xFFA0, 0xFFBE, 6),
   (0xFFC2, 0xFFC7, 6), (0xFFCA, 0xFFCF, 6), (0xFFD2, 0xFFD7, 6), (0xFFDA, 0xFFDC, 6), (0xFFF9, 0xFFFB, 3), (0x10000, 0x1000B, 6),
   (0x1000D, 0x10026, 6), (0x10028, 0x1003A, 6), (0x1003C, 0x1003D, 6), (0x1003F, 0x1004D, 6), (0x10050, 0x1005D, 6),
   (0x10080, 0x100FA, 6), (0x10140, 0x10174, 6), (0x101FD, 0x101FD, 12), (0x10280, 0x1029C, 6), (0x102A0, 0x102D0, 6),
   (0x102E0, 0x102E0, 12), (0x10300, 0x1031F, 6), (0x1032D, 0x1034A, 6), (0x10350, 0x10375, 6), (0x10376, 0x1037A, 12),
   (0x10380, 0x1039D, 6), (0x103A0, 0x103C3, 6), (0x103C8, 0x103CF, 6), (0x103D1, 0x103D5, 6), (0x10400, 0x10427, 10),
   (0x10428, 0x1044F, 4), (0x10450, 0x1049D, 6), (0x104A0, 0x104A9, 5), (0x104B0, 0x104D3, 10), (0x104D8, 0x104FB, 4),
   (0x10500, 0x10527, 6), (0x10530, 0x10563, 6), (0x10600, 0x10736, 6), (0x10740, 0x10755, 6), (0x10760, 0x10767, 6),
   (0x10800, 0x10805, 6), (0x10808, 0x10808, 6), (0x1080A, 0x10835, 6), (0x10837, 0x10838, 6), (0x1083C, 0x1083C, 6),
   (0x1083F, 0x10855, 6), (0x10860, 0x10876, 6), (0x10880, 0x1089E, 6), (0x108E0, 0x108F2, 6), (0x108F4, 0x108F5, 6),
   (0x10900, 0x10915, 6), (0x10920, 0x10939, 6), (0x10980, 0x109B7, 6), (0x109BE, 0x109BF, 6), (0x10A00, 0x10A00, 6),
   (0x10A01, 0x10A03, 12), (0x10A05, 0x10A06, 12), (0x10A0C, 0x10A0F, 12), (0x10A10, 0x10A13, 6), (0x10A15, 0x10A17, 6),
   (0x10A19, 0x10A35, 6), (0x10A38, 0x10A3A, 12), (0x10A3F, 0x10A3F, 12), (0x10A56, 0x10A57, 9), (0x10A60, 0x10A7C, 6),
   (0x10A80, 0x10A9C, 6), (0x10AC0, 0x10AC7, 6), (0x10AC9, 0x10AE4, 6), (0x10AE5, 0x10AE6, 12), (0x10B00, 0x10B35, 6),
   (0x10B40, 0x10B55, 6), (0x10B60, 0x10B72, 6), (0x10B80, 0x10B91, 6), (0x10C00, 0x10C48, 6), (0x10C80, 0x10CB2, 10),
   (0x10CC0, 0x10CF2, 4), (0x10D00, 0x10D23, 6), (0x10D24, 0x10D27, 12), (0x10D30, 0x10D39, 5), (0x10E80, 0x10EA9, 6),
   (0x10EAB, 0x10EAC, 12), (0x10EB0, 0x10EB1, 6), (0x10F00, 0x10F1C, 6), (0x10F27, 0x10F27, 6), (0x10F30, 0x10F45, 6),
   (0x10F46, 0x10F50, 12), (0x10F55, 0x10F59, 9), (0x10FB0, 0x10FC4, 6), (0x10FE0, 0x10FF6, 6), (0x11000, 0x11002, 12),
   (0x11003, 0x11037, 6), (0x11038, 0x11046, 12), (0x11047, 0x11048, 9), (0x11066, 0x1106F, 5), (0x1107F, 0x11082, 12),
   (0x11083, 0x110AF, 6), (0x110B0, 0x110BA, 12), (0x110BD, 0x110BD, 3), (0x110BE, 0x110C1, 9), (0x110CD, 0x110CD, 3),
   (0x110D0, 0x110E8, 6), (0x110F0, 0x110F9, 5), (0x11100, 0x11102, 12), (0x11103, 0x11126, 6), (0x11127, 0x11134, 12),
   (0x11136, 0x1113F, 5), (0x11141, 0x11143, 9), (0x11144, 0x11144, 6), (0x11145, 0x11146, 12), (0x11147, 0x11147, 6),
   (0x11150, 0x11172, 6), (0x11173, 0x11173, 12), (0x11176, 0x11176, 6), (0x11180, 0x11182, 12), (0x11183, 0x111B2, 6),
   (0x111B3, 0x111C0, 12), (0x111C1, 0x111C4, 6), (0x111C5, 0x111C6, 9), (0x111C9, 0x111CC, 12), (0x111CD, 0x111CD, 9),
   (0x111CE, 0x111CF, 12), (0x111D0, 0x111D9, 5), (0x111DA, 0x111DA, 6), (0x111DC, 0x111DC, 6), (0x111DE, 0x111DF, 9),
   (0x11200, 0x11211, 6), (0x11213, 0x1122B, 6), (0x1122C, 0x11237, 12), (0x11238, 0x11239, 9), (0x1123B, 0x1123C, 9),
   (0x1123E, 0x1123E, 12), (0x11280, 0x11286, 6), (0x11288, 0x11288, 6), (0x1128A, 0x1128D, 6), (0x1128F, 0x1129D, 6),
   (0x1129F, 0x112A8, 6), (0x112A9, 0x112A9, 9), (0x112B0, 0x112DE, 6), (0x112DF, 0x112EA, 12), (0x112F0, 0x112F9, 5),
   (0x11300, 0x11303, 12), (0x11305, 0x1130C, 6), (0x1130F, 0x11310, 6), (0x11313, 0x11328, 6), (0x1132A, 0x11330, 6),
   (0x11332, 0x11333, 6), (0x11335, 0x11339, 6), (0x1133B, 0x1133C, 12), (0x1133D, 0x1133D, 6), (0x1133E, 0x11344, 12),
   (0x11347, 0x11348, 12), (0x1134B, 0x1134D, 12), (0x11350, 0x11350, 6), (0x11357, 0x11357, 12), (0x1135D, 0x11361, 6),
   (0x11362, 0x11363, 12), (0x11366, 0x1136C, 12), (0x11370, 0x11374, 12), (0x11400, 0x11434, 6), (0x11435, 0x11446, 12),
   (0x11447, 0x1144A, 6), (0x1144B, 0x1144C, 9), (0x11450, 0x11459, 5), (0x1145E, 0x1145E, 12), (0x1145F, 0x11461, 6),
   (0x11480, 0x114AF, 6), (0x114B0, 0x114C3, 12), (0x114C4, 0x114C5, 6), (0x114C7, 0x114C7, 6), (0x114D0, 0x114D9, 5),
   (0x11580, 0x115AE, 6), (0x115AF, 0x115B5, 12), (0x115B8, 0x115C0, 12), (0x115C2, 0x115C3, 9), (0x115C9, 0x115D7, 9),
   (0x115D8, 0x115DB, 6), (0x115DC, 0x115DD, 12), (0x11600, 0x1162F, 6), (0x11630, 0x11640, 12), (0x11641, 0x11642, 9),
   (0x11644, 0x11644, 6), (0x11650, 0x11659, 5), (0x11680, 0x116AA, 6), (0x116AB, 0x116B7, 12), (0x116B8, 0x116B8, 6),
   (0x116C0, 0x116C9, 5), (0x11700, 0x1171A, 6), (0x1171D, 0x1172B, 12), (0x11730, 0x11739, 5), (0x1173C, 0x1173E, 9),
   (0x11800, 0x1182B, 6), (0x1182C, 0x1183A, 12), (0x118A0, 0x118BF, 10), (0x118C0, 0x118DF, 4), (0x118E0, 0x118E9, 5),
   (0x118FF, 0x11906, 6), (0x11909, 0x11909, 6), (0x1190C, 0x11913, 6), (0x11915, 0x11916, 6), (0x11918, 0x1192F, 6),
   (0x11930, 0x11935, 12), (0x11937, 0x11938, 12), (0x1193B, 0x1193E, 12), (0x1193F, 0x1193F, 6), (0x11940, 0x11940, 12),
   (0x11941, 0x11941, 6), (0x11942, 0x11943, 12), (0x11944, 0x11944, 9), (0x11946, 0x11946, 9), (0x11950, 0x11959, 5),
   (0x119A0, 0x119A7, 6), (0x119AA, 0x119D0, 6), (0x119D1, 0x119D7, 12), (0x119DA, 0x119E0, 12)]

/-- Sentence_Break. Part 8. -/
def sentenceRuns_8 : List (Nat × Nat × Nat) :=
  [
   (0x119E1, 0x119E1, 6), (0x119E3, 0x119E3, 6), (0x119E4, 0x119E4, 12), (0x11A00, 0x11A00, 6), (0x11A01, 0x11A0A, 12),
   (0x11A0B, 0x11A32, 6), (0x11A33, 0x11A39, 12), (0x11A3A, 0x11A3A, 6), (0x11A3B, 0x11A3E, 12), (0x11A42, 0x11A43, 9),
   (0x11A47, 0x11A47, 12), (0x11A50, 0x11A50, 6), (0x11A51, 0x11A5B, 12), (0x11A5C, 0x11A89, 6), (0x11A8A, 0x11A99, 12),
   (0x11A9B, 0x11A9C, 9), (0x11A9D, 0x11A9D, 6), (0x11AC0, 0x11AF8, 6), (0x11C00, 0x11C08, 6), (0x11C0A, 0x11C2E, 6),
   (0x11C2F, 0x11C36, 12), (0x11C38, 0x11C3F, 12), (0x11C40, 0x11C40, 6), (0x11C41, 0x11C42, 9), (0x11C50, 0x11C59, 5),
   (0x11C72, 0x11C8F, 6), (0x11C92, 0x11CA7, 12), (0x11CA9, 0x11CB6, 12), (0x11D00, 0x11D06, 6), (0x11D08, 0x11D09, 6),
   (0x11D0B, 0x11D30, 6), (0x11D31, 0x11D36, 12), (0x11D3A, 0x11D3A, 12), (0x11D3C, 0x11D3D, 12), (0x11D3F, 0x11D45, 12),
   (0x11D46, 0x11D46, 6), (0x11D47, 0x11D47, 12), (0x11D50, 0x11D59, 5), (0x11D60, 0x11D65, 6), (0x11D67, 0x11D68, 6),
   (0x11D6A, 0x11D89, 6), (0x11D8A, 0x11D8E, 12), (0x11D90, 0x11D91, 12), (0x11D93, 0x11D97, 12), (0x11D98, 0x11D98, 6),
   (0x11DA0, 0x11DA9, 5), (0x11EE0, 0x11EF2, 6), (0x11EF3, 0x11EF6, 12), (0x11EF7, 0x11EF8, 9), (0x11FB0, 0x11FB0, 6),
   (0x12000, 0x12399, 6), (0x12400, 0x1246E, 6), (0x12480, 0x12543, 6), (0x13000, 0x1342E, 6), (0x13430, 0x13438, 3),
   (0x14400, 0x14646, 6), (0x16800, 0x16A38, 6), (0x16A40, 0x16A5E, 6), (0x16A60, 0x16A69, 5), (0x16A6E, 0x16A6F, 9),
   (0x16AD0, 0x16AED, 6), (0x16AF0, 0x16AF4, 12), (0x16AF5, 0x16AF5, 9), (0x16B00, 0x16B2F, 6), (0x16B30, 0x16B36, 12),
   (0x16B37, 0x16B38, 9), (0x16B40, 0x16B43, 6), (0x16B44, 0x16B44, 9), (0x16B50, 0x16B59, 5), (0x16B63, 0x16B77, 6),
   (0x16B7D, 0x16B8F, 6), (0x16E40, 0x16E5F, 10), (0x16E60, 0x16E7F, 4), (0x16E98, 0x16E98, 9), (0x16F00, 0x16F4A, 6),
   (0x16F4F, 0x16F4F, 12), (0x16F50, 0x16F50, 6), (0x16F51, 0x16F87, 12), (0x16F8F, 0x16F92, 12), (0x16F93, 0x16F9F, 6),
   (0x16FE0, 0x16FE1, 6), (0x16FE3, 0x16FE3, 6), (0x16FE4, 0x16FE4, 12), (0x16FF0, 0x16FF1, 12), (0x17000, 0x187F7, 6),
   (0x18800, 0x18CD5, 6), (0x18D00, 0x18D08, 6), (0x1B000, 0x1B11E, 6), (0x1B150, 0x1B152, 6), (0x1B164, 0x1B167, 6),
   (0x1B170, 0x1B2FB, 6), (0x1BC00, 0x1BC6A, 6), (0x1BC70, 0x1BC7C, 6), (0x1BC80, 0x1BC88, 6), (0x1BC90, 0x1BC99, 6),
   (0x1BC9D, 0x1BC9E, 12), (0x1BC9F, 0x1BC9F, 9), (0x1BCA0, 0x1BCA3, 3), (0x1D165, 0x1D169, 12), (0x1D16D, 0x1D172, 12),
   (0x1D173, 0x1D17A, 3), (0x1D17B, 0x1D182, 12), (0x1D185, 0x1D18B, 12), (0x1D1AA, 0x1D1AD, 12), (0x1D242, 0x1D244, 12),
   (0x1D400, 0x1D419, 10), (0x1D41A, 0x1D433, 4), (0x1D434, 0x1D44D, 10), (0x1D44E, 0x1D454, 4), (0x1D456, 0x1D467, 4),
   (0x1D468, 0x1D481, 10), (0x1D482, 0x1D49B, 4), (0x1D49C, 0x1D49C, 10), (0x1D49E, 0x1D49F, 10), (0x1D4A2, 0x1D4A2, 10),
   (0x1D4A5, 0x1D4A6, 10), (0x1D4A9, 0x1D4AC, 10), (0x1D4AE, 0x1D4B5, 10), (0x1D4B6, 0x1D4B9, 4), (0x1D4BB, 0x1D4BB, 4),
   (0x1D4BD, 0x1D4C3, 4), (0x1D4C5, 0x1D4CF, 4), (0x1D4D0, 0x1D4E9, 10), (0x1D4EA, 0x1D503, 4), (0x1D504, 0x1D505, 10),
   (0x1D507, 0x1D50A, 10), (0x1D50D, 0x1D514, 10), (0x1D516, 0x1D51C, 10), (0x1D51E, 0x1D537, 4), (0x1D538, 0x1D539, 10),
   (0x1D53B, 0x1D53E, 10), (0x1D540, 0x1D544, 10), (0x1D546, 0x1D546, 10), (0x1D54A, 0x1D550, 10), (0x1D552, 0x1D56B, 4),
   (0x1D56C, 0x1D585, 10), (0x1D586, 0x1D59F, 4), (0x1D5A0, 0x1D5B9, 10), (0x1D5BA, 0x1D5D3, 4), (0x1D5D4, 0x1D5ED, 10),
   (0x1D5EE, 0x1D607, 4), (0x1D608, 0x1D621, 10), (0x1D622, 0x1D63B, 4), (0x1D63C, 0x1D655, 10), (0x1D656, 0x1D66F, 4),
   (0x1D670, 0x1D689, 10), (0x1D68A, 0x1D6A5, 4), (0x1D6A8, 0x1D6C0, 10), (0x1D6C2, 0x1D6DA, 4), (0x1D6DC, 0x1D6E1, 4),
   (0x1D6E2, 0x1D6FA, 10), (0x1D6FC, 0x1D714, 4), (0x1D716, 0x1D71B, 4), (0x1D71C, 0x1D734, 10), (0x1D736, 0x1D74E, 4),
   (0x1D750, 0x1D755, 4), (0x1D756, 0x1D76E, 10), (0x1D770, 0x1D788, 4), (0x1D78A, 0x1D78F, 4), (0x1D790, 0x1D7A8, 10),
   (0x1D7AA, 0x1D7C2, 4), (0x1D7C4, 0x1D7C9, 4), (0x1D7CA, 0x1D7CA, 10), (0x1D7CB, 0x1D7CB, 4), (0x1D7CE, 0x1D7FF, 5),
   (0x1DA00, 0x1DA36, 12), (0x1DA3B, 0x1DA6C, 12), (0x1DA75, 0x1DA75, 12), (0x1DA84, 0x1DA84, 12), (0x1DA88, 0x1DA88, 9),
   (0x1DA9B, 0x1DA9F, 12), (0x1DAA1, 0x1DAAF, 12), (0x1E000, 0x1E006, 12), (0x1E008, 0x1E018, 12), (0x1E01B, 0x1E021, 12),
   (0x1E023, 0x1E024, 12), (0x1E026, 0x1E02A, 12), (0x1E100, 0x1E12C, 6), (0x1E130, 0x1E136, 12), (0x1E137, 0x1E13D, 6),
   (0x1E140, 0x1E149, 5), (0x1E14E, 0x1E14E, 6), (0x1E2C0, 0x1E2EB, 6), (0x1E2EC, 0x1E2EF, 12), (0x1E2F0, 0x1E2F9, 5),
   (0x1E800, 0x1E8C4, 6), (0x1E8D0, 0x1E8D6, 12), (0x1E900, 0x1E921, 10), (0x1E922, 0x1E943, 4), (0x1E944, 0x1E94A, 12),
   (0x1E94B, 0x1E94B, 6), (0x1E950, 0x1E959, 5), (0x1EE00, 0x1EE03, 6), (0x1EE05, 0x1EE1F, 6), (0x1EE21, 0x1EE22, 6),
   (0x1EE24, 0x1EE24, 6), (0x1EE27, 0x1EE27, 6), (0x1EE29, 0x1EE32, 6), (0x1EE34, 0x1EE37, 6), (0x1EE39, 0x1EE39, 6),
   (0x1EE3B, 0x1EE3B, 6), (0x1EE42, 0x1EE42, 6), (0x1EE47, 0x1EE47, 6), (0x1EE49, 0x1EE49, 6), (0x1EE4B, 0x1EE4B, 6),
   (0x1EE4D, 0x1EE4F, 6), (0x1EE51, 0x1EE52, 6), (0x1EE54, 0x1EE54, 6), (0x1EE57, 0x1EE57, 6), (0x1EE59, 0x1EE59, 6),
   (0x1EE5B, 0x1EE5B, 6), (0x1EE5D, 0x1EE5D, 6), (0x1EE5F, 0x1EE5F, 6), (0x1EE61, 0x1EE62, 6), (0x1EE64, 0x1EE64, 6),
   (0x1EE67, 0x1EE6A, 6), (0x1EE6C, 0x1EE72, 6), (0x1EE74, 0x1EE77, 6), (0x1EE79, 0x1EE7C, 6), (0x1EE7E, 0x1EE7E, 6),
   (0x1EE80, 0x1EE89, 6), (0x1EE8B, 0x1EE9B, 6), (0x1EEA1, 0x1EEA3, 6), (0x1EEA5, 0x1EEA9, 6), (0x1EEAB, 0x1EEBB, 6),
   (0x1F130, 0x1F149, 10), (0x1F150, 0x1F169, 10), (0x1F170, 0x1F189, 10), (0x1F676, 0x1F678, 2), (0x1FBF0, 0x1FBF9, 5),
   (0x20000, 0x2A6DD, 6), (0x2A700, 0x2B734, 6), (0x2B740, 0x2B81D, 6), (0x2B820, 0x2CEA1, 6), (0x2CEB0, 0x2EBE0, 6),
   (0x2F800, 0x2FA1D, 6), (0x30000, 0x3134A, 6), (0xE0001, 0xE0001, 3), (0xE0020, 0xE007F, 12), (0xE0100, 0xE01EF, 12)]

/-- Sentence_Break. -/
def sentenceRuns : List (Nat × Nat × Nat) :=
  sentenceRuns_1 ++ (sentenceRuns_2 ++ (sentenceRuns_3 ++ (sentenceRuns_4 ++ (sentenceRuns_5 ++ (sentenceRuns_6 ++
    (sentenceRuns_7 ++ (sentenceRuns_8)))))))

end Verif.Spec
