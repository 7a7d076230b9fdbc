/-!
# Ages of the Unicode standard, version 13.0

DerivedAge.txt. Lines `first, last, value` in ascending order; code points in none of them have the default value. The
value of version 5.2 is 52; the default is 0, for unassigned code points.
-/
namespace Verif.Spec
set_option maxRecDepth 10000

/-- Age. Part 1. -/
def ageRuns_1 : List (Nat × Nat × Nat) :=
  [
   (0x0, 0x1F5, 11), (0x1F6, 0x1F9, 30), (0x1FA, 0x217, 11), (0x218, 0x21F, 30), (0x220, 0x220, 32), (0x221, 0x221, 40),
   (0x222, 0x233, 30), (0x234, 0x236, 40), (0x237, 0x241, 41), (0x242, 0x24F, 50), (0x250, 0x2A8, 11), (0x2A9, 0x2AD, 30),
   (0x2AE, 0x2AF, 40), (0x2B0, 0x2DE, 11), (0x2DF, 0x2DF, 30), (0x2E0, 0x2E9, 11), (0x2EA, 0x2EE, 30), (0x2EF, 0x2FF, 40),
   (0x300, 0x345, 11), (0x346, 0x34E, 30), (0x34F, 0x34F, 32), (0x350, 0x357, 40), (0x358, 0x35C, 41), (0x35D, 0x35F, 40),
   (0x360, 0x361, 11), (0x362, 0x362, 30), (0x363, 0x36F, 32), (0x370, 0x373, 51), (0x374, 0x375, 11), (0x376, 0x377, 51),
   (0x37A, 0x37A, 11), (0x37B, 0x37D, 50), (0x37E, 0x37E, 11), (0x37F, 0x37F, 70), (0x384, 0x38A, 11), (0x38C, 0x38C, 11),
   (0x38E, 0x3A1, 11), (0x3A3, 0x3CE, 11), (0x3CF, 0x3CF, 51), (0x3D0, 0x3D6, 11), (0x3D7, 0x3D7, 30), (0x3D8, 0x3D9, 32),
   (0x3DA, 0x3DA, 11), (0x3DB, 0x3DB, 30), (0x3DC, 0x3DC, 11), (0x3DD, 0x3DD, 30), (0x3DE, 0x3DE, 11), (0x3DF, 0x3DF, 30),
   (0x3E0, 0x3E0, 11), (0x3E1, 0x3E1, 30), (0x3E2, 0x3F3, 11), (0x3F4, 0x3F5, 31), (0x3F6, 0x3F6, 32), (0x3F7, 0x3FB, 40),
   (0x3FC, 0x3FF, 41), (0x400, 0x400, 30), (0x401, 0x40C, 11), (0x40D, 0x40D, 30), (0x40E, 0x44F, 11), (0x450, 0x450, 30),
   (0x451, 0x45C, 11), (0x45D, 0x45D, 30), (0x45E, 0x486, 11), (0x487, 0x487, 51), (0x488, 0x489, 30), (0x48A, 0x48B, 32),
   (0x48C, 0x48F, 30), (0x490, 0x4C4, 11), (0x4C5, 0x4C6, 32), (0x4C7, 0x4C8, 11), (0x4C9, 0x4CA, 32), (0x4CB, 0x4CC, 11),
   (0x4CD, 0x4CE, 32), (0x4CF, 0x4CF, 50), (0x4D0, 0x4EB, 11), (0x4EC, 0x4ED, 30), (0x4EE, 0x4F5, 11), (0x4F6, 0x4F7, 41),
   (0x4F8, 0x4F9, 11), (0x4FA, 0x4FF, 50), (0x500, 0x50F, 32), (0x510, 0x513, 50), (0x514, 0x523, 51), (0x524, 0x525, 52),
   (0x526, 0x527, 60), (0x528, 0x52F, 70), (0x531, 0x556, 11), (0x559, 0x55F, 11), (0x560, 0x560, 110), (0x561, 0x587, 11),
   (0x588, 0x588, 110), (0x589, 0x589, 11), (0x58A, 0x58A, 30), (0x58D, 0x58E, 70), (0x58F, 0x58F, 61), (0x591, 0x5A1, 20),
   (0x5A2, 0x5A2, 41), (0x5A3, 0x5AF, 20), (0x5B0, 0x5B9, 11), (0x5BA, 0x5BA, 50), (0x5BB, 0x5C3, 11), (0x5C4, 0x5C4, 20),
   (0x5C5, 0x5C7, 41), (0x5D0, 0x5EA, 11), (0x5EF, 0x5EF, 110), (0x5F0, 0x5F4, 11), (0x600, 0x603, 40), (0x604, 0x604, 61),
   (0x605, 0x605, 70), (0x606, 0x60A, 51), (0x60B, 0x60B, 41), (0x60C, 0x60C, 11), (0x60D, 0x615, 40), (0x616, 0x61A, 51),
   (0x61B, 0x61B, 11), (0x61C, 0x61C, 63), (0x61E, 0x61E, 41), (0x61F, 0x61F, 11), (0x620, 0x620, 60), (0x621, 0x63A, 11),
   (0x63B, 0x63F, 51), (0x640, 0x652, 11), (0x653, 0x655, 30), (0x656, 0x658, 40), (0x659, 0x65E, 41), (0x65F, 0x65F, 60),
   (0x660, 0x66D, 11), (0x66E, 0x66F, 32), (0x670, 0x6B7, 11), (0x6B8, 0x6B9, 30), (0x6BA, 0x6BE, 11), (0x6BF, 0x6BF, 30),
   (0x6C0, 0x6CE, 11), (0x6CF, 0x6CF, 30), (0x6D0, 0x6ED, 11), (0x6EE, 0x6EF, 40), (0x6F0, 0x6F9, 11), (0x6FA, 0x6FE, 30),
   (0x6FF, 0x6FF, 40), (0x700, 0x70D, 30), (0x70F, 0x72C, 30), (0x72D, 0x72F, 40), (0x730, 0x74A, 30), (0x74D, 0x74F, 40),
   (0x750, 0x76D, 41), (0x76E, 0x77F, 51), (0x780, 0x7B0, 30), (0x7B1, 0x7B1, 32), (0x7C0, 0x7FA, 50), (0x7FD, 0x7FF, 110),
   (0x800, 0x82D, 52), (0x830, 0x83E, 52), (0x840, 0x85B, 60), (0x85E, 0x85E, 60), (0x860, 0x86A, 100), (0x8A0, 0x8A0, 61),
   (0x8A1, 0x8A1, 70), (0x8A2, 0x8AC, 61), (0x8AD, 0x8B2, 70), (0x8B3, 0x8B4, 80), (0x8B6, 0x8BD, 90), (0x8BE, 0x8C7, 130),
   (0x8D3, 0x8D3, 110), (0x8D4, 0x8E2, 90), (0x8E3, 0x8E3, 80), (0x8E4, 0x8FE, 61), (0x8FF, 0x8FF, 70), (0x900, 0x900, 52),
   (0x901, 0x903, 11), (0x904, 0x904, 40), (0x905, 0x939, 11), (0x93A, 0x93B, 60), (0x93C, 0x94D, 11), (0x94E, 0x94E, 52),
   (0x94F, 0x94F, 60), (0x950, 0x954, 11), (0x955, 0x955, 52), (0x956, 0x957, 60), (0x958, 0x970, 11), (0x971, 0x972, 51),
   (0x973, 0x977, 60), (0x978, 0x978, 70), (0x979, 0x97A, 52), (0x97B, 0x97C, 50), (0x97D, 0x97D, 41), (0x97E, 0x97F, 50),
   (0x980, 0x980, 70), (0x981, 0x983, 11), (0x985, 0x98C, 11), (0x98F, 0x990, 11), (0x993, 0x9A8, 11), (0x9AA, 0x9B0, 11),
   (0x9B2, 0x9B2, 11), (0x9B6, 0x9B9, 11), (0x9BC, 0x9BC, 11), (0x9BD, 0x9BD, 40), (0x9BE, 0x9C4, 11), (0x9C7, 0x9C8, 11),
   (0x9CB, 0x9CD, 11), (0x9CE, 0x9CE, 41), (0x9D7, 0x9D7, 11), (0x9DC, 0x9DD, 11), (0x9DF, 0x9E3, 11), (0x9E6, 0x9FA, 11),
   (0x9FB, 0x9FB, 52), (0x9FC, 0x9FD, 100), (0x9FE, 0x9FE, 110), (0xA01, 0xA01, 40), (0xA02, 0xA02, 11), (0xA03, 0xA03, 40),
   (0xA05, 0xA0A, 11), (0xA0F, 0xA10, 11), (0xA13, 0xA28, 11), (0xA2A, 0xA30, 11), (0xA32, 0xA33, 11), (0xA35, 0xA36, 11),
   (0xA38, 0xA39, 11), (0xA3C, 0xA3C, 11), (0xA3E, 0xA42, 11), (0xA47, 0xA48, 11), (0xA4B, 0xA4D, 11), (0xA51, 0xA51, 51),
   (0xA59, 0xA5C, 11), (0xA5E, 0xA5E, 11), (0xA66, 0xA74, 11), (0xA75, 0xA75, 51), (0xA76, 0xA76, 110), (0xA81, 0xA83, 11),
   (0xA85, 0xA8B, 11), (0xA8C, 0xA8C, 40), (0xA8D, 0xA8D, 11), (0xA8F, 0xA91, 11), (0xA93, 0xAA8, 11), (0xAAA, 0xAB0, 11),
   (0xAB2, 0xAB3, 11), (0xAB5, 0xAB9, 11), (0xABC, 0xAC5, 11), (0xAC7, 0xAC9, 11), (0xACB, 0xACD, 11), (0xAD0, 0xAD0, 11),
   (0xAE0, 0xAE0, 11), (0xAE1, 0xAE3, 40), (0xAE6, 0xAEF, 11), (0xAF0, 0xAF0, 61), (0xAF1, 0xAF1, 40), (0xAF9, 0xAF9, 80),
   (0xAFA, 0xAFF, 100), (0xB01, 0xB03, 11), (0xB05, 0xB0C, 11), (0xB0F, 0xB10, 11), (0xB13, 0xB28, 11), (0xB2A, 0xB30, 11),
   (0xB32, 0xB33, 11), (0xB35, 0xB35, 40), (0xB36, 0xB39, 11), (0xB3C, 0xB43, 11), (0xB44, 0xB44, 51), (0xB47, 0xB48, 11),
   (0xB4B, 0xB4D, 11), (0xB55, 0xB55, 130), (0xB56, 0xB57, 11), (0xB5C, 0xB5D, 11), (0xB5F, 0xB61, 11), (0xB62, 0xB63, 51),
   (0xB66, 0xB70, 11), (0xB71, 0xB71, 40), (0xB72, 0xB77, 60), (0xB82, 0xB83, 11), (0xB85, 0xB8A, 11), (0xB8E, 0xB90, 11),
   (0xB92, 0xB95, 11), (0xB99, 0xB9A, 11), (0xB9C, 0xB9C, 11), (0xB9E, 0xB9F, 11), (0xBA3, 0xBA4, 11), (0xBA8, 0xBAA, 11),
   (0xBAE, 0xBB5, 11), (0xBB6, 0xBB6, 41), (0xBB7, 0xBB9, 11), (0xBBE, 0xBC2, 11), (0xBC6, 0xBC8, 11), (0xBCA, 0xBCD, 11),
   (0xBD0, 0xBD0, 51), (0xBD7, 0xBD7, 11), (0xBE6, 0xBE6, 41), (0xBE7, 0xBF2, 11), (0xBF3, 0xBFA, 40), (0xC00, 0xC00, 70),
   (0xC01, 0xC03, 11), (0xC04, 0xC04, 110), (0xC05, 0xC0C, 11), (0xC0E, 0xC10, 11), (0xC12, 0xC28, 11), (0xC2A, 0xC33, 11),
   (0xC34, 0xC34, 70), (0xC35, 0xC39, 11), (0xC3D, 0xC3D, 51), (0xC3E, 0xC44, 11), (0xC46, 0xC48, 11), (0xC4A, 0xC4D, 11)]

/-- Age. Part 2. -/
def ageRuns_2 : List (Nat × Nat × Nat) :=
  [
   (0xC55, 0xC56, 11), (0xC58, 0xC59, 51), (0xC5A, 0xC5A, 80), (0xC60, 0xC61, 11), (0xC62, 0xC63, 51), (0xC66, 0xC6F, 11),
   (0xC77, 0xC77, 120), (0xC78, 0xC7F, 51), (0xC80, 0xC80, 90), (0xC81, 0xC81, 70), (0xC82, 0xC83, 11), (0xC84, 0xC84, 110),
   (0xC85, 0xC8C, 11), (0xC8E, 0xC90, 11), (0xC92, 0xCA8, 11), (0xCAA, 0xCB3, 11), (0xCB5, 0xCB9, 11), (0xCBC, 0xCBD, 40),
   (0xCBE, 0xCC4, 11), (0xCC6, 0xCC8, 11), (0xCCA, 0xCCD, 11), (0xCD5, 0xCD6, 11), (0xCDE, 0xCDE, 11), (0xCE0, 0xCE1, 11),
   (0xCE2, 0xCE3, 50), (0xCE6, 0xCEF, 11), (0xCF1, 0xCF2, 50), (0xD00, 0xD00, 100), (0xD01, 0xD01, 70), (0xD02, 0xD03, 11),
   (0xD04, 0xD04, 130), (0xD05, 0xD0C, 11), (0xD0E, 0xD10, 11), (0xD12, 0xD28, 11), (0xD29, 0xD29, 60), (0xD2A, 0xD39, 11),
   (0xD3A, 0xD3A, 60), (0xD3B, 0xD3C, 100), (0xD3D, 0xD3D, 51), (0xD3E, 0xD43, 11), (0xD44, 0xD44, 51), (0xD46, 0xD48, 11),
   (0xD4A, 0xD4D, 11), (0xD4E, 0xD4E, 60), (0xD4F, 0xD4F, 90), (0xD54, 0xD56, 90), (0xD57, 0xD57, 11), (0xD58, 0xD5E, 90),
   (0xD5F, 0xD5F, 80), (0xD60, 0xD61, 11), (0xD62, 0xD63, 51), (0xD66, 0xD6F, 11), (0xD70, 0xD75, 51), (0xD76, 0xD78, 90),
   (0xD79, 0xD7F, 51), (0xD81, 0xD81, 130), (0xD82, 0xD83, 30), (0xD85, 0xD96, 30), (0xD9A, 0xDB1, 30), (0xDB3, 0xDBB, 30),
   (0xDBD, 0xDBD, 30), (0xDC0, 0xDC6, 30), (0xDCA, 0xDCA, 30), (0xDCF, 0xDD4, 30), (0xDD6, 0xDD6, 30), (0xDD8, 0xDDF, 30),
   (0xDE6, 0xDEF, 70), (0xDF2, 0xDF4, 30), (0xE01, 0xE3A, 11), (0xE3F, 0xE5B, 11), (0xE81, 0xE82, 11), (0xE84, 0xE84, 11),
   (0xE86, 0xE86, 120), (0xE87, 0xE88, 11), (0xE89, 0xE89, 120), (0xE8A, 0xE8A, 11), (0xE8C, 0xE8C, 120), (0xE8D, 0xE8D, 11),
   (0xE8E, 0xE93, 120), (0xE94, 0xE97, 11), (0xE98, 0xE98, 120), (0xE99, 0xE9F, 11), (0xEA0, 0xEA0, 120), (0xEA1, 0xEA3, 11),
   (0xEA5, 0xEA5, 11), (0xEA7, 0xEA7, 11), (0xEA8, 0xEA9, 120), (0xEAA, 0xEAB, 11), (0xEAC, 0xEAC, 120), (0xEAD, 0xEB9, 11),
   (0xEBA, 0xEBA, 120), (0xEBB, 0xEBD, 11), (0xEC0, 0xEC4, 11), (0xEC6, 0xEC6, 11), (0xEC8, 0xECD, 11), (0xED0, 0xED9, 11),
   (0xEDC, 0xEDD, 11), (0xEDE, 0xEDF, 61), (0xF00, 0xF47, 20), (0xF49, 0xF69, 20), (0xF6A, 0xF6A, 30), (0xF6B, 0xF6C, 51),
   (0xF71, 0xF8B, 20), (0xF8C, 0xF8F, 60), (0xF90, 0xF95, 20), (0xF96, 0xF96, 30), (0xF97, 0xF97, 20), (0xF99, 0xFAD, 20),
   (0xFAE, 0xFB0, 30), (0xFB1, 0xFB7, 20), (0xFB8, 0xFB8, 30), (0xFB9, 0xFB9, 20), (0xFBA, 0xFBC, 30), (0xFBE, 0xFCC, 30),
   (0xFCE, 0xFCE, 51), (0xFCF, 0xFCF, 30), (0xFD0, 0xFD1, 41), (0xFD2, 0xFD4, 51), (0xFD5, 0xFD8, 52), (0xFD9, 0xFDA, 60),
   (0x1000, 0x1021, 30), (0x1022, 0x1022, 51), (0x1023, 0x1027, 30), (0x1028, 0x1028, 51), (0x1029, 0x102A, 30),
   (0x102B, 0x102B, 51), (0x102C, 0x1032, 30), (0x1033, 0x1035, 51), (0x1036, 0x1039, 30), (0x103A, 0x103F, 51),
   (0x1040, 0x1059, 30), (0x105A, 0x1099, 51), (0x109A, 0x109D, 52), (0x109E, 0x109F, 51), (0x10A0, 0x10C5, 11),
   (0x10C7, 0x10C7, 61), (0x10CD, 0x10CD, 61), (0x10D0, 0x10F6, 11), (0x10F7, 0x10F8, 32), (0x10F9, 0x10FA, 41),
   (0x10FB, 0x10FB, 11), (0x10FC, 0x10FC, 41), (0x10FD, 0x10FF, 61), (0x1100, 0x1159, 11), (0x115A, 0x115E, 52),
   (0x115F, 0x11A2, 11), (0x11A3, 0x11A7, 52), (0x11A8, 0x11F9, 11), (0x11FA, 0x11FF, 52), (0x1200, 0x1206, 30),
   (0x1207, 0x1207, 41), (0x1208, 0x1246, 30), (0x1247, 0x1247, 41), (0x1248, 0x1248, 30), (0x124A, 0x124D, 30),
   (0x1250, 0x1256, 30), (0x1258, 0x1258, 30), (0x125A, 0x125D, 30), (0x1260, 0x1286, 30), (0x1287, 0x1287, 41),
   (0x1288, 0x1288, 30), (0x128A, 0x128D, 30), (0x1290, 0x12AE, 30), (0x12AF, 0x12AF, 41), (0x12B0, 0x12B0, 30),
   (0x12B2, 0x12B5, 30), (0x12B8, 0x12BE, 30), (0x12C0, 0x12C0, 30), (0x12C2, 0x12C5, 30), (0x12C8, 0x12CE, 30),
   (0x12CF, 0x12CF, 41), (0x12D0, 0x12D6, 30), (0x12D8, 0x12EE, 30), (0x12EF, 0x12EF, 41), (0x12F0, 0x130E, 30),
   (0x130F, 0x130F, 41), (0x1310, 0x1310, 30), (0x1312, 0x1315, 30), (0x1318, 0x131E, 30), (0x131F, 0x131F, 41),
   (0x1320, 0x1346, 30), (0x1347, 0x1347, 41), (0x1348, 0x135A, 30), (0x135D, 0x135E, 60), (0x135F, 0x1360, 41),
   (0x1361, 0x137C, 30), (0x1380, 0x1399, 41), (0x13A0, 0x13F4, 30), (0x13F5, 0x13F5, 80), (0x13F8, 0x13FD, 80),
   (0x1400, 0x1400, 52), (0x1401, 0x1676, 30), (0x1677, 0x167F, 52), (0x1680, 0x169C, 30), (0x16A0, 0x16F0, 30),
   (0x16F1, 0x16F8, 70), (0x1700, 0x170C, 32), (0x170E, 0x1714, 32), (0x1720, 0x1736, 32), (0x1740, 0x1753, 32),
   (0x1760, 0x176C, 32), (0x176E, 0x1770, 32), (0x1772, 0x1773, 32), (0x1780, 0x17DC, 30), (0x17DD, 0x17DD, 40),
   (0x17E0, 0x17E9, 30), (0x17F0, 0x17F9, 40), (0x1800, 0x180E, 30), (0x1810, 0x1819, 30), (0x1820, 0x1877, 30),
   (0x1878, 0x1878, 110), (0x1880, 0x18A9, 30), (0x18AA, 0x18AA, 51), (0x18B0, 0x18F5, 52), (0x1900, 0x191C, 40),
   (0x191D, 0x191E, 70), (0x1920, 0x192B, 40), (0x1930, 0x193B, 40), (0x1940, 0x1940, 40), (0x1944, 0x196D, 40),
   (0x1970, 0x1974, 40), (0x1980, 0x19A9, 41), (0x19AA, 0x19AB, 52), (0x19B0, 0x19C9, 41), (0x19D0, 0x19D9, 41),
   (0x19DA, 0x19DA, 52), (0x19DE, 0x19DF, 41), (0x19E0, 0x19FF, 40), (0x1A00, 0x1A1B, 41), (0x1A1E, 0x1A1F, 41),
   (0x1A20, 0x1A5E, 52), (0x1A60, 0x1A7C, 52), (0x1A7F, 0x1A89, 52), (0x1A90, 0x1A99, 52), (0x1AA0, 0x1AAD, 52),
   (0x1AB0, 0x1ABE, 70), (0x1ABF, 0x1AC0, 130), (0x1B00, 0x1B4B, 50), (0x1B50, 0x1B7C, 50), (0x1B80, 0x1BAA, 51),
   (0x1BAB, 0x1BAD, 61), (0x1BAE, 0x1BB9, 51), (0x1BBA, 0x1BBF, 61), (0x1BC0, 0x1BF3, 60), (0x1BFC, 0x1BFF, 60),
   (0x1C00, 0x1C37, 51), (0x1C3B, 0x1C49, 51), (0x1C4D, 0x1C7F, 51), (0x1C80, 0x1C88, 90), (0x1C90, 0x1CBA, 110),
   (0x1CBD, 0x1CBF, 110), (0x1CC0, 0x1CC7, 61), (0x1CD0, 0x1CF2, 52), (0x1CF3, 0x1CF6, 61), (0x1CF7, 0x1CF7, 100),
   (0x1CF8, 0x1CF9, 70), (0x1CFA, 0x1CFA, 120), (0x1D00, 0x1D6B, 40), (0x1D6C, 0x1DC3, 41), (0x1DC4, 0x1DCA, 50),
   (0x1DCB, 0x1DE6, 51), (0x1DE7, 0x1DF5, 70), (0x1DF6, 0x1DF9, 100), (0x1DFB, 0x1DFB, 90), (0x1DFC, 0x1DFC, 60),
   (0x1DFD, 0x1DFD, 52), (0x1DFE, 0x1DFF, 50), (0x1E00, 0x1E9A, 11), (0x1E9B, 0x1E9B, 20), (0x1E9C, 0x1E9F, 51),
   (0x1EA0, 0x1EF9, 11), (0x1EFA, 0x1EFF, 51), (0x1F00, 0x1F15, 11), (0x1F18, 0x1F1D, 11), (0x1F20, 0x1F45, 11),
   (0x1F48, 0x1F4D, 11), (0x1F50, 0x1F57, 11), (0x1F59, 0x1F59, 11), (0x1F5B, 0x1F5B, 11), (0x1F5D, 0x1F5D, 11),
   (0x1F5F, 0x1F7D, 11), (0x1F80, 0x1FB4, 11), (0x1FB6, 0x1FC4, 11), (0x1FC6, 0x1FD3, 11), (0x1FD6, 0x1FDB, 11),
   (0x1FDD, 0x1FEF, 11), (0x1FF2, 0x1FF4, 11), (0x1FF6, 0x1FFE, 11), (0x2000, 0x202E, 11), (0x202F, 0x202F, 30),
   (0x2030, 0x2046, 11), (0x2047, 0x2047, 32), (0x2048, 0x204D, 30), (0x204E, 0x2052, 32), (0x2053, 0x2054, 40),
   (0x2055, 0x2056, 41), (0x2057, 0x2057, 32), (0x2058, 0x205E, 41), (0x205F, 0x2063, 32), (0x2064, 0x2064, 51)]

/-- Age. Part 3. -/
def ageRuns_3 : List (Nat × Nat × Nat) :=
  [
   (0x2066, 0x2069, 63), (0x206A, 0x2070, 11), (0x2071, 0x2071, 32), (0x2074, 0x208E, 11), (0x2090, 0x2094, 41),
   (0x2095, 0x209C, 60), (0x20A0, 0x20AA, 11), (0x20AB, 0x20AB, 20), (0x20AC, 0x20AC, 21), (0x20AD, 0x20AF, 30),
   (0x20B0, 0x20B1, 32), (0x20B2, 0x20B5, 41), (0x20B6, 0x20B8, 52), (0x20B9, 0x20B9, 60), (0x20BA, 0x20BA, 62),
   (0x20BB, 0x20BD, 70), (0x20BE, 0x20BE, 80), (0x20BF, 0x20BF, 100), (0x20D0, 0x20E1, 11), (0x20E2, 0x20E3, 30),
   (0x20E4, 0x20EA, 32), (0x20EB, 0x20EB, 41), (0x20EC, 0x20EF, 50), (0x20F0, 0x20F0, 51), (0x2100, 0x2138, 11),
   (0x2139, 0x213A, 30), (0x213B, 0x213B, 40), (0x213C, 0x213C, 41), (0x213D, 0x214B, 32), (0x214C, 0x214C, 41),
   (0x214D, 0x214E, 50), (0x214F, 0x214F, 51), (0x2150, 0x2152, 52), (0x2153, 0x2182, 11), (0x2183, 0x2183, 30),
   (0x2184, 0x2184, 50), (0x2185, 0x2188, 51), (0x2189, 0x2189, 52), (0x218A, 0x218B, 80), (0x2190, 0x21EA, 11),
   (0x21EB, 0x21F3, 30), (0x21F4, 0x21FF, 32), (0x2200, 0x22F1, 11), (0x22F2, 0x22FF, 32), (0x2300, 0x2300, 11),
   (0x2301, 0x2301, 30), (0x2302, 0x237A, 11), (0x237B, 0x237B, 30), (0x237C, 0x237C, 32), (0x237D, 0x239A, 30),
   (0x239B, 0x23CE, 32), (0x23CF, 0x23D0, 40), (0x23D1, 0x23DB, 41), (0x23DC, 0x23E7, 50), (0x23E8, 0x23E8, 52),
   (0x23E9, 0x23F3, 60), (0x23F4, 0x23FA, 70), (0x23FB, 0x23FE, 90), (0x23FF, 0x23FF, 100), (0x2400, 0x2424, 11),
   (0x2425, 0x2426, 30), (0x2440, 0x244A, 11), (0x2460, 0x24EA, 11), (0x24EB, 0x24FE, 32), (0x24FF, 0x24FF, 40),
   (0x2500, 0x2595, 11), (0x2596, 0x259F, 32), (0x25A0, 0x25EF, 11), (0x25F0, 0x25F7, 30), (0x25F8, 0x25FF, 32),
   (0x2600, 0x2613, 11), (0x2614, 0x2615, 40), (0x2616, 0x2617, 32), (0x2618, 0x2618, 41), (0x2619, 0x2619, 30),
   (0x261A, 0x266F, 11), (0x2670, 0x2671, 30), (0x2672, 0x267D, 32), (0x267E, 0x267F, 41), (0x2680, 0x2689, 32),
   (0x268A, 0x2691, 40), (0x2692, 0x269C, 41), (0x269D, 0x269D, 51), (0x269E, 0x269F, 52), (0x26A0, 0x26A1, 40),
   (0x26A2, 0x26B1, 41), (0x26B2, 0x26B2, 50), (0x26B3, 0x26BC, 51), (0x26BD, 0x26BF, 52), (0x26C0, 0x26C3, 51),
   (0x26C4, 0x26CD, 52), (0x26CE, 0x26CE, 60), (0x26CF, 0x26E1, 52), (0x26E2, 0x26E2, 60), (0x26E3, 0x26E3, 52),
   (0x26E4, 0x26E7, 60), (0x26E8, 0x26FF, 52), (0x2700, 0x2700, 70), (0x2701, 0x2704, 11), (0x2705, 0x2705, 60),
   (0x2706, 0x2709, 11), (0x270A, 0x270B, 60), (0x270C, 0x2727, 11), (0x2728, 0x2728, 60), (0x2729, 0x274B, 11),
   (0x274C, 0x274C, 60), (0x274D, 0x274D, 11), (0x274E, 0x274E, 60), (0x274F, 0x2752, 11), (0x2753, 0x2755, 60),
   (0x2756, 0x2756, 11), (0x2757, 0x2757, 52), (0x2758, 0x275E, 11), (0x275F, 0x2760, 60), (0x2761, 0x2767, 11),
   (0x2768, 0x2775, 32), (0x2776, 0x2794, 11), (0x2795, 0x2797, 60), (0x2798, 0x27AF, 11), (0x27B0, 0x27B0, 60),
   (0x27B1, 0x27BE, 11), (0x27BF, 0x27BF, 60), (0x27C0, 0x27C6, 41), (0x27C7, 0x27CA, 50), (0x27CB, 0x27CB, 61),
   (0x27CC, 0x27CC, 51), (0x27CD, 0x27CD, 61), (0x27CE, 0x27CF, 60), (0x27D0, 0x27EB, 32), (0x27EC, 0x27EF, 51),
   (0x27F0, 0x27FF, 32), (0x2800, 0x28FF, 30), (0x2900, 0x2AFF, 32), (0x2B00, 0x2B0D, 40), (0x2B0E, 0x2B13, 41),
   (0x2B14, 0x2B1A, 50), (0x2B1B, 0x2B1F, 51), (0x2B20, 0x2B23, 50), (0x2B24, 0x2B4C, 51), (0x2B4D, 0x2B4F, 70),
   (0x2B50, 0x2B54, 51), (0x2B55, 0x2B59, 52), (0x2B5A, 0x2B73, 70), (0x2B76, 0x2B95, 70), (0x2B97, 0x2B97, 130),
   (0x2B98, 0x2BB9, 70), (0x2BBA, 0x2BBC, 110), (0x2BBD, 0x2BC8, 70), (0x2BC9, 0x2BC9, 120), (0x2BCA, 0x2BD1, 70),
   (0x2BD2, 0x2BD2, 100), (0x2BD3, 0x2BEB, 110), (0x2BEC, 0x2BEF, 80), (0x2BF0, 0x2BFE, 110), (0x2BFF, 0x2BFF, 120),
   (0x2C00, 0x2C2E, 41), (0x2C30, 0x2C5E, 41), (0x2C60, 0x2C6C, 50), (0x2C6D, 0x2C6F, 51), (0x2C70, 0x2C70, 52),
   (0x2C71, 0x2C73, 51), (0x2C74, 0x2C77, 50), (0x2C78, 0x2C7D, 51), (0x2C7E, 0x2C7F, 52), (0x2C80, 0x2CEA, 41),
   (0x2CEB, 0x2CF1, 52), (0x2CF2, 0x2CF3, 61), (0x2CF9, 0x2D25, 41), (0x2D27, 0x2D27, 61), (0x2D2D, 0x2D2D, 61),
   (0x2D30, 0x2D65, 41), (0x2D66, 0x2D67, 61), (0x2D6F, 0x2D6F, 41), (0x2D70, 0x2D70, 60), (0x2D7F, 0x2D7F, 60),
   (0x2D80, 0x2D96, 41), (0x2DA0, 0x2DA6, 41), (0x2DA8, 0x2DAE, 41), (0x2DB0, 0x2DB6, 41), (0x2DB8, 0x2DBE, 41),
   (0x2DC0, 0x2DC6, 41), (0x2DC8, 0x2DCE, 41), (0x2DD0, 0x2DD6, 41), (0x2DD8, 0x2DDE, 41), (0x2DE0, 0x2DFF, 51),
   (0x2E00, 0x2E17, 41), (0x2E18, 0x2E1B, 51), (0x2E1C, 0x2E1D, 41), (0x2E1E, 0x2E30, 51), (0x2E31, 0x2E31, 52),
   (0x2E32, 0x2E3B, 61), (0x2E3C, 0x2E42, 70), (0x2E43, 0x2E44, 90), (0x2E45, 0x2E49, 100), (0x2E4A, 0x2E4E, 110),
   (0x2E4F, 0x2E4F, 120), (0x2E50, 0x2E52, 130), (0x2E80, 0x2E99, 30), (0x2E9B, 0x2EF3, 30), (0x2F00, 0x2FD5, 30),
   (0x2FF0, 0x2FFB, 30), (0x3000, 0x3037, 11), (0x3038, 0x303A, 30), (0x303B, 0x303D, 32), (0x303E, 0x303E, 30),
   (0x303F, 0x303F, 11), (0x3041, 0x3094, 11), (0x3095, 0x3096, 32), (0x3099, 0x309E, 11), (0x309F, 0x30A0, 32),
   (0x30A1, 0x30FE, 11), (0x30FF, 0x30FF, 32), (0x3105, 0x312C, 11), (0x312D, 0x312D, 51), (0x312E, 0x312E, 100),
   (0x312F, 0x312F, 110), (0x3131, 0x318E, 11), (0x3190, 0x319F, 11), (0x31A0, 0x31B7, 30), (0x31B8, 0x31BA, 60),
   (0x31BB, 0x31BF, 130), (0x31C0, 0x31CF, 41), (0x31D0, 0x31E3, 51), (0x31F0, 0x31FF, 32), (0x3200, 0x321C, 11),
   (0x321D, 0x321E, 40), (0x3220, 0x3243, 11), (0x3244, 0x324F, 52), (0x3250, 0x3250, 40), (0x3251, 0x325F, 32),
   (0x3260, 0x327B, 11), (0x327C, 0x327D, 40), (0x327E, 0x327E, 41), (0x327F, 0x32B0, 11), (0x32B1, 0x32BF, 32),
   (0x32C0, 0x32CB, 11), (0x32CC, 0x32CF, 40), (0x32D0, 0x32FE, 11), (0x32FF, 0x32FF, 121), (0x3300, 0x3376, 11),
   (0x3377, 0x337A, 40), (0x337B, 0x33DD, 11), (0x33DE, 0x33DF, 40), (0x33E0, 0x33FE, 11), (0x33FF, 0x33FF, 40),
   (0x3400, 0x4DB5, 30), (0x4DB6, 0x4DBF, 130), (0x4DC0, 0x4DFF, 40), (0x4E00, 0x9FA5, 11), (0x9FA6, 0x9FBB, 41),
   (0x9FBC, 0x9FC3, 51), (0x9FC4, 0x9FCB, 52), (0x9FCC, 0x9FCC, 61), (0x9FCD, 0x9FD5, 80), (0x9FD6, 0x9FEA, 100),
   (0x9FEB, 0x9FEF, 110), (0x9FF0, 0x9FFC, 130), (0xA000, 0xA48C, 30), (0xA490, 0xA4A1, 30), (0xA4A2, 0xA4A3, 32),
   (0xA4A4, 0xA4B3, 30), (0xA4B4, 0xA4B4, 32), (0xA4B5, 0xA4C0, 30), (0xA4C1, 0xA4C1, 32), (0xA4C2, 0xA4C4, 30),
   (0xA4C5, 0xA4C5, 32), (0xA4C6, 0xA4C6, 30), (0xA4D0, 0xA4FF, 52), (0xA500, 0xA62B, 51), (0xA640, 0xA65F, 51),
   (0xA660, 0xA661, 60), (0xA662, 0xA673, 51), (0xA674, 0xA67B, 61), (0xA67C, 0xA697, 51), (0xA698, 0xA69D, 70),
   (0xA69E, 0xA69E, 80), (0xA69F, 0xA69F, 61), (0xA6A0, 0xA6F7, 52), (0xA700, 0xA716, 41), (0xA717, 0xA71A, 50),
   (0xA71B, 0xA71F, 51), (0xA720, 0xA721, 50), (0xA722, 0xA78C, 51), (0xA78D, 0xA78E, 60), (0xA78F, 0xA78F, 80),
   (0xA790, 0xA791, 60), (0xA792, 0xA793, 61), (0xA794, 0xA79F, 70), (0xA7A0, 0xA7A9, 60), (0xA7AA, 0xA7AA, 61),
   (0xA7AB, 0xA7AD, 70), (0xA7AE, 0xA7AE, 90), (0xA7AF, 0xA7AF, 110), (0xA7B0, 0xA7B1, 70), (0xA7B2, 0xA7B7, 80),
   (0xA7B8, 0xA7B9, 110), (0xA7BA, 0xA7BF, 120), (0xA7C2, 0xA7C6, 120), (0xA7C7, 0xA7CA, 130), (0xA7F5, 0xA7F6, 130)]

/-- Age. Part 4. -/
def ageRuns_4 : List (Nat × Nat × Nat) :=
  [
   (0xA7F7, 0xA7F7, 70), (0xA7F8, 0xA7F9, 61), (0xA7FA, 0xA7FA, 60), (0xA7FB, 0xA7FF, 51), (0xA800, 0xA82B, 41),
   (0xA82C, 0xA82C, 130), (0xA830, 0xA839, 52), (0xA840, 0xA877, 50), (0xA880, 0xA8C4, 51), (0xA8C5, 0xA8C5, 90),
   (0xA8CE, 0xA8D9, 51), (0xA8E0, 0xA8FB, 52), (0xA8FC, 0xA8FD, 80), (0xA8FE, 0xA8FF, 110), (0xA900, 0xA953, 51),
   (0xA95F, 0xA95F, 51), (0xA960, 0xA97C, 52), (0xA980, 0xA9CD, 52), (0xA9CF, 0xA9D9, 52), (0xA9DE, 0xA9DF, 52),
   (0xA9E0, 0xA9FE, 70), (0xAA00, 0xAA36, 51), (0xAA40, 0xAA4D, 51), (0xAA50, 0xAA59, 51), (0xAA5C, 0xAA5F, 51),
   (0xAA60, 0xAA7B, 52), (0xAA7C, 0xAA7F, 70), (0xAA80, 0xAAC2, 52), (0xAADB, 0xAADF, 52), (0xAAE0, 0xAAF6, 61),
   (0xAB01, 0xAB06, 60), (0xAB09, 0xAB0E, 60), (0xAB11, 0xAB16, 60), (0xAB20, 0xAB26, 60), (0xAB28, 0xAB2E, 60),
   (0xAB30, 0xAB5F, 70), (0xAB60, 0xAB63, 80), (0xAB64, 0xAB65, 70), (0xAB66, 0xAB67, 120), (0xAB68, 0xAB6B, 130),
   (0xAB70, 0xABBF, 80), (0xABC0, 0xABED, 52), (0xABF0, 0xABF9, 52), (0xAC00, 0xD7A3, 20), (0xD7B0, 0xD7C6, 52),
   (0xD7CB, 0xD7FB, 52), (0xD800, 0xDFFF, 20), (0xE000, 0xFA2D, 11), (0xFA2E, 0xFA2F, 61), (0xFA30, 0xFA6A, 32),
   (0xFA6B, 0xFA6D, 52), (0xFA70, 0xFAD9, 41), (0xFB00, 0xFB06, 11), (0xFB13, 0xFB17, 11), (0xFB1D, 0xFB1D, 30),
   (0xFB1E, 0xFB36, 11), (0xFB38, 0xFB3C, 11), (0xFB3E, 0xFB3E, 11), (0xFB40, 0xFB41, 11), (0xFB43, 0xFB44, 11),
   (0xFB46, 0xFBB1, 11), (0xFBB2, 0xFBC1, 60), (0xFBD3, 0xFD3F, 11), (0xFD50, 0xFD8F, 11), (0xFD92, 0xFDC7, 11),
   (0xFDD0, 0xFDEF, 31), (0xFDF0, 0xFDFB, 11), (0xFDFC, 0xFDFC, 32), (0xFDFD, 0xFDFD, 40), (0xFE00, 0xFE0F, 32),
   (0xFE10, 0xFE19, 41), (0xFE20, 0xFE23, 11), (0xFE24, 0xFE26, 51), (0xFE27, 0xFE2D, 70), (0xFE2E, 0xFE2F, 80),
   (0xFE30, 0xFE44, 11), (0xFE45, 0xFE46, 32), (0xFE47, 0xFE48, 40), (0xFE49, 0xFE52, 11), (0xFE54, 0xFE66, 11),
   (0xFE68, 0xFE6B, 11), (0xFE70, 0xFE72, 11), (0xFE73, 0xFE73, 32), (0xFE74, 0xFE74, 11), (0xFE76, 0xFEFC, 11),
   (0xFEFF, 0xFEFF, 11), (0xFF01, 0xFF5E, 11), (0xFF5F, 0xFF60, 32), (0xFF61, 0xFFBE, 11), (0xFFC2, 0xFFC7, 11),
   (0xFFCA, 0xFFCF, 11), (0xFFD2, 0xFFD7, 11), (0xFFDA, 0xFFDC, 11), (0xFFE0, 0xFFE6, 11), (0xFFE8, 0xFFEE, 11),
   (0xFFF9, 0xFFFB, 30), (0xFFFC, 0xFFFC, 21), (0xFFFD, 0xFFFF, 11), (0x10000, 0x1000B, 40), (0x1000D, 0x10026, 40),
   (0x10028, 0x1003A, 40), (0x1003C, 0x1003D, 40), (0x1003F, 0x1004D, 40), (0x10050, 0x1005D, 40), (0x10080, 0x100FA, 40),
   (0x10100, 0x10102, 40), (0x10107, 0x10133, 40), (0x10137, 0x1013F, 40), (0x10140, 0x1018A, 41), (0x1018B, 0x1018C, 70),
   (0x1018D, 0x1018E, 90), (0x10190, 0x1019B, 51), (0x1019C, 0x1019C, 130), (0x101A0, 0x101A0, 70), (0x101D0, 0x101FD, 51),
   (0x10280, 0x1029C, 51), (0x102A0, 0x102D0, 51), (0x102E0, 0x102FB, 70), (0x10300, 0x1031E, 31), (0x1031F, 0x1031F, 70),
   (0x10320, 0x10323, 31), (0x1032D, 0x1032F, 100), (0x10330, 0x1034A, 31), (0x10350, 0x1037A, 70), (0x10380, 0x1039D, 40),
   (0x1039F, 0x1039F, 40), (0x103A0, 0x103C3, 41), (0x103C8, 0x103D5, 41), (0x10400, 0x10425, 31), (0x10426, 0x10427, 40),
   (0x10428, 0x1044D, 31), (0x1044E, 0x1049D, 40), (0x104A0, 0x104A9, 40), (0x104B0, 0x104D3, 90), (0x104D8, 0x104FB, 90),
   (0x10500, 0x10527, 70), (0x10530, 0x10563, 70), (0x1056F, 0x1056F, 70), (0x10600, 0x10736, 70), (0x10740, 0x10755, 70),
   (0x10760, 0x10767, 70), (0x10800, 0x10805, 40), (0x10808, 0x10808, 40), (0x1080A, 0x10835, 40), (0x10837, 0x10838, 40),
   (0x1083C, 0x1083C, 40), (0x1083F, 0x1083F, 40), (0x10840, 0x10855, 52), (0x10857, 0x1085F, 52), (0x10860, 0x1089E, 70),
   (0x108A7, 0x108AF, 70), (0x108E0, 0x108F2, 80), (0x108F4, 0x108F5, 80), (0x108FB, 0x108FF, 80), (0x10900, 0x10919, 50),
   (0x1091A, 0x1091B, 52), (0x1091F, 0x1091F, 50), (0x10920, 0x10939, 51), (0x1093F, 0x1093F, 51), (0x10980, 0x109B7, 61),
   (0x109BC, 0x109BD, 80), (0x109BE, 0x109BF, 61), (0x109C0, 0x109CF, 80), (0x109D2, 0x109FF, 80), (0x10A00, 0x10A03, 41),
   (0x10A05, 0x10A06, 41), (0x10A0C, 0x10A13, 41), (0x10A15, 0x10A17, 41), (0x10A19, 0x10A33, 41), (0x10A34, 0x10A35, 110),
   (0x10A38, 0x10A3A, 41), (0x10A3F, 0x10A47, 41), (0x10A48, 0x10A48, 110), (0x10A50, 0x10A58, 41), (0x10A60, 0x10A7F, 52),
   (0x10A80, 0x10A9F, 70), (0x10AC0, 0x10AE6, 70), (0x10AEB, 0x10AF6, 70), (0x10B00, 0x10B35, 52), (0x10B39, 0x10B55, 52),
   (0x10B58, 0x10B72, 52), (0x10B78, 0x10B7F, 52), (0x10B80, 0x10B91, 70), (0x10B99, 0x10B9C, 70), (0x10BA9, 0x10BAF, 70),
   (0x10C00, 0x10C48, 52), (0x10C80, 0x10CB2, 80), (0x10CC0, 0x10CF2, 80), (0x10CFA, 0x10CFF, 80), (0x10D00, 0x10D27, 110),
   (0x10D30, 0x10D39, 110), (0x10E60, 0x10E7E, 52), (0x10E80, 0x10EA9, 130), (0x10EAB, 0x10EAD, 130), (0x10EB0, 0x10EB1, 130),
   (0x10F00, 0x10F27, 110), (0x10F30, 0x10F59, 110), (0x10FB0, 0x10FCB, 130), (0x10FE0, 0x10FF6, 120), (0x11000, 0x1104D, 60),
   (0x11052, 0x1106F, 60), (0x1107F, 0x1107F, 70), (0x11080, 0x110C1, 52), (0x110CD, 0x110CD, 110), (0x110D0, 0x110E8, 61),
   (0x110F0, 0x110F9, 61), (0x11100, 0x11134, 61), (0x11136, 0x11143, 61), (0x11144, 0x11146, 110), (0x11147, 0x11147, 130),
   (0x11150, 0x11176, 70), (0x11180, 0x111C8, 61), (0x111C9, 0x111CC, 80), (0x111CD, 0x111CD, 70), (0x111CE, 0x111CF, 130),
   (0x111D0, 0x111D9, 61), (0x111DA, 0x111DA, 70), (0x111DB, 0x111DF, 80), (0x111E1, 0x111F4, 70), (0x11200, 0x11211, 70),
   (0x11213, 0x1123D, 70), (0x1123E, 0x1123E, 90), (0x11280, 0x11286, 80), (0x11288, 0x11288, 80), (0x1128A, 0x1128D, 80),
   (0x1128F, 0x1129D, 80), (0x1129F, 0x112A9, 80), (0x112B0, 0x112EA, 70), (0x112F0, 0x112F9, 70), (0x11300, 0x11300, 80),
   (0x11301, 0x11303, 70), (0x11305, 0x1130C, 70), (0x1130F, 0x11310, 70), (0x11313, 0x11328, 70), (0x1132A, 0x11330, 70),
   (0x11332, 0x11333, 70), (0x11335, 0x11339, 70), (0x1133B, 0x1133B, 110), (0x1133C, 0x11344, 70), (0x11347, 0x11348, 70),
   (0x1134B, 0x1134D, 70), (0x11350, 0x11350, 80), (0x11357, 0x11357, 70), (0x1135D, 0x11363, 70), (0x11366, 0x1136C, 70),
   (0x11370, 0x11374, 70), (0x11400, 0x11459, 90), (0x1145A, 0x1145A, 130), (0x1145B, 0x1145B, 90), (0x1145D, 0x1145D, 90),
   (0x1145E, 0x1145E, 110), (0x1145F, 0x1145F, 120), (0x11460, 0x11461, 130), (0x11480, 0x114C7, 70), (0x114D0, 0x114D9, 70),
   (0x11580, 0x115B5, 70), (0x115B8, 0x115C9, 70), (0x115CA, 0x115DD, 80), (0x11600, 0x11644, 70), (0x11650, 0x11659, 70),
   (0x11660, 0x1166C, 90), (0x11680, 0x116B7, 61), (0x116B8, 0x116B8, 120), (0x116C0, 0x116C9, 61), (0x11700, 0x11719, 80),
   (0x1171A, 0x1171A, 110), (0x1171D, 0x1172B, 80), (0x11730, 0x1173F, 80), (0x11800, 0x1183B, 110), (0x118A0, 0x118F2, 70),
   (0x118FF, 0x118FF, 70), (0x11900, 0x11906, 130), (0x11909, 0x11909, 130), (0x1190C, 0x11913, 130), (0x11915, 0x11916, 130),
   (0x11918, 0x11935, 130), (0x11937, 0x11938, 130), (0x1193B, 0x11946, 130), (0x11950, 0x11959, 130), (0x119A0, 0x119A7, 120),
   (0x119AA, 0x119D7, 120), (0x119DA, 0x119E4, 120), (0x11A00, 0x11A47, 100), (0x11A50, 0x11A83, 100), (0x11A84, 0x11A85, 120),
   (0x11A86, 0x11A9C, 100), (0x11A9D, 0x11A9D, 110), (0x11A9E, 0x11AA2, 100), (0x11AC0, 0x11AF8, 70), (0x11C00, 0x11C08, 90),
   (0x11C0A, 0x11C36, 90), (0x11C38, 0x11C45, 90), (0x11C50, 0x11C6C, 90), (0x11C70, 0x11C8F, 90), (0x11C92, 0x11CA7, 90),
   (0x11CA9, 0x11CB6, 90), (0x11D00, 0x11D06, 100), (0x11D08, 0x11D09, 100), (0x11D0B, 0x11D36, 100), (0x11D3A, 0x11D3A, 100)]

/-- Age. Part 5. -/
def ageRuns_5 : List (Nat × Nat × Nat) :=
  [
   (0x11D3C, 0x11D3D, 100), (0x11D3F, 0x11D47, 100), (0x11D50, 0x11D59, 100), (0x11D60, 0x11D65, 110), (0x11D67, 0x11D68, 110),
   (0x11D6A, 0x11D8E, 110), (0x11D90, 0x11D91, 110), (0x11D93, 0x11D98, 110), (0x11DA0, 0x11DA9, 110), (0x11EE0, 0x11EF8, 110),
   (0x11FB0, 0x11FB0, 130), (0x11FC0, 0x11FF1, 120), (0x11FFF, 0x11FFF, 120), (0x12000, 0x1236E, 50), (0x1236F, 0x12398, 70),
   (0x12399, 0x12399, 80), (0x12400, 0x12462, 50), (0x12463, 0x1246E, 70), (0x12470, 0x12473, 50), (0x12474, 0x12474, 70),
   (0x12480, 0x12543, 80), (0x13000, 0x1342E, 52), (0x13430, 0x13438, 120), (0x14400, 0x14646, 80), (0x16800, 0x16A38, 60),
   (0x16A40, 0x16A5E, 70), (0x16A60, 0x16A69, 70), (0x16A6E, 0x16A6F, 70), (0x16AD0, 0x16AED, 70), (0x16AF0, 0x16AF5, 70),
   (0x16B00, 0x16B45, 70), (0x16B50, 0x16B59, 70), (0x16B5B, 0x16B61, 70), (0x16B63, 0x16B77, 70), (0x16B7D, 0x16B8F, 70),
   (0x16E40, 0x16E9A, 110), (0x16F00, 0x16F44, 61), (0x16F45, 0x16F4A, 120), (0x16F4F, 0x16F4F, 120), (0x16F50, 0x16F7E, 61),
   (0x16F7F, 0x16F87, 120), (0x16F8F, 0x16F9F, 61), (0x16FE0, 0x16FE0, 90), (0x16FE1, 0x16FE1, 100), (0x16FE2, 0x16FE3, 120),
   (0x16FE4, 0x16FE4, 130), (0x16FF0, 0x16FF1, 130), (0x17000, 0x187EC, 90), (0x187ED, 0x187F1, 110), (0x187F2, 0x187F7, 120),
   (0x18800, 0x18AF2, 90), (0x18AF3, 0x18CD5, 130), (0x18D00, 0x18D08, 130), (0x1B000, 0x1B001, 60), (0x1B002, 0x1B11E, 100),
   (0x1B150, 0x1B152, 120), (0x1B164, 0x1B167, 120), (0x1B170, 0x1B2FB, 100), (0x1BC00, 0x1BC6A, 70), (0x1BC70, 0x1BC7C, 70),
   (0x1BC80, 0x1BC88, 70), (0x1BC90, 0x1BC99, 70), (0x1BC9C, 0x1BCA3, 70), (0x1D000, 0x1D0F5, 31), (0x1D100, 0x1D126, 31),
   (0x1D129, 0x1D129, 51), (0x1D12A, 0x1D1DD, 31), (0x1D1DE, 0x1D1E8, 80), (0x1D200, 0x1D245, 41), (0x1D2E0, 0x1D2F3, 110),
   (0x1D300, 0x1D356, 40), (0x1D360, 0x1D371, 50), (0x1D372, 0x1D378, 110), (0x1D400, 0x1D454, 31), (0x1D456, 0x1D49C, 31),
   (0x1D49E, 0x1D49F, 31), (0x1D4A2, 0x1D4A2, 31), (0x1D4A5, 0x1D4A6, 31), (0x1D4A9, 0x1D4AC, 31), (0x1D4AE, 0x1D4B9, 31),
   (0x1D4BB, 0x1D4BB, 31), (0x1D4BD, 0x1D4C0, 31), (0x1D4C1, 0x1D4C1, 40), (0x1D4C2, 0x1D4C3, 31), (0x1D4C5, 0x1D505, 31),
   (0x1D507, 0x1D50A, 31), (0x1D50D, 0x1D514, 31), (0x1D516, 0x1D51C, 31), (0x1D51E, 0x1D539, 31), (0x1D53B, 0x1D53E, 31),
   (0x1D540, 0x1D544, 31), (0x1D546, 0x1D546, 31), (0x1D54A, 0x1D550, 31), (0x1D552, 0x1D6A3, 31), (0x1D6A4, 0x1D6A5, 41),
   (0x1D6A8, 0x1D7C9, 31), (0x1D7CA, 0x1D7CB, 50), (0x1D7CE, 0x1D7FF, 31), (0x1D800, 0x1DA8B, 80), (0x1DA9B, 0x1DA9F, 80),
   (0x1DAA1, 0x1DAAF, 80), (0x1E000, 0x1E006, 90), (0x1E008, 0x1E018, 90), (0x1E01B, 0x1E021, 90), (0x1E023, 0x1E024, 90),
   (0x1E026, 0x1E02A, 90), (0x1E100, 0x1E12C, 120), (0x1E130, 0x1E13D, 120), (0x1E140, 0x1E149, 120), (0x1E14E, 0x1E14F, 120),
   (0x1E2C0, 0x1E2F9, 120), (0x1E2FF, 0x1E2FF, 120), (0x1E800, 0x1E8C4, 70), (0x1E8C7, 0x1E8D6, 70), (0x1E900, 0x1E94A, 90),
   (0x1E94B, 0x1E94B, 120), (0x1E950, 0x1E959, 90), (0x1E95E, 0x1E95F, 90), (0x1EC71, 0x1ECB4, 110), (0x1ED01, 0x1ED3D, 120),
   (0x1EE00, 0x1EE03, 61), (0x1EE05, 0x1EE1F, 61), (0x1EE21, 0x1EE22, 61), (0x1EE24, 0x1EE24, 61), (0x1EE27, 0x1EE27, 61),
   (0x1EE29, 0x1EE32, 61), (0x1EE34, 0x1EE37, 61), (0x1EE39, 0x1EE39, 61), (0x1EE3B, 0x1EE3B, 61), (0x1EE42, 0x1EE42, 61),
   (0x1EE47, 0x1EE47, 61), (0x1EE49, 0x1EE49, 61), (0x1EE4B, 0x1EE4B, 61), (0x1EE4D, 0x1EE4F, 61), (0x1EE51, 0x1EE52, 61),
   (0x1EE54, 0x1EE54, 61), (0x1EE57, 0x1EE57, 61), (0x1EE59, 0x1EE59, 61), (0x1EE5B, 0x1EE5B, 61), (0x1EE5D, 0x1EE5D, 61),
   (0x1EE5F, 0x1EE5F, 61), (0x1EE61, 0x1EE62, 61), (0x1EE64, 0x1EE64, 61), (0x1EE67, 0x1EE6A, 61), (0x1EE6C, 0x1EE72, 61),
   (0x1EE74, 0x1EE77, 61), (0x1EE79, 0x1EE7C, 61), (0x1EE7E, 0x1EE7E, 61), (0x1EE80, 0x1EE89, 61), (0x1EE8B, 0x1EE9B, 61),
   (0x1EEA1, 0x1EEA3, 61), (0x1EEA5, 0x1EEA9, 61), (0x1EEAB, 0x1EEBB, 61), (0x1EEF0, 0x1EEF1, 61), (0x1F000, 0x1F02B, 51),
   (0x1F030, 0x1F093, 51), (0x1F0A0, 0x1F0AE, 60), (0x1F0B1, 0x1F0BE, 60), (0x1F0BF, 0x1F0BF, 70), (0x1F0C1, 0x1F0CF, 60),
   (0x1F0D1, 0x1F0DF, 60), (0x1F0E0, 0x1F0F5, 70), (0x1F100, 0x1F10A, 52), (0x1F10B, 0x1F10C, 70), (0x1F10D, 0x1F10F, 130),
   (0x1F110, 0x1F12E, 52), (0x1F12F, 0x1F12F, 110), (0x1F130, 0x1F130, 60), (0x1F131, 0x1F131, 52), (0x1F132, 0x1F13C, 60),
   (0x1F13D, 0x1F13D, 52), (0x1F13E, 0x1F13E, 60), (0x1F13F, 0x1F13F, 52), (0x1F140, 0x1F141, 60), (0x1F142, 0x1F142, 52),
   (0x1F143, 0x1F145, 60), (0x1F146, 0x1F146, 52), (0x1F147, 0x1F149, 60), (0x1F14A, 0x1F14E, 52), (0x1F14F, 0x1F156, 60),
   (0x1F157, 0x1F157, 52), (0x1F158, 0x1F15E, 60), (0x1F15F, 0x1F15F, 52), (0x1F160, 0x1F169, 60), (0x1F16A, 0x1F16B, 61),
   (0x1F16C, 0x1F16C, 120), (0x1F16D, 0x1F16F, 130), (0x1F170, 0x1F178, 60), (0x1F179, 0x1F179, 52), (0x1F17A, 0x1F17A, 60),
   (0x1F17B, 0x1F17C, 52), (0x1F17D, 0x1F17E, 60), (0x1F17F, 0x1F17F, 52), (0x1F180, 0x1F189, 60), (0x1F18A, 0x1F18D, 52),
   (0x1F18E, 0x1F18F, 60), (0x1F190, 0x1F190, 52), (0x1F191, 0x1F19A, 60), (0x1F19B, 0x1F1AC, 90), (0x1F1AD, 0x1F1AD, 130),
   (0x1F1E6, 0x1F1FF, 60), (0x1F200, 0x1F200, 52), (0x1F201, 0x1F202, 60), (0x1F210, 0x1F231, 52), (0x1F232, 0x1F23A, 60),
   (0x1F23B, 0x1F23B, 90), (0x1F240, 0x1F248, 52), (0x1F250, 0x1F251, 60), (0x1F260, 0x1F265, 100), (0x1F300, 0x1F320, 60),
   (0x1F321, 0x1F32C, 70), (0x1F32D, 0x1F32F, 80), (0x1F330, 0x1F335, 60), (0x1F336, 0x1F336, 70), (0x1F337, 0x1F37C, 60),
   (0x1F37D, 0x1F37D, 70), (0x1F37E, 0x1F37F, 80), (0x1F380, 0x1F393, 60), (0x1F394, 0x1F39F, 70), (0x1F3A0, 0x1F3C4, 60),
   (0x1F3C5, 0x1F3C5, 70), (0x1F3C6, 0x1F3CA, 60), (0x1F3CB, 0x1F3CE, 70), (0x1F3CF, 0x1F3D3, 80), (0x1F3D4, 0x1F3DF, 70),
   (0x1F3E0, 0x1F3F0, 60), (0x1F3F1, 0x1F3F7, 70), (0x1F3F8, 0x1F3FF, 80), (0x1F400, 0x1F43E, 60), (0x1F43F, 0x1F43F, 70),
   (0x1F440, 0x1F440, 60), (0x1F441, 0x1F441, 70), (0x1F442, 0x1F4F7, 60), (0x1F4F8, 0x1F4F8, 70), (0x1F4F9, 0x1F4FC, 60),
   (0x1F4FD, 0x1F4FE, 70), (0x1F4FF, 0x1F4FF, 80), (0x1F500, 0x1F53D, 60), (0x1F53E, 0x1F53F, 70), (0x1F540, 0x1F543, 61),
   (0x1F544, 0x1F54A, 70), (0x1F54B, 0x1F54F, 80), (0x1F550, 0x1F567, 60), (0x1F568, 0x1F579, 70), (0x1F57A, 0x1F57A, 90),
   (0x1F57B, 0x1F5A3, 70), (0x1F5A4, 0x1F5A4, 90), (0x1F5A5, 0x1F5FA, 70), (0x1F5FB, 0x1F5FF, 60), (0x1F600, 0x1F600, 61),
   (0x1F601, 0x1F610, 60), (0x1F611, 0x1F611, 61), (0x1F612, 0x1F614, 60), (0x1F615, 0x1F615, 61), (0x1F616, 0x1F616, 60),
   (0x1F617, 0x1F617, 61), (0x1F618, 0x1F618, 60), (0x1F619, 0x1F619, 61), (0x1F61A, 0x1F61A, 60), (0x1F61B, 0x1F61B, 61),
   (0x1F61C, 0x1F61E, 60), (0x1F61F, 0x1F61F, 61), (0x1F620, 0x1F625, 60), (0x1F626, 0x1F627, 61), (0x1F628, 0x1F62B, 60),
   (0x1F62C, 0x1F62C, 61), (0x1F62D, 0x1F62D, 60), (0x1F62E, 0x1F62F, 61), (0x1F630, 0x1F633, 60), (0x1F634, 0x1F634, 61),
   (0x1F635, 0x1F640, 60), (0x1F641, 0x1F642, 70), (0x1F643, 0x1F644, 80), (0x1F645, 0x1F64F, 60), (0x1F650, 0x1F67F, 70),
   (0x1F680, 0x1F6C5, 60), (0x1F6C6, 0x1F6CF, 70), (0x1F6D0, 0x1F6D0, 80), (0x1F6D1, 0x1F6D2, 90), (0x1F6D3, 0x1F6D4, 100),
   (0x1F6D5, 0x1F6D5, 120), (0x1F6D6, 0x1F6D7, 130), (0x1F6E0, 0x1F6EC, 70), (0x1F6F0, 0x1F6F3, 70), (0x1F6F4, 0x1F6F6, 90),
   (0x1F6F7, 0x1F6F8, 100), (0x1F6F9, 0x1F6F9, 110), (0x1F6FA, 0x1F6FA, 120), (0x1F6FB, 0x1F6FC, 130), (0x1F700, 0x1F773, 60),
   (0x1F780, 0x1F7D4, 70), (0x1F7D5, 0x1F7D8, 110), (0x1F7E0, 0x1F7EB, 120), (0x1F800, 0x1F80B, 70), (0x1F810, 0x1F847, 70),
   (0x1F850, 0x1F859, 70), (0x1F860, 0x1F887, 70), (0x1F890, 0x1F8AD, 70), (0x1F8B0, 0x1F8B1, 130), (0x1F900, 0x1F90B, 100)]

/-- Age. Part 6. -/
def ageRuns_6 : List (Nat × Nat × Nat) :=
  [
   (0x1F90C, 0x1F90C, 130), (0x1F90D, 0x1F90F, 120), (0x1F910, 0x1F918, 80), (0x1F919, 0x1F91E, 90), (0x1F91F, 0x1F91F, 100),
   (0x1F920, 0x1F927, 90), (0x1F928, 0x1F92F, 100), (0x1F930, 0x1F930, 90), (0x1F931, 0x1F932, 100), (0x1F933, 0x1F93E, 90),
   (0x1F93F, 0x1F93F, 120), (0x1F940, 0x1F94B, 90), (0x1F94C, 0x1F94C, 100), (0x1F94D, 0x1F94F, 110), (0x1F950, 0x1F95E, 90),
   (0x1F95F, 0x1F96B, 100), (0x1F96C, 0x1F970, 110), (0x1F971, 0x1F971, 120), (0x1F972, 0x1F972, 130), (0x1F973, 0x1F976, 110),
   (0x1F977, 0x1F978, 130), (0x1F97A, 0x1F97A, 110), (0x1F97B, 0x1F97B, 120), (0x1F97C, 0x1F97F, 110), (0x1F980, 0x1F984, 80),
   (0x1F985, 0x1F991, 90), (0x1F992, 0x1F997, 100), (0x1F998, 0x1F9A2, 110), (0x1F9A3, 0x1F9A4, 130), (0x1F9A5, 0x1F9AA, 120),
   (0x1F9AB, 0x1F9AD, 130), (0x1F9AE, 0x1F9AF, 120), (0x1F9B0, 0x1F9B9, 110), (0x1F9BA, 0x1F9BF, 120), (0x1F9C0, 0x1F9C0, 80),
   (0x1F9C1, 0x1F9C2, 110), (0x1F9C3, 0x1F9CA, 120), (0x1F9CB, 0x1F9CB, 130), (0x1F9CD, 0x1F9CF, 120), (0x1F9D0, 0x1F9E6, 100),
   (0x1F9E7, 0x1F9FF, 110), (0x1FA00, 0x1FA53, 120), (0x1FA60, 0x1FA6D, 110), (0x1FA70, 0x1FA73, 120), (0x1FA74, 0x1FA74, 130),
   (0x1FA78, 0x1FA7A, 120), (0x1FA80, 0x1FA82, 120), (0x1FA83, 0x1FA86, 130), (0x1FA90, 0x1FA95, 120), (0x1FA96, 0x1FAA8, 130),
   (0x1FAB0, 0x1FAB6, 130), (0x1FAC0, 0x1FAC2, 130), (0x1FAD0, 0x1FAD6, 130), (0x1FB00, 0x1FB92, 130), (0x1FB94, 0x1FBCA, 130),
   (0x1FBF0, 0x1FBF9, 130), (0x1FFFE, 0x1FFFF, 20), (0x20000, 0x2A6D6, 31), (0x2A6D7, 0x2A6DD, 130), (0x2A700, 0x2B734, 52),
   (0x2B740, 0x2B81D, 60), (0x2B820, 0x2CEA1, 80), (0x2CEB0, 0x2EBE0, 100), (0x2F800, 0x2FA1D, 31), (0x2FFFE, 0x2FFFF, 20),
   (0x30000, 0x3134A, 130), (0x3FFFE, 0x3FFFF, 20), (0x4FFFE, 0x4FFFF, 20), (0x5FFFE, 0x5FFFF, 20), (0x6FFFE, 0x6FFFF, 20),
   (0x7FFFE, 0x7FFFF, 20), (0x8FFFE, 0x8FFFF, 20), (0x9FFFE, 0x9FFFF, 20), (0xAFFFE, 0xAFFFF, 20), (0xBFFFE, 0xBFFFF, 20),
   (0xCFFFE, 0xCFFFF, 20), (0xDFFFE, 0xDFFFF, 20), (0xE0001, 0xE0001, 31), (0xE0020, 0xE007F, 31), (0xE0100, 0xE01EF, 40),
   (0xEFFFE, 0x10FFFF, 20)]

/-- Age. -/
def ageRuns : List (Nat × Nat × Nat) :=
  ageRuns_1 ++ (ageRuns_2 ++ (ageRuns_3 ++ (ageRuns_4 ++ (ageRuns_5 ++ (ageRuns_6)))))

end Verif.Spec
