/-!
# Line break classes of the Unicode standard, version 13.0

LineBreak.txt. Lines `first, last, value` in ascending order; code points in none of them have the default value. The
default is XX (0).
-/
namespace Verif.Spec
set_option maxRecDepth 10000

/-- The line break classes and their numbers. -/
def lineLegend : List (Nat × String) :=
  [
   (0, "XX"), (1, "AI"), (2, "AL"), (3, "B2"), (4, "BA"), (5, "BB"), (6, "BK"), (7, "CB"), (8, "CL"), (9, "CM"), (10, "CR"),
   (11, "EX"), (12, "GL"), (13, "HY"), (14, "ID"), (15, "IN"), (16, "IS"), (17, "LF"), (18, "NS"), (19, "NU"), (20, "OP"),
   (21, "PO"), (22, "PR"), (23, "QU"), (24, "SA"), (25, "SG"), (26, "SP"), (27, "SY"), (28, "ZW"), (29, "NL"), (30, "WJ"),
   (31, "H2"), (32, "H3"), (33, "JL"), (34, "JT"), (35, "JV"), (36, "CP"), (37, "CJ"), (38, "HL"), (39, "RI"), (40, "EB"),
   (41, "EM"), (42, "ZWJ")]

/-- Line_Break. Part 1. -/
def lineRuns_1 : List (Nat × Nat × Nat) :=
  [
   (0x0, 0x8, 9), (0x9, 0x9, 4), (0xA, 0xA, 17), (0xB, 0xC, 6), (0xD, 0xD, 10), (0xE, 0x1F, 9), (0x20, 0x20, 26), (0x21, 0x21, 11),
   (0x22, 0x22, 23), (0x23, 0x23, 2), (0x24, 0x24, 22), (0x25, 0x25, 21), (0x26, 0x26, 2), (0x27, 0x27, 23), (0x28, 0x28, 20),
   (0x29, 0x29, 36), (0x2A, 0x2A, 2), (0x2B, 0x2B, 22), (0x2C, 0x2C, 16), (0x2D, 0x2D, 13), (0x2E, 0x2E, 16), (0x2F, 0x2F, 27),
   (0x30, 0x39, 19), (0x3A, 0x3B, 16), (0x3C, 0x3E, 2), (0x3F, 0x3F, 11), (0x40, 0x5A, 2), (0x5B, 0x5B, 20), (0x5C, 0x5C, 22),
   (0x5D, 0x5D, 36), (0x5E, 0x7A, 2), (0x7B, 0x7B, 20), (0x7C, 0x7C, 4), (0x7D, 0x7D, 8), (0x7E, 0x7E, 2), (0x7F, 0x84, 9),
   (0x85, 0x85, 29), (0x86, 0x9F, 9), (0xA0, 0xA0, 12), (0xA1, 0xA1, 20), (0xA2, 0xA2, 21), (0xA3, 0xA5, 22), (0xA6, 0xA6, 2),
   (0xA7, 0xA8, 1), (0xA9, 0xA9, 2), (0xAA, 0xAA, 1), (0xAB, 0xAB, 23), (0xAC, 0xAC, 2), (0xAD, 0xAD, 4), (0xAE, 0xAF, 2),
   (0xB0, 0xB0, 21), (0xB1, 0xB1, 22), (0xB2, 0xB3, 1), (0xB4, 0xB4, 5), (0xB5, 0xB5, 2), (0xB6, 0xBA, 1), (0xBB, 0xBB, 23),
   (0xBC, 0xBE, 1), (0xBF, 0xBF, 20), (0xC0, 0xD6, 2), (0xD7, 0xD7, 1), (0xD8, 0xF6, 2), (0xF7, 0xF7, 1), (0xF8, 0x2C6, 2),
   (0x2C7, 0x2C7, 1), (0x2C8, 0x2C8, 5), (0x2C9, 0x2CB, 1), (0x2CC, 0x2CC, 5), (0x2CD, 0x2CD, 1), (0x2CE, 0x2CF, 2),
   (0x2D0, 0x2D0, 1), (0x2D1, 0x2D7, 2), (0x2D8, 0x2DB, 1), (0x2DC, 0x2DC, 2), (0x2DD, 0x2DD, 1), (0x2DE, 0x2DE, 2),
   (0x2DF, 0x2DF, 5), (0x2E0, 0x2FF, 2), (0x300, 0x34E, 9), (0x34F, 0x34F, 12), (0x350, 0x35B, 9), (0x35C, 0x362, 12),
   (0x363, 0x36F, 9), (0x370, 0x377, 2), (0x37A, 0x37D, 2), (0x37E, 0x37E, 16), (0x37F, 0x37F, 2), (0x384, 0x38A, 2),
   (0x38C, 0x38C, 2), (0x38E, 0x3A1, 2), (0x3A3, 0x482, 2), (0x483, 0x489, 9), (0x48A, 0x52F, 2), (0x531, 0x556, 2),
   (0x559, 0x588, 2), (0x589, 0x589, 16), (0x58A, 0x58A, 4), (0x58D, 0x58E, 2), (0x58F, 0x58F, 22), (0x591, 0x5BD, 9),
   (0x5BE, 0x5BE, 4), (0x5BF, 0x5BF, 9), (0x5C0, 0x5C0, 2), (0x5C1, 0x5C2, 9), (0x5C3, 0x5C3, 2), (0x5C4, 0x5C5, 9),
   (0x5C6, 0x5C6, 11), (0x5C7, 0x5C7, 9), (0x5D0, 0x5EA, 38), (0x5EF, 0x5F2, 38), (0x5F3, 0x5F4, 2), (0x600, 0x608, 2),
   (0x609, 0x60B, 21), (0x60C, 0x60D, 16), (0x60E, 0x60F, 2), (0x610, 0x61A, 9), (0x61B, 0x61B, 11), (0x61C, 0x61C, 9),
   (0x61E, 0x61F, 11), (0x620, 0x64A, 2), (0x64B, 0x65F, 9), (0x660, 0x669, 19), (0x66A, 0x66A, 21), (0x66B, 0x66C, 19),
   (0x66D, 0x66F, 2), (0x670, 0x670, 9), (0x671, 0x6D3, 2), (0x6D4, 0x6D4, 11), (0x6D5, 0x6D5, 2), (0x6D6, 0x6DC, 9),
   (0x6DD, 0x6DE, 2), (0x6DF, 0x6E4, 9), (0x6E5, 0x6E6, 2), (0x6E7, 0x6E8, 9), (0x6E9, 0x6E9, 2), (0x6EA, 0x6ED, 9),
   (0x6EE, 0x6EF, 2), (0x6F0, 0x6F9, 19), (0x6FA, 0x70D, 2), (0x70F, 0x710, 2), (0x711, 0x711, 9), (0x712, 0x72F, 2),
   (0x730, 0x74A, 9), (0x74D, 0x7A5, 2), (0x7A6, 0x7B0, 9), (0x7B1, 0x7B1, 2), (0x7C0, 0x7C9, 19), (0x7CA, 0x7EA, 2),
   (0x7EB, 0x7F3, 9), (0x7F4, 0x7F7, 2), (0x7F8, 0x7F8, 16), (0x7F9, 0x7F9, 11), (0x7FA, 0x7FA, 2), (0x7FD, 0x7FD, 9),
   (0x7FE, 0x7FF, 22), (0x800, 0x815, 2), (0x816, 0x819, 9), (0x81A, 0x81A, 2), (0x81B, 0x823, 9), (0x824, 0x824, 2),
   (0x825, 0x827, 9), (0x828, 0x828, 2), (0x829, 0x82D, 9), (0x830, 0x83E, 2), (0x840, 0x858, 2), (0x859, 0x85B, 9),
   (0x85E, 0x85E, 2), (0x860, 0x86A, 2), (0x8A0, 0x8B4, 2), (0x8B6, 0x8C7, 2), (0x8D3, 0x8E1, 9), (0x8E2, 0x8E2, 2),
   (0x8E3, 0x903, 9), (0x904, 0x939, 2), (0x93A, 0x93C, 9), (0x93D, 0x93D, 2), (0x93E, 0x94F, 9), (0x950, 0x950, 2),
   (0x951, 0x957, 9), (0x958, 0x961, 2), (0x962, 0x963, 9), (0x964, 0x965, 4), (0x966, 0x96F, 19), (0x970, 0x980, 2),
   (0x981, 0x983, 9), (0x985, 0x98C, 2), (0x98F, 0x990, 2), (0x993, 0x9A8, 2), (0x9AA, 0x9B0, 2), (0x9B2, 0x9B2, 2),
   (0x9B6, 0x9B9, 2), (0x9BC, 0x9BC, 9), (0x9BD, 0x9BD, 2), (0x9BE, 0x9C4, 9), (0x9C7, 0x9C8, 9), (0x9CB, 0x9CD, 9),
   (0x9CE, 0x9CE, 2), (0x9D7, 0x9D7, 9), (0x9DC, 0x9DD, 2), (0x9DF, 0x9E1, 2), (0x9E2, 0x9E3, 9), (0x9E6, 0x9EF, 19),
   (0x9F0, 0x9F1, 2), (0x9F2, 0x9F3, 21), (0x9F4, 0x9F8, 2), (0x9F9, 0x9F9, 21), (0x9FA, 0x9FA, 2), (0x9FB, 0x9FB, 22),
   (0x9FC, 0x9FD, 2), (0x9FE, 0x9FE, 9), (0xA01, 0xA03, 9), (0xA05, 0xA0A, 2), (0xA0F, 0xA10, 2), (0xA13, 0xA28, 2),
   (0xA2A, 0xA30, 2), (0xA32, 0xA33, 2), (0xA35, 0xA36, 2), (0xA38, 0xA39, 2), (0xA3C, 0xA3C, 9), (0xA3E, 0xA42, 9),
   (0xA47, 0xA48, 9), (0xA4B, 0xA4D, 9), (0xA51, 0xA51, 9), (0xA59, 0xA5C, 2), (0xA5E, 0xA5E, 2), (0xA66, 0xA6F, 19),
   (0xA70, 0xA71, 9), (0xA72, 0xA74, 2), (0xA75, 0xA75, 9), (0xA76, 0xA76, 2), (0xA81, 0xA83, 9), (0xA85, 0xA8D, 2),
   (0xA8F, 0xA91, 2), (0xA93, 0xAA8, 2), (0xAAA, 0xAB0, 2), (0xAB2, 0xAB3, 2), (0xAB5, 0xAB9, 2), (0xABC, 0xABC, 9),
   (0xABD, 0xABD, 2), (0xABE, 0xAC5, 9), (0xAC7, 0xAC9, 9), (0xACB, 0xACD, 9), (0xAD0, 0xAD0, 2), (0xAE0, 0xAE1, 2),
   (0xAE2, 0xAE3, 9), (0xAE6, 0xAEF, 19), (0xAF0, 0xAF0, 2), (0xAF1, 0xAF1, 22), (0xAF9, 0xAF9, 2), (0xAFA, 0xAFF, 9),
   (0xB01, 0xB03, 9), (0xB05, 0xB0C, 2), (0xB0F, 0xB10, 2), (0xB13, 0xB28, 2), (0xB2A, 0xB30, 2), (0xB32, 0xB33, 2),
   (0xB35, 0xB39, 2), (0xB3C, 0xB3C, 9), (0xB3D, 0xB3D, 2), (0xB3E, 0xB44, 9), (0xB47, 0xB48, 9), (0xB4B, 0xB4D, 9),
   (0xB55, 0xB57, 9), (0xB5C, 0xB5D, 2), (0xB5F, 0xB61, 2), (0xB62, 0xB63, 9), (0xB66, 0xB6F, 19), (0xB70, 0xB77, 2),
   (0xB82, 0xB82, 9), (0xB83, 0xB83, 2), (0xB85, 0xB8A, 2), (0xB8E, 0xB90, 2), (0xB92, 0xB95, 2), (0xB99, 0xB9A, 2),
   (0xB9C, 0xB9C, 2), (0xB9E, 0xB9F, 2), (0xBA3, 0xBA4, 2), (0xBA8, 0xBAA, 2), (0xBAE, 0xBB9, 2), (0xBBE, 0xBC2, 9),
   (0xBC6, 0xBC8, 9), (0xBCA, 0xBCD, 9), (0xBD0, 0xBD0, 2), (0xBD7, 0xBD7, 9), (0xBE6, 0xBEF, 19), (0xBF0, 0xBF8, 2),
   (0xBF9, 0xBF9, 22), (0xBFA, 0xBFA, 2), (0xC00, 0xC04, 9), (0xC05, 0xC0C, 2), (0xC0E, 0xC10, 2), (0xC12, 0xC28, 2),
   (0xC2A, 0xC39, 2), (0xC3D, 0xC3D, 2), (0xC3E, 0xC44, 9), (0xC46, 0xC48, 9), (0xC4A, 0xC4D, 9), (0xC55, 0xC56, 9),
   (0xC58, 0xC5A, 2), (0xC60, 0xC61, 2)]

/-- Line_Break. Part 2. -/
def lineRuns_2 : List (Nat × Nat × Nat) :=
  [
   (0xC62, 0xC63, 9), (0xC66, 0xC6F, 19), (0xC77, 0xC77, 5), (0xC78, 0xC80, 2), (0xC81, 0xC83, 9), (0xC84, 0xC84, 5),
   (0xC85, 0xC8C, 2), (0xC8E, 0xC90, 2), (0xC92, 0xCA8, 2), (0xCAA, 0xCB3, 2), (0xCB5, 0xCB9, 2), (0xCBC, 0xCBC, 9),
   (0xCBD, 0xCBD, 2), (0xCBE, 0xCC4, 9), (0xCC6, 0xCC8, 9), (0xCCA, 0xCCD, 9), (0xCD5, 0xCD6, 9), (0xCDE, 0xCDE, 2),
   (0xCE0, 0xCE1, 2), (0xCE2, 0xCE3, 9), (0xCE6, 0xCEF, 19), (0xCF1, 0xCF2, 2), (0xD00, 0xD03, 9), (0xD04, 0xD0C, 2),
   (0xD0E, 0xD10, 2), (0xD12, 0xD3A, 2), (0xD3B, 0xD3C, 9), (0xD3D, 0xD3D, 2), (0xD3E, 0xD44, 9), (0xD46, 0xD48, 9),
   (0xD4A, 0xD4D, 9), (0xD4E, 0xD4F, 2), (0xD54, 0xD56, 2), (0xD57, 0xD57, 9), (0xD58, 0xD61, 2), (0xD62, 0xD63, 9),
   (0xD66, 0xD6F, 19), (0xD70, 0xD78, 2), (0xD79, 0xD79, 21), (0xD7A, 0xD7F, 2), (0xD81, 0xD83, 9), (0xD85, 0xD96, 2),
   (0xD9A, 0xDB1, 2), (0xDB3, 0xDBB, 2), (0xDBD, 0xDBD, 2), (0xDC0, 0xDC6, 2), (0xDCA, 0xDCA, 9), (0xDCF, 0xDD4, 9),
   (0xDD6, 0xDD6, 9), (0xDD8, 0xDDF, 9), (0xDE6, 0xDEF, 19), (0xDF2, 0xDF3, 9), (0xDF4, 0xDF4, 2), (0xE01, 0xE3A, 24),
   (0xE3F, 0xE3F, 22), (0xE40, 0xE4E, 24), (0xE4F, 0xE4F, 2), (0xE50, 0xE59, 19), (0xE5A, 0xE5B, 4), (0xE81, 0xE82, 24),
   (0xE84, 0xE84, 24), (0xE86, 0xE8A, 24), (0xE8C, 0xEA3, 24), (0xEA5, 0xEA5, 24), (0xEA7, 0xEBD, 24), (0xEC0, 0xEC4, 24),
   (0xEC6, 0xEC6, 24), (0xEC8, 0xECD, 24), (0xED0, 0xED9, 19), (0xEDC, 0xEDF, 24), (0xF00, 0xF00, 2), (0xF01, 0xF04, 5),
   (0xF05, 0xF05, 2), (0xF06, 0xF07, 5), (0xF08, 0xF08, 12), (0xF09, 0xF0A, 5), (0xF0B, 0xF0B, 4), (0xF0C, 0xF0C, 12),
   (0xF0D, 0xF11, 11), (0xF12, 0xF12, 12), (0xF13, 0xF13, 2), (0xF14, 0xF14, 11), (0xF15, 0xF17, 2), (0xF18, 0xF19, 9),
   (0xF1A, 0xF1F, 2), (0xF20, 0xF29, 19), (0xF2A, 0xF33, 2), (0xF34, 0xF34, 4), (0xF35, 0xF35, 9), (0xF36, 0xF36, 2),
   (0xF37, 0xF37, 9), (0xF38, 0xF38, 2), (0xF39, 0xF39, 9), (0xF3A, 0xF3A, 20), (0xF3B, 0xF3B, 8), (0xF3C, 0xF3C, 20),
   (0xF3D, 0xF3D, 8), (0xF3E, 0xF3F, 9), (0xF40, 0xF47, 2), (0xF49, 0xF6C, 2), (0xF71, 0xF7E, 9), (0xF7F, 0xF7F, 4),
   (0xF80, 0xF84, 9), (0xF85, 0xF85, 4), (0xF86, 0xF87, 9), (0xF88, 0xF8C, 2), (0xF8D, 0xF97, 9), (0xF99, 0xFBC, 9),
   (0xFBE, 0xFBF, 4), (0xFC0, 0xFC5, 2), (0xFC6, 0xFC6, 9), (0xFC7, 0xFCC, 2), (0xFCE, 0xFCF, 2), (0xFD0, 0xFD1, 5),
   (0xFD2, 0xFD2, 4), (0xFD3, 0xFD3, 5), (0xFD4, 0xFD8, 2), (0xFD9, 0xFDA, 12), (0x1000, 0x103F, 24), (0x1040, 0x1049, 19),
   (0x104A, 0x104B, 4), (0x104C, 0x104F, 2), (0x1050, 0x108F, 24), (0x1090, 0x1099, 19), (0x109A, 0x109F, 24), (0x10A0, 0x10C5, 2),
   (0x10C7, 0x10C7, 2), (0x10CD, 0x10CD, 2), (0x10D0, 0x10FF, 2), (0x1100, 0x115F, 33), (0x1160, 0x11A7, 35), (0x11A8, 0x11FF, 34),
   (0x1200, 0x1248, 2), (0x124A, 0x124D, 2), (0x1250, 0x1256, 2), (0x1258, 0x1258, 2), (0x125A, 0x125D, 2), (0x1260, 0x1288, 2),
   (0x128A, 0x128D, 2), (0x1290, 0x12B0, 2), (0x12B2, 0x12B5, 2), (0x12B8, 0x12BE, 2), (0x12C0, 0x12C0, 2), (0x12C2, 0x12C5, 2),
   (0x12C8, 0x12D6, 2), (0x12D8, 0x1310, 2), (0x1312, 0x1315, 2), (0x1318, 0x135A, 2), (0x135D, 0x135F, 9), (0x1360, 0x1360, 2),
   (0x1361, 0x1361, 4), (0x1362, 0x137C, 2), (0x1380, 0x1399, 2), (0x13A0, 0x13F5, 2), (0x13F8, 0x13FD, 2), (0x1400, 0x1400, 4),
   (0x1401, 0x167F, 2), (0x1680, 0x1680, 4), (0x1681, 0x169A, 2), (0x169B, 0x169B, 20), (0x169C, 0x169C, 8), (0x16A0, 0x16EA, 2),
   (0x16EB, 0x16ED, 4), (0x16EE, 0x16F8, 2), (0x1700, 0x170C, 2), (0x170E, 0x1711, 2), (0x1712, 0x1714, 9), (0x1720, 0x1731, 2),
   (0x1732, 0x1734, 9), (0x1735, 0x1736, 4), (0x1740, 0x1751, 2), (0x1752, 0x1753, 9), (0x1760, 0x176C, 2), (0x176E, 0x1770, 2),
   (0x1772, 0x1773, 9), (0x1780, 0x17D3, 24), (0x17D4, 0x17D5, 4), (0x17D6, 0x17D6, 18), (0x17D7, 0x17D7, 24), (0x17D8, 0x17D8, 4),
   (0x17D9, 0x17D9, 2), (0x17DA, 0x17DA, 4), (0x17DB, 0x17DB, 22), (0x17DC, 0x17DD, 24), (0x17E0, 0x17E9, 19), (0x17F0, 0x17F9, 2),
   (0x1800, 0x1801, 2), (0x1802, 0x1803, 11), (0x1804, 0x1805, 4), (0x1806, 0x1806, 5), (0x1807, 0x1807, 2), (0x1808, 0x1809, 11),
   (0x180A, 0x180A, 2), (0x180B, 0x180D, 9), (0x180E, 0x180E, 12), (0x1810, 0x1819, 19), (0x1820, 0x1878, 2), (0x1880, 0x1884, 2),
   (0x1885, 0x1886, 9), (0x1887, 0x18A8, 2), (0x18A9, 0x18A9, 9), (0x18AA, 0x18AA, 2), (0x18B0, 0x18F5, 2), (0x1900, 0x191E, 2),
   (0x1920, 0x192B, 9), (0x1930, 0x193B, 9), (0x1940, 0x1940, 2), (0x1944, 0x1945, 11), (0x1946, 0x194F, 19), (0x1950, 0x196D, 24),
   (0x1970, 0x1974, 24), (0x1980, 0x19AB, 24), (0x19B0, 0x19C9, 24), (0x19D0, 0x19D9, 19), (0x19DA, 0x19DA, 24),
   (0x19DE, 0x19DF, 24), (0x19E0, 0x1A16, 2), (0x1A17, 0x1A1B, 9), (0x1A1E, 0x1A1F, 2), (0x1A20, 0x1A5E, 24), (0x1A60, 0x1A7C, 24),
   (0x1A7F, 0x1A7F, 9), (0x1A80, 0x1A89, 19), (0x1A90, 0x1A99, 19), (0x1AA0, 0x1AAD, 24), (0x1AB0, 0x1AC0, 9), (0x1B00, 0x1B04, 9),
   (0x1B05, 0x1B33, 2), (0x1B34, 0x1B44, 9), (0x1B45, 0x1B4B, 2), (0x1B50, 0x1B59, 19), (0x1B5A, 0x1B5B, 4), (0x1B5C, 0x1B5C, 2),
   (0x1B5D, 0x1B60, 4), (0x1B61, 0x1B6A, 2), (0x1B6B, 0x1B73, 9), (0x1B74, 0x1B7C, 2), (0x1B80, 0x1B82, 9), (0x1B83, 0x1BA0, 2),
   (0x1BA1, 0x1BAD, 9), (0x1BAE, 0x1BAF, 2), (0x1BB0, 0x1BB9, 19), (0x1BBA, 0x1BE5, 2), (0x1BE6, 0x1BF3, 9), (0x1BFC, 0x1C23, 2),
   (0x1C24, 0x1C37, 9), (0x1C3B, 0x1C3F, 4), (0x1C40, 0x1C49, 19), (0x1C4D, 0x1C4F, 2), (0x1C50, 0x1C59, 19), (0x1C5A, 0x1C7D, 2),
   (0x1C7E, 0x1C7F, 4), (0x1C80, 0x1C88, 2), (0x1C90, 0x1CBA, 2), (0x1CBD, 0x1CC7, 2), (0x1CD0, 0x1CD2, 9), (0x1CD3, 0x1CD3, 2),
   (0x1CD4, 0x1CE8, 9), (0x1CE9, 0x1CEC, 2), (0x1CED, 0x1CED, 9), (0x1CEE, 0x1CF3, 2), (0x1CF4, 0x1CF4, 9), (0x1CF5, 0x1CF6, 2),
   (0x1CF7, 0x1CF9, 9), (0x1CFA, 0x1CFA, 2), (0x1D00, 0x1DBF, 2), (0x1DC0, 0x1DF9, 9), (0x1DFB, 0x1DFF, 9), (0x1E00, 0x1F15, 2),
   (0x1F18, 0x1F1D, 2), (0x1F20, 0x1F45, 2), (0x1F48, 0x1F4D, 2), (0x1F50, 0x1F57, 2), (0x1F59, 0x1F59, 2), (0x1F5B, 0x1F5B, 2),
   (0x1F5D, 0x1F5D, 2), (0x1F5F, 0x1F7D, 2), (0x1F80, 0x1FB4, 2), (0x1FB6, 0x1FC4, 2), (0x1FC6, 0x1FD3, 2), (0x1FD6, 0x1FDB, 2),
   (0x1FDD, 0x1FEF, 2), (0x1FF2, 0x1FF4, 2), (0x1FF6, 0x1FFC, 2), (0x1FFD, 0x1FFD, 5), (0x1FFE, 0x1FFE, 2), (0x2000, 0x2006, 4),
   (0x2007, 0x2007, 12), (0x2008, 0x200A, 4), (0x200B, 0x200B, 28), (0x200C, 0x200C, 9), (0x200D, 0x200D, 42), (0x200E, 0x200F, 9),
   (0x2010, 0x2010, 4), (0x2011, 0x2011, 12), (0x2012, 0x2013, 4), (0x2014, 0x2014, 3), (0x2015, 0x2016, 1), (0x2017, 0x2017, 2),
   (0x2018, 0x2019, 23)]

/-- Line_Break. Part 3. -/
def lineRuns_3 : List (Nat × Nat × Nat) :=
  [
   (0x201A, 0x201A, 20), (0x201B, 0x201D, 23), (0x201E, 0x201E, 20), (0x201F, 0x201F, 23), (0x2020, 0x2021, 1), (0x2022, 0x2023, 2),
   (0x2024, 0x2026, 15), (0x2027, 0x2027, 4), (0x2028, 0x2029, 6), (0x202A, 0x202E, 9), (0x202F, 0x202F, 12), (0x2030, 0x2037, 21),
   (0x2038, 0x2038, 2), (0x2039, 0x203A, 23), (0x203B, 0x203B, 1), (0x203C, 0x203D, 18), (0x203E, 0x2043, 2), (0x2044, 0x2044, 16),
   (0x2045, 0x2045, 20), (0x2046, 0x2046, 8), (0x2047, 0x2049, 18), (0x204A, 0x2055, 2), (0x2056, 0x2056, 4), (0x2057, 0x2057, 2),
   (0x2058, 0x205B, 4), (0x205C, 0x205C, 2), (0x205D, 0x205F, 4), (0x2060, 0x2060, 30), (0x2061, 0x2064, 2), (0x2066, 0x206F, 9),
   (0x2070, 0x2071, 2), (0x2074, 0x2074, 1), (0x2075, 0x207C, 2), (0x207D, 0x207D, 20), (0x207E, 0x207E, 8), (0x207F, 0x207F, 1),
   (0x2080, 0x2080, 2), (0x2081, 0x2084, 1), (0x2085, 0x208C, 2), (0x208D, 0x208D, 20), (0x208E, 0x208E, 8), (0x2090, 0x209C, 2),
   (0x20A0, 0x20A6, 22), (0x20A7, 0x20A7, 21), (0x20A8, 0x20B5, 22), (0x20B6, 0x20B6, 21), (0x20B7, 0x20BA, 22),
   (0x20BB, 0x20BB, 21), (0x20BC, 0x20BD, 22), (0x20BE, 0x20BE, 21), (0x20BF, 0x20CF, 22), (0x20D0, 0x20F0, 9), (0x2100, 0x2102, 2),
   (0x2103, 0x2103, 21), (0x2104, 0x2104, 2), (0x2105, 0x2105, 1), (0x2106, 0x2108, 2), (0x2109, 0x2109, 21), (0x210A, 0x2112, 2),
   (0x2113, 0x2113, 1), (0x2114, 0x2115, 2), (0x2116, 0x2116, 22), (0x2117, 0x2120, 2), (0x2121, 0x2122, 1), (0x2123, 0x212A, 2),
   (0x212B, 0x212B, 1), (0x212C, 0x2153, 2), (0x2154, 0x2155, 1), (0x2156, 0x215A, 2), (0x215B, 0x215B, 1), (0x215C, 0x215D, 2),
   (0x215E, 0x215E, 1), (0x215F, 0x215F, 2), (0x2160, 0x216B, 1), (0x216C, 0x216F, 2), (0x2170, 0x2179, 1), (0x217A, 0x2188, 2),
   (0x2189, 0x2189, 1), (0x218A, 0x218B, 2), (0x2190, 0x2199, 1), (0x219A, 0x21D1, 2), (0x21D2, 0x21D2, 1), (0x21D3, 0x21D3, 2),
   (0x21D4, 0x21D4, 1), (0x21D5, 0x21FF, 2), (0x2200, 0x2200, 1), (0x2201, 0x2201, 2), (0x2202, 0x2203, 1), (0x2204, 0x2206, 2),
   (0x2207, 0x2208, 1), (0x2209, 0x220A, 2), (0x220B, 0x220B, 1), (0x220C, 0x220E, 2), (0x220F, 0x220F, 1), (0x2210, 0x2210, 2),
   (0x2211, 0x2211, 1), (0x2212, 0x2213, 22), (0x2214, 0x2214, 2), (0x2215, 0x2215, 1), (0x2216, 0x2219, 2), (0x221A, 0x221A, 1),
   (0x221B, 0x221C, 2), (0x221D, 0x2220, 1), (0x2221, 0x2222, 2), (0x2223, 0x2223, 1), (0x2224, 0x2224, 2), (0x2225, 0x2225, 1),
   (0x2226, 0x2226, 2), (0x2227, 0x222C, 1), (0x222D, 0x222D, 2), (0x222E, 0x222E, 1), (0x222F, 0x2233, 2), (0x2234, 0x2237, 1),
   (0x2238, 0x223B, 2), (0x223C, 0x223D, 1), (0x223E, 0x2247, 2), (0x2248, 0x2248, 1), (0x2249, 0x224B, 2), (0x224C, 0x224C, 1),
   (0x224D, 0x2251, 2), (0x2252, 0x2252, 1), (0x2253, 0x225F, 2), (0x2260, 0x2261, 1), (0x2262, 0x2263, 2), (0x2264, 0x2267, 1),
   (0x2268, 0x2269, 2), (0x226A, 0x226B, 1), (0x226C, 0x226D, 2), (0x226E, 0x226F, 1), (0x2270, 0x2281, 2), (0x2282, 0x2283, 1),
   (0x2284, 0x2285, 2), (0x2286, 0x2287, 1), (0x2288, 0x2294, 2), (0x2295, 0x2295, 1), (0x2296, 0x2298, 2), (0x2299, 0x2299, 1),
   (0x229A, 0x22A4, 2), (0x22A5, 0x22A5, 1), (0x22A6, 0x22BE, 2), (0x22BF, 0x22BF, 1), (0x22C0, 0x22EE, 2), (0x22EF, 0x22EF, 15),
   (0x22F0, 0x2307, 2), (0x2308, 0x2308, 20), (0x2309, 0x2309, 8), (0x230A, 0x230A, 20), (0x230B, 0x230B, 8), (0x230C, 0x2311, 2),
   (0x2312, 0x2312, 1), (0x2313, 0x2319, 2), (0x231A, 0x231B, 14), (0x231C, 0x2328, 2), (0x2329, 0x2329, 20), (0x232A, 0x232A, 8),
   (0x232B, 0x23EF, 2), (0x23F0, 0x23F3, 14), (0x23F4, 0x2426, 2), (0x2440, 0x244A, 2), (0x2460, 0x24FE, 1), (0x24FF, 0x24FF, 2),
   (0x2500, 0x254B, 1), (0x254C, 0x254F, 2), (0x2550, 0x2574, 1), (0x2575, 0x257F, 2), (0x2580, 0x258F, 1), (0x2590, 0x2591, 2),
   (0x2592, 0x2595, 1), (0x2596, 0x259F, 2), (0x25A0, 0x25A1, 1), (0x25A2, 0x25A2, 2), (0x25A3, 0x25A9, 1), (0x25AA, 0x25B1, 2),
   (0x25B2, 0x25B3, 1), (0x25B4, 0x25B5, 2), (0x25B6, 0x25B7, 1), (0x25B8, 0x25BB, 2), (0x25BC, 0x25BD, 1), (0x25BE, 0x25BF, 2),
   (0x25C0, 0x25C1, 1), (0x25C2, 0x25C5, 2), (0x25C6, 0x25C8, 1), (0x25C9, 0x25CA, 2), (0x25CB, 0x25CB, 1), (0x25CC, 0x25CD, 2),
   (0x25CE, 0x25D1, 1), (0x25D2, 0x25E1, 2), (0x25E2, 0x25E5, 1), (0x25E6, 0x25EE, 2), (0x25EF, 0x25EF, 1), (0x25F0, 0x25FF, 2),
   (0x2600, 0x2603, 14), (0x2604, 0x2604, 2), (0x2605, 0x2606, 1), (0x2607, 0x2608, 2), (0x2609, 0x2609, 1), (0x260A, 0x260D, 2),
   (0x260E, 0x260F, 1), (0x2610, 0x2613, 2), (0x2614, 0x2615, 14), (0x2616, 0x2617, 1), (0x2618, 0x2618, 14), (0x2619, 0x2619, 2),
   (0x261A, 0x261C, 14), (0x261D, 0x261D, 40), (0x261E, 0x261F, 14), (0x2620, 0x2638, 2), (0x2639, 0x263B, 14), (0x263C, 0x263F, 2),
   (0x2640, 0x2640, 1), (0x2641, 0x2641, 2), (0x2642, 0x2642, 1), (0x2643, 0x265F, 2), (0x2660, 0x2661, 1), (0x2662, 0x2662, 2),
   (0x2663, 0x2665, 1), (0x2666, 0x2666, 2), (0x2667, 0x2667, 1), (0x2668, 0x2668, 14), (0x2669, 0x266A, 1), (0x266B, 0x266B, 2),
   (0x266C, 0x266D, 1), (0x266E, 0x266E, 2), (0x266F, 0x266F, 1), (0x2670, 0x267E, 2), (0x267F, 0x267F, 14), (0x2680, 0x269D, 2),
   (0x269E, 0x269F, 1), (0x26A0, 0x26BC, 2), (0x26BD, 0x26C8, 14), (0x26C9, 0x26CC, 1), (0x26CD, 0x26CD, 14), (0x26CE, 0x26CE, 2),
   (0x26CF, 0x26D1, 14), (0x26D2, 0x26D2, 1), (0x26D3, 0x26D4, 14), (0x26D5, 0x26D7, 1), (0x26D8, 0x26D9, 14), (0x26DA, 0x26DB, 1),
   (0x26DC, 0x26DC, 14), (0x26DD, 0x26DE, 1), (0x26DF, 0x26E1, 14), (0x26E2, 0x26E2, 2), (0x26E3, 0x26E3, 1), (0x26E4, 0x26E7, 2),
   (0x26E8, 0x26E9, 1), (0x26EA, 0x26EA, 14), (0x26EB, 0x26F0, 1), (0x26F1, 0x26F5, 14), (0x26F6, 0x26F6, 1), (0x26F7, 0x26F8, 14),
   (0x26F9, 0x26F9, 40), (0x26FA, 0x26FA, 14), (0x26FB, 0x26FC, 1), (0x26FD, 0x2704, 14), (0x2705, 0x2707, 2), (0x2708, 0x2709, 14),
   (0x270A, 0x270D, 40), (0x270E, 0x2756, 2), (0x2757, 0x2757, 1), (0x2758, 0x275A, 2), (0x275B, 0x2760, 23), (0x2761, 0x2761, 2),
   (0x2762, 0x2763, 11), (0x2764, 0x2764, 14), (0x2765, 0x2767, 2), (0x2768, 0x2768, 20), (0x2769, 0x2769, 8), (0x276A, 0x276A, 20),
   (0x276B, 0x276B, 8), (0x276C, 0x276C, 20), (0x276D, 0x276D, 8), (0x276E, 0x276E, 20), (0x276F, 0x276F, 8), (0x2770, 0x2770, 20),
   (0x2771, 0x2771, 8), (0x2772, 0x2772, 20), (0x2773, 0x2773, 8), (0x2774, 0x2774, 20), (0x2775, 0x2775, 8), (0x2776, 0x2793, 1),
   (0x2794, 0x27C4, 2), (0x27C5, 0x27C5, 20), (0x27C6, 0x27C6, 8), (0x27C7, 0x27E5, 2), (0x27E6, 0x27E6, 20), (0x27E7, 0x27E7, 8),
   (0x27E8, 0x27E8, 20), (0x27E9, 0x27E9, 8), (0x27EA, 0x27EA, 20), (0x27EB, 0x27EB, 8), (0x27EC, 0x27EC, 20), (0x27ED, 0x27ED, 8),
   (0x27EE, 0x27EE, 20), (0x27EF, 0x27EF, 8), (0x27F0, 0x2982, 2), (0x2983, 0x2983, 20), (0x2984, 0x2984, 8), (0x2985, 0x2985, 20),
   (0x2986, 0x2986, 8)]

/-- Line_Break. Part 4. -/
def lineRuns_4 : List (Nat × Nat × Nat) :=
  [
   (0x2987, 0x2987, 20), (0x2988, 0x2988, 8), (0x2989, 0x2989, 20), (0x298A, 0x298A, 8), (0x298B, 0x298B, 20), (0x298C, 0x298C, 8),
   (0x298D, 0x298D, 20), (0x298E, 0x298E, 8), (0x298F, 0x298F, 20), (0x2990, 0x2990, 8), (0x2991, 0x2991, 20), (0x2992, 0x2992, 8),
   (0x2993, 0x2993, 20), (0x2994, 0x2994, 8), (0x2995, 0x2995, 20), (0x2996, 0x2996, 8), (0x2997, 0x2997, 20), (0x2998, 0x2998, 8),
   (0x2999, 0x29D7, 2), (0x29D8, 0x29D8, 20), (0x29D9, 0x29D9, 8), (0x29DA, 0x29DA, 20), (0x29DB, 0x29DB, 8), (0x29DC, 0x29FB, 2),
   (0x29FC, 0x29FC, 20), (0x29FD, 0x29FD, 8), (0x29FE, 0x2B54, 2), (0x2B55, 0x2B59, 1), (0x2B5A, 0x2B73, 2), (0x2B76, 0x2B95, 2),
   (0x2B97, 0x2C2E, 2), (0x2C30, 0x2C5E, 2), (0x2C60, 0x2CEE, 2), (0x2CEF, 0x2CF1, 9), (0x2CF2, 0x2CF3, 2), (0x2CF9, 0x2CF9, 11),
   (0x2CFA, 0x2CFC, 4), (0x2CFD, 0x2CFD, 2), (0x2CFE, 0x2CFE, 11), (0x2CFF, 0x2CFF, 4), (0x2D00, 0x2D25, 2), (0x2D27, 0x2D27, 2),
   (0x2D2D, 0x2D2D, 2), (0x2D30, 0x2D67, 2), (0x2D6F, 0x2D6F, 2), (0x2D70, 0x2D70, 4), (0x2D7F, 0x2D7F, 9), (0x2D80, 0x2D96, 2),
   (0x2DA0, 0x2DA6, 2), (0x2DA8, 0x2DAE, 2), (0x2DB0, 0x2DB6, 2), (0x2DB8, 0x2DBE, 2), (0x2DC0, 0x2DC6, 2), (0x2DC8, 0x2DCE, 2),
   (0x2DD0, 0x2DD6, 2), (0x2DD8, 0x2DDE, 2), (0x2DE0, 0x2DFF, 9), (0x2E00, 0x2E0D, 23), (0x2E0E, 0x2E15, 4), (0x2E16, 0x2E16, 2),
   (0x2E17, 0x2E17, 4), (0x2E18, 0x2E18, 20), (0x2E19, 0x2E19, 4), (0x2E1A, 0x2E1B, 2), (0x2E1C, 0x2E1D, 23), (0x2E1E, 0x2E1F, 2),
   (0x2E20, 0x2E21, 23), (0x2E22, 0x2E22, 20), (0x2E23, 0x2E23, 8), (0x2E24, 0x2E24, 20), (0x2E25, 0x2E25, 8), (0x2E26, 0x2E26, 20),
   (0x2E27, 0x2E27, 8), (0x2E28, 0x2E28, 20), (0x2E29, 0x2E29, 8), (0x2E2A, 0x2E2D, 4), (0x2E2E, 0x2E2E, 11), (0x2E2F, 0x2E2F, 2),
   (0x2E30, 0x2E31, 4), (0x2E32, 0x2E32, 2), (0x2E33, 0x2E34, 4), (0x2E35, 0x2E39, 2), (0x2E3A, 0x2E3B, 3), (0x2E3C, 0x2E3E, 4),
   (0x2E3F, 0x2E3F, 2), (0x2E40, 0x2E41, 4), (0x2E42, 0x2E42, 20), (0x2E43, 0x2E4A, 4), (0x2E4B, 0x2E4B, 2), (0x2E4C, 0x2E4C, 4),
   (0x2E4D, 0x2E4D, 2), (0x2E4E, 0x2E4F, 4), (0x2E50, 0x2E52, 2), (0x2E80, 0x2E99, 14), (0x2E9B, 0x2EF3, 14), (0x2F00, 0x2FD5, 14),
   (0x2FF0, 0x2FFB, 14), (0x3000, 0x3000, 4), (0x3001, 0x3002, 8), (0x3003, 0x3004, 14), (0x3005, 0x3005, 18), (0x3006, 0x3007, 14),
   (0x3008, 0x3008, 20), (0x3009, 0x3009, 8), (0x300A, 0x300A, 20), (0x300B, 0x300B, 8), (0x300C, 0x300C, 20), (0x300D, 0x300D, 8),
   (0x300E, 0x300E, 20), (0x300F, 0x300F, 8), (0x3010, 0x3010, 20), (0x3011, 0x3011, 8), (0x3012, 0x3013, 14), (0x3014, 0x3014, 20),
   (0x3015, 0x3015, 8), (0x3016, 0x3016, 20), (0x3017, 0x3017, 8), (0x3018, 0x3018, 20), (0x3019, 0x3019, 8), (0x301A, 0x301A, 20),
   (0x301B, 0x301B, 8), (0x301C, 0x301C, 18), (0x301D, 0x301D, 20), (0x301E, 0x301F, 8), (0x3020, 0x3029, 14), (0x302A, 0x302F, 9),
   (0x3030, 0x3034, 14), (0x3035, 0x3035, 9), (0x3036, 0x303A, 14), (0x303B, 0x303C, 18), (0x303D, 0x303F, 14),
   (0x3041, 0x3041, 37), (0x3042, 0x3042, 14), (0x3043, 0x3043, 37), (0x3044, 0x3044, 14), (0x3045, 0x3045, 37),
   (0x3046, 0x3046, 14), (0x3047, 0x3047, 37), (0x3048, 0x3048, 14), (0x3049, 0x3049, 37), (0x304A, 0x3062, 14),
   (0x3063, 0x3063, 37), (0x3064, 0x3082, 14), (0x3083, 0x3083, 37), (0x3084, 0x3084, 14), (0x3085, 0x3085, 37),
   (0x3086, 0x3086, 14), (0x3087, 0x3087, 37), (0x3088, 0x308D, 14), (0x308E, 0x308E, 37), (0x308F, 0x3094, 14),
   (0x3095, 0x3096, 37), (0x3099, 0x309A, 9), (0x309B, 0x309E, 18), (0x309F, 0x309F, 14), (0x30A0, 0x30A0, 18),
   (0x30A1, 0x30A1, 37), (0x30A2, 0x30A2, 14), (0x30A3, 0x30A3, 37), (0x30A4, 0x30A4, 14), (0x30A5, 0x30A5, 37),
   (0x30A6, 0x30A6, 14), (0x30A7, 0x30A7, 37), (0x30A8, 0x30A8, 14), (0x30A9, 0x30A9, 37), (0x30AA, 0x30C2, 14),
   (0x30C3, 0x30C3, 37), (0x30C4, 0x30E2, 14), (0x30E3, 0x30E3, 37), (0x30E4, 0x30E4, 14), (0x30E5, 0x30E5, 37),
   (0x30E6, 0x30E6, 14), (0x30E7, 0x30E7, 37), (0x30E8, 0x30ED, 14), (0x30EE, 0x30EE, 37), (0x30EF, 0x30F4, 14),
   (0x30F5, 0x30F6, 37), (0x30F7, 0x30FA, 14), (0x30FB, 0x30FB, 18), (0x30FC, 0x30FC, 37), (0x30FD, 0x30FE, 18),
   (0x30FF, 0x30FF, 14), (0x3105, 0x312F, 14), (0x3131, 0x318E, 14), (0x3190, 0x31E3, 14), (0x31F0, 0x31FF, 37),
   (0x3200, 0x321E, 14), (0x3220, 0x3247, 14), (0x3248, 0x324F, 1), (0x3250, 0x4DBF, 14), (0x4DC0, 0x4DFF, 2), (0x4E00, 0xA014, 14),
   (0xA015, 0xA015, 18), (0xA016, 0xA48C, 14), (0xA490, 0xA4C6, 14), (0xA4D0, 0xA4FD, 2), (0xA4FE, 0xA4FF, 4), (0xA500, 0xA60C, 2),
   (0xA60D, 0xA60D, 4), (0xA60E, 0xA60E, 11), (0xA60F, 0xA60F, 4), (0xA610, 0xA61F, 2), (0xA620, 0xA629, 19), (0xA62A, 0xA62B, 2),
   (0xA640, 0xA66E, 2), (0xA66F, 0xA672, 9), (0xA673, 0xA673, 2), (0xA674, 0xA67D, 9), (0xA67E, 0xA69D, 2), (0xA69E, 0xA69F, 9),
   (0xA6A0, 0xA6EF, 2), (0xA6F0, 0xA6F1, 9), (0xA6F2, 0xA6F2, 2), (0xA6F3, 0xA6F7, 4), (0xA700, 0xA7BF, 2), (0xA7C2, 0xA7CA, 2),
   (0xA7F5, 0xA801, 2), (0xA802, 0xA802, 9), (0xA803, 0xA805, 2), (0xA806, 0xA806, 9), (0xA807, 0xA80A, 2), (0xA80B, 0xA80B, 9),
   (0xA80C, 0xA822, 2), (0xA823, 0xA827, 9), (0xA828, 0xA82B, 2), (0xA82C, 0xA82C, 9), (0xA830, 0xA837, 2), (0xA838, 0xA838, 21),
   (0xA839, 0xA839, 2), (0xA840, 0xA873, 2), (0xA874, 0xA875, 5), (0xA876, 0xA877, 11), (0xA880, 0xA881, 9), (0xA882, 0xA8B3, 2),
   (0xA8B4, 0xA8C5, 9), (0xA8CE, 0xA8CF, 4), (0xA8D0, 0xA8D9, 19), (0xA8E0, 0xA8F1, 9), (0xA8F2, 0xA8FB, 2), (0xA8FC, 0xA8FC, 5),
   (0xA8FD, 0xA8FE, 2), (0xA8FF, 0xA8FF, 9), (0xA900, 0xA909, 19), (0xA90A, 0xA925, 2), (0xA926, 0xA92D, 9), (0xA92E, 0xA92F, 4),
   (0xA930, 0xA946, 2), (0xA947, 0xA953, 9), (0xA95F, 0xA95F, 2), (0xA960, 0xA97C, 33), (0xA980, 0xA983, 9), (0xA984, 0xA9B2, 2),
   (0xA9B3, 0xA9C0, 9), (0xA9C1, 0xA9C6, 2), (0xA9C7, 0xA9C9, 4), (0xA9CA, 0xA9CD, 2), (0xA9CF, 0xA9CF, 2), (0xA9D0, 0xA9D9, 19),
   (0xA9DE, 0xA9DF, 2), (0xA9E0, 0xA9EF, 24), (0xA9F0, 0xA9F9, 19), (0xA9FA, 0xA9FE, 24), (0xAA00, 0xAA28, 2), (0xAA29, 0xAA36, 9),
   (0xAA40, 0xAA42, 2), (0xAA43, 0xAA43, 9), (0xAA44, 0xAA4B, 2), (0xAA4C, 0xAA4D, 9), (0xAA50, 0xAA59, 19), (0xAA5C, 0xAA5C, 2),
   (0xAA5D, 0xAA5F, 4), (0xAA60, 0xAAC2, 24), (0xAADB, 0xAADF, 24), (0xAAE0, 0xAAEA, 2), (0xAAEB, 0xAAEF, 9), (0xAAF0, 0xAAF1, 4),
   (0xAAF2, 0xAAF4, 2), (0xAAF5, 0xAAF6, 9), (0xAB01, 0xAB06, 2), (0xAB09, 0xAB0E, 2), (0xAB11, 0xAB16, 2), (0xAB20, 0xAB26, 2),
   (0xAB28, 0xAB2E, 2), (0xAB30, 0xAB6B, 2), (0xAB70, 0xABE2, 2), (0xABE3, 0xABEA, 9), (0xABEB, 0xABEB, 4), (0xABEC, 0xABED, 9),
   (0xABF0, 0xABF9, 19), (0xAC00, 0xAC00, 31), (0xAC01, 0xAC1B, 32), (0xAC1C, 0xAC1C, 31), (0xAC1D, 0xAC37, 32),
   (0xAC38, 0xAC38, 31), (0xAC39, 0xAC53, 32), (0xAC54, 0xAC54, 31), (0xAC55, 0xAC6F, 32), (0xAC70, 0xAC70, 31),
   (0xAC71, 0xAC8B, 32), (0xAC8C, 0xAC8C, 31)]

/-- Line_Break. Part 5. -/
def lineRuns_5 : List (Nat × Nat × Nat) :=
  [
   (0xAC8D, 0xACA7, 32), (0xACA8, 0xACA8, 31), (0xACA9, 0xACC3, 32), (0xACC4, 0xACC4, 31), (0xACC5, 0xACDF, 32),
   (0xACE0, 0xACE0, 31), (0xACE1, 0xACFB, 32), (0xACFC, 0xACFC, 31), (0xACFD, 0xAD17, 32), (0xAD18, 0xAD18, 31),
   (0xAD19, 0xAD33, 32), (0xAD34, 0xAD34, 31), (0xAD35, 0xAD4F, 32), (0xAD50, 0xAD50, 31), (0xAD51, 0xAD6B, 32),
   (0xAD6C, 0xAD6C, 31), (0xAD6D, 0xAD87, 32), (0xAD88, 0xAD88, 31), (0xAD89, 0xADA3, 32), (0xADA4, 0xADA4, 31),
   (0xADA5, 0xADBF, 32), (0xADC0, 0xADC0, 31), (0xADC1, 0xADDB, 32), (0xADDC, 0xADDC, 31), (0xADDD, 0xADF7, 32),
   (0xADF8, 0xADF8, 31), (0xADF9, 0xAE13, 32), (0xAE14, 0xAE14, 31), (0xAE15, 0xAE2F, 32), (0xAE30, 0xAE30, 31),
   (0xAE31, 0xAE4B, 32), (0xAE4C, 0xAE4C, 31), (0xAE4D, 0xAE67, 32), (0xAE68, 0xAE68, 31), (0xAE69, 0xAE83, 32),
   (0xAE84, 0xAE84, 31), (0xAE85, 0xAE9F, 32), (0xAEA0, 0xAEA0, 31), (0xAEA1, 0xAEBB, 32), (0xAEBC, 0xAEBC, 31),
   (0xAEBD, 0xAED7, 32), (0xAED8, 0xAED8, 31), (0xAED9, 0xAEF3, 32), (0xAEF4, 0xAEF4, 31), (0xAEF5, 0xAF0F, 32),
   (0xAF10, 0xAF10, 31), (0xAF11, 0xAF2B, 32), (0xAF2C, 0xAF2C, 31), (0xAF2D, 0xAF47, 32), (0xAF48, 0xAF48, 31),
   (0xAF49, 0xAF63, 32), (0xAF64, 0xAF64, 31), (0xAF65, 0xAF7F, 32), (0xAF80, 0xAF80, 31), (0xAF81, 0xAF9B, 32),
   (0xAF9C, 0xAF9C, 31), (0xAF9D, 0xAFB7, 32), (0xAFB8, 0xAFB8, 31), (0xAFB9, 0xAFD3, 32), (0xAFD4, 0xAFD4, 31),
   (0xAFD5, 0xAFEF, 32), (0xAFF0, 0xAFF0, 31), (0xAFF1, 0xB00B, 32), (0xB00C, 0xB00C, 31), (0xB00D, 0xB027, 32),
   (0xB028, 0xB028, 31), (0xB029, 0xB043, 32), (0xB044, 0xB044, 31), (0xB045, 0xB05F, 32), (0xB060, 0xB060, 31),
   (0xB061, 0xB07B, 32), (0xB07C, 0xB07C, 31), (0xB07D, 0xB097, 32), (0xB098, 0xB098, 31), (0xB099, 0xB0B3, 32),
   (0xB0B4, 0xB0B4, 31), (0xB0B5, 0xB0CF, 32), (0xB0D0, 0xB0D0, 31), (0xB0D1, 0xB0EB, 32), (0xB0EC, 0xB0EC, 31),
   (0xB0ED, 0xB107, 32), (0xB108, 0xB108, 31), (0xB109, 0xB123, 32), (0xB124, 0xB124, 31), (0xB125, 0xB13F, 32),
   (0xB140, 0xB140, 31), (0xB141, 0xB15B, 32), (0xB15C, 0xB15C, 31), (0xB15D, 0xB177, 32), (0xB178, 0xB178, 31),
   (0xB179, 0xB193, 32), (0xB194, 0xB194, 31), (0xB195, 0xB1AF, 32), (0xB1B0, 0xB1B0, 31), (0xB1B1, 0xB1CB, 32),
   (0xB1CC, 0xB1CC, 31), (0xB1CD, 0xB1E7, 32), (0xB1E8, 0xB1E8, 31), (0xB1E9, 0xB203, 32), (0xB204, 0xB204, 31),
   (0xB205, 0xB21F, 32), (0xB220, 0xB220, 31), (0xB221, 0xB23B, 32), (0xB23C, 0xB23C, 31), (0xB23D, 0xB257, 32),
   (0xB258, 0xB258, 31), (0xB259, 0xB273, 32), (0xB274, 0xB274, 31), (0xB275, 0xB28F, 32), (0xB290, 0xB290, 31),
   (0xB291, 0xB2AB, 32), (0xB2AC, 0xB2AC, 31), (0xB2AD, 0xB2C7, 32), (0xB2C8, 0xB2C8, 31), (0xB2C9, 0xB2E3, 32),
   (0xB2E4, 0xB2E4, 31), (0xB2E5, 0xB2FF, 32), (0xB300, 0xB300, 31), (0xB301, 0xB31B, 32), (0xB31C, 0xB31C, 31),
   (0xB31D, 0xB337, 32), (0xB338, 0xB338, 31), (0xB339, 0xB353, 32), (0xB354, 0xB354, 31), (0xB355, 0xB36F, 32),
   (0xB370, 0xB370, 31), (0xB371, 0xB38B, 32), (0xB38C, 0xB38C, 31), (0xB38D, 0xB3A7, 32), (0xB3A8, 0xB3A8, 31),
   (0xB3A9, 0xB3C3, 32), (0xB3C4, 0xB3C4, 31), (0xB3C5, 0xB3DF, 32), (0xB3E0, 0xB3E0, 31), (0xB3E1, 0xB3FB, 32),
   (0xB3FC, 0xB3FC, 31), (0xB3FD, 0xB417, 32), (0xB418, 0xB418, 31), (0xB419, 0xB433, 32), (0xB434, 0xB434, 31),
   (0xB435, 0xB44F, 32), (0xB450, 0xB450, 31), (0xB451, 0xB46B, 32), (0xB46C, 0xB46C, 31), (0xB46D, 0xB487, 32),
   (0xB488, 0xB488, 31), (0xB489, 0xB4A3, 32), (0xB4A4, 0xB4A4, 31), (0xB4A5, 0xB4BF, 32), (0xB4C0, 0xB4C0, 31),
   (0xB4C1, 0xB4DB, 32), (0xB4DC, 0xB4DC, 31), (0xB4DD, 0xB4F7, 32), (0xB4F8, 0xB4F8, 31), (0xB4F9, 0xB513, 32),
   (0xB514, 0xB514, 31), (0xB515, 0xB52F, 32), (0xB530, 0xB530, 31), (0xB531, 0xB54B, 32), (0xB54C, 0xB54C, 31),
   (0xB54D, 0xB567, 32), (0xB568, 0xB568, 31), (0xB569, 0xB583, 32), (0xB584, 0xB584, 31), (0xB585, 0xB59F, 32),
   (0xB5A0, 0xB5A0, 31), (0xB5A1, 0xB5BB, 32), (0xB5BC, 0xB5BC, 31), (0xB5BD, 0xB5D7, 32), (0xB5D8, 0xB5D8, 31),
   (0xB5D9, 0xB5F3, 32), (0xB5F4, 0xB5F4, 31), (0xB5F5, 0xB60F, 32), (0xB610, 0xB610, 31), (0xB611, 0xB62B, 32),
   (0xB62C, 0xB62C, 31), (0xB62D, 0xB647, 32), (0xB648, 0xB648, 31), (0xB649, 0xB663, 32), (0xB664, 0xB664, 31),
   (0xB665, 0xB67F, 32), (0xB680, 0xB680, 31), (0xB681, 0xB69B, 32), (0xB69C, 0xB69C, 31), (0xB69D, 0xB6B7, 32),
   (0xB6B8, 0xB6B8, 31), (0xB6B9, 0xB6D3, 32), (0xB6D4, 0xB6D4, 31), (0xB6D5, 0xB6EF, 32), (0xB6F0, 0xB6F0, 31),
   (0xB6F1, 0xB70B, 32), (0xB70C, 0xB70C, 31), (0xB70D, 0xB727, 32), (0xB728, 0xB728, 31), (0xB729, 0xB743, 32),
   (0xB744, 0xB744, 31), (0xB745, 0xB75F, 32), (0xB760, 0xB760, 31), (0xB761, 0xB77B, 32), (0xB77C, 0xB77C, 31),
   (0xB77D, 0xB797, 32), (0xB798, 0xB798, 31), (0xB799, 0xB7B3, 32), (0xB7B4, 0xB7B4, 31), (0xB7B5, 0xB7CF, 32),
   (0xB7D0, 0xB7D0, 31), (0xB7D1, 0xB7EB, 32), (0xB7EC, 0xB7EC, 31), (0xB7ED, 0xB807, 32), (0xB808, 0xB808, 31),
   (0xB809, 0xB823, 32), (0xB824, 0xB824, 31), (0xB825, 0xB83F, 32), (0xB840, 0xB840, 31), (0xB841, 0xB85B, 32),
   (0xB85C, 0xB85C, 31), (0xB85D, 0xB877, 32), (0xB878, 0xB878, 31), (0xB879, 0xB893, 32), (0xB894, 0xB894, 31),
   (0xB895, 0xB8AF, 32), (0xB8B0, 0xB8B0, 31), (0xB8B1, 0xB8CB, 32), (0xB8CC, 0xB8CC, 31), (0xB8CD, 0xB8E7, 32),
   (0xB8E8, 0xB8E8, 31), (0xB8E9, 0xB903, 32), (0xB904, 0xB904, 31), (0xB905, 0xB91F, 32), (0xB920, 0xB920, 31),
   (0xB921, 0xB93B, 32), (0xB93C, 0xB93C, 31), (0xB93D, 0xB957, 32), (0xB958, 0xB958, 31), (0xB959, 0xB973, 32),
   (0xB974, 0xB974, 31), (0xB975, 0xB98F, 32), (0xB990, 0xB990, 31), (0xB991, 0xB9AB, 32), (0xB9AC, 0xB9AC, 31),
   (0xB9AD, 0xB9C7, 32), (0xB9C8, 0xB9C8, 31), (0xB9C9, 0xB9E3, 32), (0xB9E4, 0xB9E4, 31), (0xB9E5, 0xB9FF, 32),
   (0xBA00, 0xBA00, 31), (0xBA01, 0xBA1B, 32), (0xBA1C, 0xBA1C, 31), (0xBA1D, 0xBA37, 32), (0xBA38, 0xBA38, 31),
   (0xBA39, 0xBA53, 32), (0xBA54, 0xBA54, 31), (0xBA55, 0xBA6F, 32), (0xBA70, 0xBA70, 31), (0xBA71, 0xBA8B, 32),
   (0xBA8C, 0xBA8C, 31), (0xBA8D, 0xBAA7, 32), (0xBAA8, 0xBAA8, 31), (0xBAA9, 0xBAC3, 32), (0xBAC4, 0xBAC4, 31),
   (0xBAC5, 0xBADF, 32), (0xBAE0, 0xBAE0, 31), (0xBAE1, 0xBAFB, 32), (0xBAFC, 0xBAFC, 31), (0xBAFD, 0xBB17, 32),
   (0xBB18, 0xBB18, 31), (0xBB19, 0xBB33, 32), (0xBB34, 0xBB34, 31), (0xBB35, 0xBB4F, 32), (0xBB50, 0xBB50, 31),
   (0xBB51, 0xBB6B, 32), (0xBB6C, 0xBB6C, 31), (0xBB6D, 0xBB87, 32), (0xBB88, 0xBB88, 31), (0xBB89, 0xBBA3, 32),
   (0xBBA4, 0xBBA4, 31), (0xBBA5, 0xBBBF, 32), (0xBBC0, 0xBBC0, 31), (0xBBC1, 0xBBDB, 32), (0xBBDC, 0xBBDC, 31),
   (0xBBDD, 0xBBF7, 32), (0xBBF8, 0xBBF8, 31), (0xBBF9, 0xBC13, 32), (0xBC14, 0xBC14, 31), (0xBC15, 0xBC2F, 32),
   (0xBC30, 0xBC30, 31), (0xBC31, 0xBC4B, 32), (0xBC4C, 0xBC4C, 31), (0xBC4D, 0xBC67, 32), (0xBC68, 0xBC68, 31),
   (0xBC69, 0xBC83, 32), (0xBC84, 0xBC84, 31), (0xBC85, 0xBC9F, 32), (0xBCA0, 0xBCA0, 31), (0xBCA1, 0xBCBB, 32),
   (0xBCBC, 0xBCBC, 31), (0xBCBD, 0xBCD7, 32), (0xBCD8, 0xBCD8, 31), (0xBCD9, 0xBCF3, 32), (0xBCF4, 0xBCF4, 31)]

/-- Line_Break. Part 6. -/
def lineRuns_6 : List (Nat × Nat × Nat) :=
  [
   (0xBCF5, 0xBD0F, 32), (0xBD10, 0xBD10, 31), (0xBD11, 0xBD2B, 32), (0xBD2C, 0xBD2C, 31), (0xBD2D, 0xBD47, 32),
   (0xBD48, 0xBD48, 31), (0xBD49, 0xBD63, 32), (0xBD64, 0xBD64, 31), (0xBD65, 0xBD7F, 32), (0xBD80, 0xBD80, 31),
   (0xBD81, 0xBD9B, 32), (0xBD9C, 0xBD9C, 31), (0xBD9D, 0xBDB7, 32), (0xBDB8, 0xBDB8, 31), (0xBDB9, 0xBDD3, 32),
   (0xBDD4, 0xBDD4, 31), (0xBDD5, 0xBDEF, 32), (0xBDF0, 0xBDF0, 31), (0xBDF1, 0xBE0B, 32), (0xBE0C, 0xBE0C, 31),
   (0xBE0D, 0xBE27, 32), (0xBE28, 0xBE28, 31), (0xBE29, 0xBE43, 32), (0xBE44, 0xBE44, 31), (0xBE45, 0xBE5F, 32),
   (0xBE60, 0xBE60, 31), (0xBE61, 0xBE7B, 32), (0xBE7C, 0xBE7C, 31), (0xBE7D, 0xBE97, 32), (0xBE98, 0xBE98, 31),
   (0xBE99, 0xBEB3, 32), (0xBEB4, 0xBEB4, 31), (0xBEB5, 0xBECF, 32), (0xBED0, 0xBED0, 31), (0xBED1, 0xBEEB, 32),
   (0xBEEC, 0xBEEC, 31), (0xBEED, 0xBF07, 32), (0xBF08, 0xBF08, 31), (0xBF09, 0xBF23, 32), (0xBF24, 0xBF24, 31),
   (0xBF25, 0xBF3F, 32), (0xBF40, 0xBF40, 31), (0xBF41, 0xBF5B, 32), (0xBF5C, 0xBF5C, 31), (0xBF5D, 0xBF77, 32),
   (0xBF78, 0xBF78, 31), (0xBF79, 0xBF93, 32), (0xBF94, 0xBF94, 31), (0xBF95, 0xBFAF, 32), (0xBFB0, 0xBFB0, 31),
   (0xBFB1, 0xBFCB, 32), (0xBFCC, 0xBFCC, 31), (0xBFCD, 0xBFE7, 32), (0xBFE8, 0xBFE8, 31), (0xBFE9, 0xC003, 32),
   (0xC004, 0xC004, 31), (0xC005, 0xC01F, 32), (0xC020, 0xC020, 31), (0xC021, 0xC03B, 32), (0xC03C, 0xC03C, 31),
   (0xC03D, 0xC057, 32), (0xC058, 0xC058, 31), (0xC059, 0xC073, 32), (0xC074, 0xC074, 31), (0xC075, 0xC08F, 32),
   (0xC090, 0xC090, 31), (0xC091, 0xC0AB, 32), (0xC0AC, 0xC0AC, 31), (0xC0AD, 0xC0C7, 32), (0xC0C8, 0xC0C8, 31),
   (0xC0C9, 0xC0E3, 32), (0xC0E4, 0xC0E4, 31), (0xC0E5, 0xC0FF, 32), (0xC100, 0xC100, 31), (0xC101, 0xC11B, 32),
   (0xC11C, 0xC11C, 31), (0xC11D, 0xC137, 32), (0xC138, 0xC138, 31), (0xC139, 0xC153, 32), (0xC154, 0xC154, 31),
   (0xC155, 0xC16F, 32), (0xC170, 0xC170, 31), (0xC171, 0xC18B, 32), (0xC18C, 0xC18C, 31), (0xC18D, 0xC1A7, 32),
   (0xC1A8, 0xC1A8, 31), (0xC1A9, 0xC1C3, 32), (0xC1C4, 0xC1C4, 31), (0xC1C5, 0xC1DF, 32), (0xC1E0, 0xC1E0, 31),
   (0xC1E1, 0xC1FB, 32), (0xC1FC, 0xC1FC, 31), (0xC1FD, 0xC217, 32), (0xC218, 0xC218, 31), (0xC219, 0xC233, 32),
   (0xC234, 0xC234, 31), (0xC235, 0xC24F, 32), (0xC250, 0xC250, 31), (0xC251, 0xC26B, 32), (0xC26C, 0xC26C, 31),
   (0xC26D, 0xC287, 32), (0xC288, 0xC288, 31), (0xC289, 0xC2A3, 32), (0xC2A4, 0xC2A4, 31), (0xC2A5, 0xC2BF, 32),
   (0xC2C0, 0xC2C0, 31), (0xC2C1, 0xC2DB, 32), (0xC2DC, 0xC2DC, 31), (0xC2DD, 0xC2F7, 32), (0xC2F8, 0xC2F8, 31),
   (0xC2F9, 0xC313, 32), (0xC314, 0xC314, 31), (0xC315, 0xC32F, 32), (0xC330, 0xC330, 31), (0xC331, 0xC34B, 32),
   (0xC34C, 0xC34C, 31), (0xC34D, 0xC367, 32), (0xC368, 0xC368, 31), (0xC369, 0xC383, 32), (0xC384, 0xC384, 31),
   (0xC385, 0xC39F, 32), (0xC3A0, 0xC3A0, 31), (0xC3A1, 0xC3BB, 32), (0xC3BC, 0xC3BC, 31), (0xC3BD, 0xC3D7, 32),
   (0xC3D8, 0xC3D8, 31), (0xC3D9, 0xC3F3, 32), (0xC3F4, 0xC3F4, 31), (0xC3F5, 0xC40F, 32), (0xC410, 0xC410, 31),
   (0xC411, 0xC42B, 32), (0xC42C, 0xC42C, 31), (0xC42D, 0xC447, 32), (0xC448, 0xC448, 31), (0xC449, 0xC463, 32),
   (0xC464, 0xC464, 31), (0xC465, 0xC47F, 32), (0xC480, 0xC480, 31), (0xC481, 0xC49B, 32), (0xC49C, 0xC49C, 31),
   (0xC49D, 0xC4B7, 32), (0xC4B8, 0xC4B8, 31), (0xC4B9, 0xC4D3, 32), (0xC4D4, 0xC4D4, 31), (0xC4D5, 0xC4EF, 32),
   (0xC4F0, 0xC4F0, 31), (0xC4F1, 0xC50B, 32), (0xC50C, 0xC50C, 31), (0xC50D, 0xC527, 32), (0xC528, 0xC528, 31),
   (0xC529, 0xC543, 32), (0xC544, 0xC544, 31), (0xC545, 0xC55F, 32), (0xC560, 0xC560, 31), (0xC561, 0xC57B, 32),
   (0xC57C, 0xC57C, 31), (0xC57D, 0xC597, 32), (0xC598, 0xC598, 31), (0xC599, 0xC5B3, 32), (0xC5B4, 0xC5B4, 31),
   (0xC5B5, 0xC5CF, 32), (0xC5D0, 0xC5D0, 31), (0xC5D1, 0xC5EB, 32), (0xC5EC, 0xC5EC, 31), (0xC5ED, 0xC607, 32),
   (0xC608, 0xC608, 31), (0xC609, 0xC623, 32), (0xC624, 0xC624, 31), (0xC625, 0xC63F, 32), (0xC640, 0xC640, 31),
   (0xC641, 0xC65B, 32), (0xC65C, 0xC65C, 31), (0xC65D, 0xC677, 32), (0xC678, 0xC678, 31), (0xC679, 0xC693, 32),
   (0xC694, 0xC694, 31), (0xC695, 0xC6AF, 32), (0xC6B0, 0xC6B0, 31), (0xC6B1, 0xC6CB, 32), (0xC6CC, 0xC6CC, 31),
   (0xC6CD, 0xC6E7, 32), (0xC6E8, 0xC6E8, 31), (0xC6E9, 0xC703, 32), (0xC704, 0xC704, 31), (0xC705, 0xC71F, 32),
   (0xC720, 0xC720, 31), (0xC721, 0xC73B, 32), (0xC73C, 0xC73C, 31), (0xC73D, 0xC757, 32), (0xC758, 0xC758, 31),
   (0xC759, 0xC773, 32), (0xC774, 0xC774, 31), (0xC775, 0xC78F, 32), (0xC790, 0xC790, 31), (0xC791, 0xC7AB, 32),
   (0xC7AC, 0xC7AC, 31), (0xC7AD, 0xC7C7, 32), (0xC7C8, 0xC7C8, 31), (0xC7C9, 0xC7E3, 32), (0xC7E4, 0xC7E4, 31),
   (0xC7E5, 0xC7FF, 32), (0xC800, 0xC800, 31), (0xC801, 0xC81B, 32), (0xC81C, 0xC81C, 31), (0xC81D, 0xC837, 32),
   (0xC838, 0xC838, 31), (0xC839, 0xC853, 32), (0xC854, 0xC854, 31), (0xC855, 0xC86F, 32), (0xC870, 0xC870, 31),
   (0xC871, 0xC88B, 32), (0xC88C, 0xC88C, 31), (0xC88D, 0xC8A7, 32), (0xC8A8, 0xC8A8, 31), (0xC8A9, 0xC8C3, 32),
   (0xC8C4, 0xC8C4, 31), (0xC8C5, 0xC8DF, 32), (0xC8E0, 0xC8E0, 31), (0xC8E1, 0xC8FB, 32), (0xC8FC, 0xC8FC, 31),
   (0xC8FD, 0xC917, 32), (0xC918, 0xC918, 31), (0xC919, 0xC933, 32), (0xC934, 0xC934, 31), (0xC935, 0xC94F, 32),
   (0xC950, 0xC950, 31), (0xC951, 0xC96B, 32), (0xC96C, 0xC96C, 31), (0xC96D, 0xC987, 32), (0xC988, 0xC988, 31),
   (0xC989, 0xC9A3, 32), (0xC9A4, 0xC9A4, 31), (0xC9A5, 0xC9BF, 32), (0xC9C0, 0xC9C0, 31), (0xC9C1, 0xC9DB, 32),
   (0xC9DC, 0xC9DC, 31), (0xC9DD, 0xC9F7, 32), (0xC9F8, 0xC9F8, 31), (0xC9F9, 0xCA13, 32), (0xCA14, 0xCA14, 31),
   (0xCA15, 0xCA2F, 32), (0xCA30, 0xCA30, 31), (0xCA31, 0xCA4B, 32), (0xCA4C, 0xCA4C, 31), (0xCA4D, 0xCA67, 32),
   (0xCA68, 0xCA68, 31), (0xCA69, 0xCA83, 32), (0xCA84, 0xCA84, 31), (0xCA85, 0xCA9F, 32), (0xCAA0, 0xCAA0, 31),
   (0xCAA1, 0xCABB, 32), (0xCABC, 0xCABC, 31), (0xCABD, 0xCAD7, 32), (0xCAD8, 0xCAD8, 31), (0xCAD9, 0xCAF3, 32),
   (0xCAF4, 0xCAF4, 31), (0xCAF5, 0xCB0F, 32), (0xCB10, 0xCB10, 31), (0xCB11, 0xCB2B, 32), (0xCB2C, 0xCB2C, 31),
   (0xCB2D, 0xCB47, 32), (0xCB48, 0xCB48, 31), (0xCB49, 0xCB63, 32), (0xCB64, 0xCB64, 31), (0xCB65, 0xCB7F, 32),
   (0xCB80, 0xCB80, 31), (0xCB81, 0xCB9B, 32), (0xCB9C, 0xCB9C, 31), (0xCB9D, 0xCBB7, 32), (0xCBB8, 0xCBB8, 31),
   (0xCBB9, 0xCBD3, 32), (0xCBD4, 0xCBD4, 31), (0xCBD5, 0xCBEF, 32), (0xCBF0, 0xCBF0, 31), (0xCBF1, 0xCC0B, 32),
   (0xCC0C, 0xCC0C, 31), (0xCC0D, 0xCC27, 32), (0xCC28, 0xCC28, 31), (0xCC29, 0xCC43, 32), (0xCC44, 0xCC44, 31),
   (0xCC45, 0xCC5F, 32), (0xCC60, 0xCC60, 31), (0xCC61, 0xCC7B, 32), (0xCC7C, 0xCC7C, 31), (0xCC7D, 0xCC97, 32),
   (0xCC98, 0xCC98, 31), (0xCC99, 0xCCB3, 32), (0xCCB4, 0xCCB4, 31), (0xCCB5, 0xCCCF, 32), (0xCCD0, 0xCCD0, 31),
   (0xCCD1, 0xCCEB, 32), (0xCCEC, 0xCCEC, 31), (0xCCED, 0xCD07, 32), (0xCD08, 0xCD08, 31), (0xCD09, 0xCD23, 32),
   (0xCD24, 0xCD24, 31), (0xCD25, 0xCD3F, 32), (0xCD40, 0xCD40, 31), (0xCD41, 0xCD5B, 32), (0xCD5C, 0xCD5C, 31)]

/-- Line_Break. Part 7. -/
def lineRuns_7 : List (Nat × Nat × Nat) :=
  [
   (0xCD5D, 0xCD77, 32), (0xCD78, 0xCD78, 31), (0xCD79, 0xCD93, 32), (0xCD94, 0xCD94, 31), (0xCD95, 0xCDAF, 32),
   (0xCDB0, 0xCDB0, 31), (0xCDB1, 0xCDCB, 32), (0xCDCC, 0xCDCC, 31), (0xCDCD, 0xCDE7, 32), (0xCDE8, 0xCDE8, 31),
   (0xCDE9, 0xCE03, 32), (0xCE04, 0xCE04, 31), (0xCE05, 0xCE1F, 32), (0xCE20, 0xCE20, 31), (0xCE21, 0xCE3B, 32),
   (0xCE3C, 0xCE3C, 31), (0xCE3D, 0xCE57, 32), (0xCE58, 0xCE58, 31), (0xCE59, 0xCE73, 32), (0xCE74, 0xCE74, 31),
   (0xCE75, 0xCE8F, 32), (0xCE90, 0xCE90, 31), (0xCE91, 0xCEAB, 32), (0xCEAC, 0xCEAC, 31), (0xCEAD, 0xCEC7, 32),
   (0xCEC8, 0xCEC8, 31), (0xCEC9, 0xCEE3, 32), (0xCEE4, 0xCEE4, 31), (0xCEE5, 0xCEFF, 32), (0xCF00, 0xCF00, 31),
   (0xCF01, 0xCF1B, 32), (0xCF1C, 0xCF1C, 31), (0xCF1D, 0xCF37, 32), (0xCF38, 0xCF38, 31), (0xCF39, 0xCF53, 32),
   (0xCF54, 0xCF54, 31), (0xCF55, 0xCF6F, 32), (0xCF70, 0xCF70, 31), (0xCF71, 0xCF8B, 32), (0xCF8C, 0xCF8C, 31),
   (0xCF8D, 0xCFA7, 32), (0xCFA8, 0xCFA8, 31), (0xCFA9, 0xCFC3, 32), (0xCFC4, 0xCFC4, 31), (0xCFC5, 0xCFDF, 32),
   (0xCFE0, 0xCFE0, 31), (0xCFE1, 0xCFFB, 32), (0xCFFC, 0xCFFC, 31), (0xCFFD, 0xD017, 32), (0xD018, 0xD018, 31),
   (0xD019, 0xD033, 32), (0xD034, 0xD034, 31), (0xD035, 0xD04F, 32), (0xD050, 0xD050, 31), (0xD051, 0xD06B, 32),
   (0xD06C, 0xD06C, 31), (0xD06D, 0xD087, 32), (0xD088, 0xD088, 31), (0xD089, 0xD0A3, 32), (0xD0A4, 0xD0A4, 31),
   (0xD0A5, 0xD0BF, 32), (0xD0C0, 0xD0C0, 31), (0xD0C1, 0xD0DB, 32), (0xD0DC, 0xD0DC, 31), (0xD0DD, 0xD0F7, 32),
   (0xD0F8, 0xD0F8, 31), (0xD0F9, 0xD113, 32), (0xD114, 0xD114, 31), (0xD115, 0xD12F, 32), (0xD130, 0xD130, 31),
   (0xD131, 0xD14B, 32), (0xD14C, 0xD14C, 31), (0xD14D, 0xD167, 32), (0xD168, 0xD168, 31), (0xD169, 0xD183, 32),
   (0xD184, 0xD184, 31), (0xD185, 0xD19F, 32), (0xD1A0, 0xD1A0, 31), (0xD1A1, 0xD1BB, 32), (0xD1BC, 0xD1BC, 31),
   (0xD1BD, 0xD1D7, 32), (0xD1D8, 0xD1D8, 31), (0xD1D9, 0xD1F3, 32), (0xD1F4, 0xD1F4, 31), (0xD1F5, 0xD20F, 32),
   (0xD210, 0xD210, 31), (0xD211, 0xD22B, 32), (0xD22C, 0xD22C, 31), (0xD22D, 0xD247, 32), (0xD248, 0xD248, 31),
   (0xD249, 0xD263, 32), (0xD264, 0xD264, 31), (0xD265, 0xD27F, 32), (0xD280, 0xD280, 31), (0xD281, 0xD29B, 32),
   (0xD29C, 0xD29C, 31), (0xD29D, 0xD2B7, 32), (0xD2B8, 0xD2B8, 31), (0xD2B9, 0xD2D3, 32), (0xD2D4, 0xD2D4, 31),
   (0xD2D5, 0xD2EF, 32), (0xD2F0, 0xD2F0, 31), (0xD2F1, 0xD30B, 32), (0xD30C, 0xD30C, 31), (0xD30D, 0xD327, 32),
   (0xD328, 0xD328, 31), (0xD329, 0xD343, 32), (0xD344, 0xD344, 31), (0xD345, 0xD35F, 32), (0xD360, 0xD360, 31),
   (0xD361, 0xD37B, 32), (0xD37C, 0xD37C, 31), (0xD37D, 0xD397, 32), (0xD398, 0xD398, 31), (0xD399, 0xD3B3, 32),
   (0xD3B4, 0xD3B4, 31), (0xD3B5, 0xD3CF, 32), (0xD3D0, 0xD3D0, 31), (0xD3D1, 0xD3EB, 32), (0xD3EC, 0xD3EC, 31),
   (0xD3ED, 0xD407, 32), (0xD408, 0xD408, 31), (0xD409, 0xD423, 32), (0xD424, 0xD424, 31), (0xD425, 0xD43F, 32),
   (0xD440, 0xD440, 31), (0xD441, 0xD45B, 32), (0xD45C, 0xD45C, 31), (0xD45D, 0xD477, 32), (0xD478, 0xD478, 31),
   (0xD479, 0xD493, 32), (0xD494, 0xD494, 31), (0xD495, 0xD4AF, 32), (0xD4B0, 0xD4B0, 31), (0xD4B1, 0xD4CB, 32),
   (0xD4CC, 0xD4CC, 31), (0xD4CD, 0xD4E7, 32), (0xD4E8, 0xD4E8, 31), (0xD4E9, 0xD503, 32), (0xD504, 0xD504, 31),
   (0xD505, 0xD51F, 32), (0xD520, 0xD520, 31), (0xD521, 0xD53B, 32), (0xD53C, 0xD53C, 31), (0xD53D, 0xD557, 32),
   (0xD558, 0xD558, 31), (0xD559, 0xD573, 32), (0xD574, 0xD574, 31), (0xD575, 0xD58F, 32), (0xD590, 0xD590, 31),
   (0xD591, 0xD5AB, 32), (0xD5AC, 0xD5AC, 31), (0xD5AD, 0xD5C7, 32), (0xD5C8, 0xD5C8, 31), (0xD5C9, 0xD5E3, 32),
   (0xD5E4, 0xD5E4, 31), (0xD5E5, 0xD5FF, 32), (0xD600, 0xD600, 31), (0xD601, 0xD61B, 32), (0xD61C, 0xD61C, 31),
   (0xD61D, 0xD637, 32), (0xD638, 0xD638, 31), (0xD639, 0xD653, 32), (0xD654, 0xD654, 31), (0xD655, 0xD66F, 32),
   (0xD670, 0xD670, 31), (0xD671, 0xD68B, 32), (0xD68C, 0xD68C, 31), (0xD68D, 0xD6A7, 32), (0xD6A8, 0xD6A8, 31),
   (0xD6A9, 0xD6C3, 32), (0xD6C4, 0xD6C4, 31), (0xD6C5, 0xD6DF, 32), (0xD6E0, 0xD6E0, 31), (0xD6E1, 0xD6FB, 32),
   (0xD6FC, 0xD6FC, 31), (0xD6FD, 0xD717, 32), (0xD718, 0xD718, 31), (0xD719, 0xD733, 32), (0xD734, 0xD734, 31),
   (0xD735, 0xD74F, 32), (0xD750, 0xD750, 31), (0xD751, 0xD76B, 32), (0xD76C, 0xD76C, 31), (0xD76D, 0xD787, 32),
   (0xD788, 0xD788, 31), (0xD789, 0xD7A3, 32), (0xD7B0, 0xD7C6, 35), (0xD7CB, 0xD7FB, 34), (0xD800, 0xDFFF, 25),
   (0xF900, 0xFAFF, 14), (0xFB00, 0xFB06, 2), (0xFB13, 0xFB17, 2), (0xFB1D, 0xFB1D, 38), (0xFB1E, 0xFB1E, 9), (0xFB1F, 0xFB28, 38),
   (0xFB29, 0xFB29, 2), (0xFB2A, 0xFB36, 38), (0xFB38, 0xFB3C, 38), (0xFB3E, 0xFB3E, 38), (0xFB40, 0xFB41, 38),
   (0xFB43, 0xFB44, 38), (0xFB46, 0xFB4F, 38), (0xFB50, 0xFBC1, 2), (0xFBD3, 0xFD3D, 2), (0xFD3E, 0xFD3E, 8), (0xFD3F, 0xFD3F, 20),
   (0xFD50, 0xFD8F, 2), (0xFD92, 0xFDC7, 2), (0xFDF0, 0xFDFB, 2), (0xFDFC, 0xFDFC, 21), (0xFDFD, 0xFDFD, 2), (0xFE00, 0xFE0F, 9),
   (0xFE10, 0xFE10, 16), (0xFE11, 0xFE12, 8), (0xFE13, 0xFE14, 16), (0xFE15, 0xFE16, 11), (0xFE17, 0xFE17, 20), (0xFE18, 0xFE18, 8),
   (0xFE19, 0xFE19, 15), (0xFE20, 0xFE2F, 9), (0xFE30, 0xFE34, 14), (0xFE35, 0xFE35, 20), (0xFE36, 0xFE36, 8), (0xFE37, 0xFE37, 20),
   (0xFE38, 0xFE38, 8), (0xFE39, 0xFE39, 20), (0xFE3A, 0xFE3A, 8), (0xFE3B, 0xFE3B, 20), (0xFE3C, 0xFE3C, 8), (0xFE3D, 0xFE3D, 20),
   (0xFE3E, 0xFE3E, 8), (0xFE3F, 0xFE3F, 20), (0xFE40, 0xFE40, 8), (0xFE41, 0xFE41, 20), (0xFE42, 0xFE42, 8), (0xFE43, 0xFE43, 20),
   (0xFE44, 0xFE44, 8), (0xFE45, 0xFE46, 14), (0xFE47, 0xFE47, 20), (0xFE48, 0xFE48, 8), (0xFE49, 0xFE4F, 14), (0xFE50, 0xFE50, 8),
   (0xFE51, 0xFE51, 14), (0xFE52, 0xFE52, 8), (0xFE54, 0xFE55, 18), (0xFE56, 0xFE57, 11), (0xFE58, 0xFE58, 14),
   (0xFE59, 0xFE59, 20), (0xFE5A, 0xFE5A, 8), (0xFE5B, 0xFE5B, 20), (0xFE5C, 0xFE5C, 8), (0xFE5D, 0xFE5D, 20), (0xFE5E, 0xFE5E, 8),
   (0xFE5F, 0xFE66, 14), (0xFE68, 0xFE68, 14), (0xFE69, 0xFE69, 22), (0xFE6A, 0xFE6A, 21), (0xFE6B, 0xFE6B, 14),
   (0xFE70, 0xFE74, 2), (0xFE76, 0xFEFC, 2), (0xFEFF, 0xFEFF, 30), (0xFF01, 0xFF01, 11), (0xFF02, 0xFF03, 14), (0xFF04, 0xFF04, 22),
   (0xFF05, 0xFF05, 21), (0xFF06, 0xFF07, 14), (0xFF08, 0xFF08, 20), (0xFF09, 0xFF09, 8), (0xFF0A, 0xFF0B, 14), (0xFF0C, 0xFF0C, 8),
   (0xFF0D, 0xFF0D, 14), (0xFF0E, 0xFF0E, 8), (0xFF0F, 0xFF19, 14), (0xFF1A, 0xFF1B, 18), (0xFF1C, 0xFF1E, 14),
   (0xFF1F, 0xFF1F, 11), (0xFF20, 0xFF3A, 14), (0xFF3B, 0xFF3B, 20), (0xFF3C, 0xFF3C, 14), (0xFF3D, 0xFF3D, 8),
   (0xFF3E, 0xFF5A, 14), (0xFF5B, 0xFF5B, 20), (0xFF5C, 0xFF5C, 14), (0xFF5D, 0xFF5D, 8), (0xFF5E, 0xFF5E, 14),
   (0xFF5F, 0xFF5F, 20), (0xFF60, 0xFF61, 8), (0xFF62, 0xFF62, 20), (0xFF63, 0xFF64, 8), (0xFF65, 0xFF65, 18), (0xFF66, 0xFF66, 14),
   (0xFF67, 0xFF70, 37), (0xFF71, 0xFF9D, 14), (0xFF9E, 0xFF9F, 18), (0xFFA0, 0xFFBE, 14), (0xFFC2, 0xFFC7, 14),
   (0xFFCA, 0xFFCF, 14), (0xFFD2, 0xFFD7, 14), (0xFFDA, 0xFFDC, 14)]

/-- Line_Break. Part 8. -/
def lineRuns_8 : List (Nat × Nat × Nat) :=
  [
   (0xFFE0, 0xFFE0, 21), (0xFFE1, 0xFFE1, 22), (0xFFE2, 0xFFE4, 14), (0xFFE5, 0xFFE6, 22), (0xFFE8, 0xFFEE, 2), (0xFFF9, 0xFFFB, 9),
   (0xFFFC, 0xFFFC, 7), (0xFFFD, 0xFFFD, 1), (0x10000, 0x1000B, 2), (0x1000D, 0x10026, 2), (0x10028, 0x1003A, 2),
   (0x1003C, 0x1003D, 2), (0x1003F, 0x1004D, 2), (0x10050, 0x1005D, 2), (0x10080, 0x100FA, 2), (0x10100, 0x10102, 4),
   (0x10107, 0x10133, 2), (0x10137, 0x1018E, 2), (0x10190, 0x1019C, 2), (0x101A0, 0x101A0, 2), (0x101D0, 0x101FC, 2),
   (0x101FD, 0x101FD, 9), (0x10280, 0x1029C, 2), (0x102A0, 0x102D0, 2), (0x102E0, 0x102E0, 9), (0x102E1, 0x102FB, 2),
   (0x10300, 0x10323, 2), (0x1032D, 0x1034A, 2), (0x10350, 0x10375, 2), (0x10376, 0x1037A, 9), (0x10380, 0x1039D, 2),
   (0x1039F, 0x1039F, 4), (0x103A0, 0x103C3, 2), (0x103C8, 0x103CF, 2), (0x103D0, 0x103D0, 4), (0x103D1, 0x103D5, 2),
   (0x10400, 0x1049D, 2), (0x104A0, 0x104A9, 19), (0x104B0, 0x104D3, 2), (0x104D8, 0x104FB, 2), (0x10500, 0x10527, 2),
   (0x10530, 0x10563, 2), (0x1056F, 0x1056F, 2), (0x10600, 0x10736, 2), (0x10740, 0x10755, 2), (0x10760, 0x10767, 2),
   (0x10800, 0x10805, 2), (0x10808, 0x10808, 2), (0x1080A, 0x10835, 2), (0x10837, 0x10838, 2), (0x1083C, 0x1083C, 2),
   (0x1083F, 0x10855, 2), (0x10857, 0x10857, 4), (0x10858, 0x1089E, 2), (0x108A7, 0x108AF, 2), (0x108E0, 0x108F2, 2),
   (0x108F4, 0x108F5, 2), (0x108FB, 0x1091B, 2), (0x1091F, 0x1091F, 4), (0x10920, 0x10939, 2), (0x1093F, 0x1093F, 2),
   (0x10980, 0x109B7, 2), (0x109BC, 0x109CF, 2), (0x109D2, 0x10A00, 2), (0x10A01, 0x10A03, 9), (0x10A05, 0x10A06, 9),
   (0x10A0C, 0x10A0F, 9), (0x10A10, 0x10A13, 2), (0x10A15, 0x10A17, 2), (0x10A19, 0x10A35, 2), (0x10A38, 0x10A3A, 9),
   (0x10A3F, 0x10A3F, 9), (0x10A40, 0x10A48, 2), (0x10A50, 0x10A57, 4), (0x10A58, 0x10A58, 2), (0x10A60, 0x10A9F, 2),
   (0x10AC0, 0x10AE4, 2), (0x10AE5, 0x10AE6, 9), (0x10AEB, 0x10AEF, 2), (0x10AF0, 0x10AF5, 4), (0x10AF6, 0x10AF6, 15),
   (0x10B00, 0x10B35, 2), (0x10B39, 0x10B3F, 4), (0x10B40, 0x10B55, 2), (0x10B58, 0x10B72, 2), (0x10B78, 0x10B91, 2),
   (0x10B99, 0x10B9C, 2), (0x10BA9, 0x10BAF, 2), (0x10C00, 0x10C48, 2), (0x10C80, 0x10CB2, 2), (0x10CC0, 0x10CF2, 2),
   (0x10CFA, 0x10D23, 2), (0x10D24, 0x10D27, 9), (0x10D30, 0x10D39, 19), (0x10E60, 0x10E7E, 2), (0x10E80, 0x10EA9, 2),
   (0x10EAB, 0x10EAC, 9), (0x10EAD, 0x10EAD, 4), (0x10EB0, 0x10EB1, 2), (0x10F00, 0x10F27, 2), (0x10F30, 0x10F45, 2),
   (0x10F46, 0x10F50, 9), (0x10F51, 0x10F59, 2), (0x10FB0, 0x10FCB, 2), (0x10FE0, 0x10FF6, 2), (0x11000, 0x11002, 9),
   (0x11003, 0x11037, 2), (0x11038, 0x11046, 9), (0x11047, 0x11048, 4), (0x11049, 0x1104D, 2), (0x11052, 0x11065, 2),
   (0x11066, 0x1106F, 19), (0x1107F, 0x11082, 9), (0x11083, 0x110AF, 2), (0x110B0, 0x110BA, 9), (0x110BB, 0x110BD, 2),
   (0x110BE, 0x110C1, 4), (0x110CD, 0x110CD, 2), (0x110D0, 0x110E8, 2), (0x110F0, 0x110F9, 19), (0x11100, 0x11102, 9),
   (0x11103, 0x11126, 2), (0x11127, 0x11134, 9), (0x11136, 0x1113F, 19), (0x11140, 0x11143, 4), (0x11144, 0x11144, 2),
   (0x11145, 0x11146, 9), (0x11147, 0x11147, 2), (0x11150, 0x11172, 2), (0x11173, 0x11173, 9), (0x11174, 0x11174, 2),
   (0x11175, 0x11175, 5), (0x11176, 0x11176, 2), (0x11180, 0x11182, 9), (0x11183, 0x111B2, 2), (0x111B3, 0x111C0, 9),
   (0x111C1, 0x111C4, 2), (0x111C5, 0x111C6, 4), (0x111C7, 0x111C7, 2), (0x111C8, 0x111C8, 4), (0x111C9, 0x111CC, 9),
   (0x111CD, 0x111CD, 2), (0x111CE, 0x111CF, 9), (0x111D0, 0x111D9, 19), (0x111DA, 0x111DA, 2), (0x111DB, 0x111DB, 5),
   (0x111DC, 0x111DC, 2), (0x111DD, 0x111DF, 4), (0x111E1, 0x111F4, 2), (0x11200, 0x11211, 2), (0x11213, 0x1122B, 2),
   (0x1122C, 0x11237, 9), (0x11238, 0x11239, 4), (0x1123A, 0x1123A, 2), (0x1123B, 0x1123C, 4), (0x1123D, 0x1123D, 2),
   (0x1123E, 0x1123E, 9), (0x11280, 0x11286, 2), (0x11288, 0x11288, 2), (0x1128A, 0x1128D, 2), (0x1128F, 0x1129D, 2),
   (0x1129F, 0x112A8, 2), (0x112A9, 0x112A9, 4), (0x112B0, 0x112DE, 2), (0x112DF, 0x112EA, 9), (0x112F0, 0x112F9, 19),
   (0x11300, 0x11303, 9), (0x11305, 0x1130C, 2), (0x1130F, 0x11310, 2), (0x11313, 0x11328, 2), (0x1132A, 0x11330, 2),
   (0x11332, 0x11333, 2), (0x11335, 0x11339, 2), (0x1133B, 0x1133C, 9), (0x1133D, 0x1133D, 2), (0x1133E, 0x11344, 9),
   (0x11347, 0x11348, 9), (0x1134B, 0x1134D, 9), (0x11350, 0x11350, 2), (0x11357, 0x11357, 9), (0x1135D, 0x11361, 2),
   (0x11362, 0x11363, 9), (0x11366, 0x1136C, 9), (0x11370, 0x11374, 9), (0x11400, 0x11434, 2), (0x11435, 0x11446, 9),
   (0x11447, 0x1144A, 2), (0x1144B, 0x1144E, 4), (0x1144F, 0x1144F, 2), (0x11450, 0x11459, 19), (0x1145A, 0x1145B, 4),
   (0x1145D, 0x1145D, 2), (0x1145E, 0x1145E, 9), (0x1145F, 0x11461, 2), (0x11480, 0x114AF, 2), (0x114B0, 0x114C3, 9),
   (0x114C4, 0x114C7, 2), (0x114D0, 0x114D9, 19), (0x11580, 0x115AE, 2), (0x115AF, 0x115B5, 9), (0x115B8, 0x115C0, 9),
   (0x115C1, 0x115C1, 5), (0x115C2, 0x115C3, 4), (0x115C4, 0x115C5, 11), (0x115C6, 0x115C8, 2), (0x115C9, 0x115D7, 4),
   (0x115D8, 0x115DB, 2), (0x115DC, 0x115DD, 9), (0x11600, 0x1162F, 2), (0x11630, 0x11640, 9), (0x11641, 0x11642, 4),
   (0x11643, 0x11644, 2), (0x11650, 0x11659, 19), (0x11660, 0x1166C, 5), (0x11680, 0x116AA, 2), (0x116AB, 0x116B7, 9),
   (0x116B8, 0x116B8, 2), (0x116C0, 0x116C9, 19), (0x11700, 0x1171A, 24), (0x1171D, 0x1172B, 24), (0x11730, 0x11739, 19),
   (0x1173A, 0x1173B, 24), (0x1173C, 0x1173E, 4), (0x1173F, 0x1173F, 24), (0x11800, 0x1182B, 2), (0x1182C, 0x1183A, 9),
   (0x1183B, 0x1183B, 2), (0x118A0, 0x118DF, 2), (0x118E0, 0x118E9, 19), (0x118EA, 0x118F2, 2), (0x118FF, 0x11906, 2),
   (0x11909, 0x11909, 2), (0x1190C, 0x11913, 2), (0x11915, 0x11916, 2), (0x11918, 0x1192F, 2), (0x11930, 0x11935, 9),
   (0x11937, 0x11938, 9), (0x1193B, 0x1193E, 9), (0x1193F, 0x1193F, 2), (0x11940, 0x11940, 9), (0x11941, 0x11941, 2),
   (0x11942, 0x11943, 9), (0x11944, 0x11946, 4), (0x11950, 0x11959, 19), (0x119A0, 0x119A7, 2), (0x119AA, 0x119D0, 2),
   (0x119D1, 0x119D7, 9), (0x119DA, 0x119E0, 9), (0x119E1, 0x119E1, 2), (0x119E2, 0x119E2, 5), (0x119E3, 0x119E3, 2),
   (0x119E4, 0x119E4, 9), (0x11A00, 0x11A00, 2), (0x11A01, 0x11A0A, 9), (0x11A0B, 0x11A32, 2), (0x11A33, 0x11A39, 9),
   (0x11A3A, 0x11A3A, 2), (0x11A3B, 0x11A3E, 9), (0x11A3F, 0x11A3F, 5), (0x11A40, 0x11A40, 2), (0x11A41, 0x11A44, 4),
   (0x11A45, 0x11A45, 5), (0x11A46, 0x11A46, 2), (0x11A47, 0x11A47, 9), (0x11A50, 0x11A50, 2), (0x11A51, 0x11A5B, 9),
   (0x11A5C, 0x11A89, 2), (0x11A8A, 0x11A99, 9), (0x11A9A, 0x11A9C, 4), (0x11A9D, 0x11A9D, 2), (0x11A9E, 0x11AA0, 5),
   (0x11AA1, 0x11AA2, 4), (0x11AC0, 0x11AF8, 2), (0x11C00, 0x11C08, 2), (0x11C0A, 0x11C2E, 2), (0x11C2F, 0x11C36, 9),
   (0x11C38, 0x11C3F, 9), (0x11C40, 0x11C40, 2), (0x11C41, 0x11C45, 4), (0x11C50, 0x11C59, 19), (0x11C5A, 0x11C6C, 2),
   (0x11C70, 0x11C70, 5), (0x11C71, 0x11C71, 11), (0x11C72, 0x11C8F, 2), (0x11C92, 0x11CA7, 9), (0x11CA9, 0x11CB6, 9),
   (0x11D00, 0x11D06, 2), (0x11D08, 0x11D09, 2), (0x11D0B, 0x11D30, 2), (0x11D31, 0x11D36, 9), (0x11D3A, 0x11D3A, 9),
   (0x11D3C, 0x11D3D, 9), (0x11D3F, 0x11D45, 9), (0x11D46, 0x11D46, 2), (0x11D47, 0x11D47, 9), (0x11D50, 0x11D59, 19),
   (0x11D60, 0x11D65, 2), (0x11D67, 0x11D68, 2), (0x11D6A, 0x11D89, 2), (0x11D8A, 0x11D8E, 9)]

/-- Line_Break. Part 9. -/
def lineRuns_9 : List (Nat × Nat × Nat) :=
  [
   (0x11D90, 0x11D91, 9), (0x11D93, 0x11D97, 9), (0x11D98, 0x11D98, 2), (0x11DA0, 0x11DA9, 19), (0x11EE0, 0x11EF2, 2),
   (0x11EF3, 0x11EF6, 9), (0x11EF7, 0x11EF8, 2), (0x11FB0, 0x11FB0, 2), (0x11FC0, 0x11FDC, 2), (0x11FDD, 0x11FE0, 21),
   (0x11FE1, 0x11FF1, 2), (0x11FFF, 0x11FFF, 4), (0x12000, 0x12399, 2), (0x12400, 0x1246E, 2), (0x12470, 0x12474, 4),
   (0x12480, 0x12543, 2), (0x13000, 0x13257, 2), (0x13258, 0x1325A, 20), (0x1325B, 0x1325D, 8), (0x1325E, 0x13281, 2),
   (0x13282, 0x13282, 8), (0x13283, 0x13285, 2), (0x13286, 0x13286, 20), (0x13287, 0x13287, 8), (0x13288, 0x13288, 20),
   (0x13289, 0x13289, 8), (0x1328A, 0x13378, 2), (0x13379, 0x13379, 20), (0x1337A, 0x1337B, 8), (0x1337C, 0x1342E, 2),
   (0x13430, 0x13436, 12), (0x13437, 0x13437, 20), (0x13438, 0x13438, 8), (0x14400, 0x145CD, 2), (0x145CE, 0x145CE, 20),
   (0x145CF, 0x145CF, 8), (0x145D0, 0x14646, 2), (0x16800, 0x16A38, 2), (0x16A40, 0x16A5E, 2), (0x16A60, 0x16A69, 19),
   (0x16A6E, 0x16A6F, 4), (0x16AD0, 0x16AED, 2), (0x16AF0, 0x16AF4, 9), (0x16AF5, 0x16AF5, 4), (0x16B00, 0x16B2F, 2),
   (0x16B30, 0x16B36, 9), (0x16B37, 0x16B39, 4), (0x16B3A, 0x16B43, 2), (0x16B44, 0x16B44, 4), (0x16B45, 0x16B45, 2),
   (0x16B50, 0x16B59, 19), (0x16B5B, 0x16B61, 2), (0x16B63, 0x16B77, 2), (0x16B7D, 0x16B8F, 2), (0x16E40, 0x16E96, 2),
   (0x16E97, 0x16E98, 4), (0x16E99, 0x16E9A, 2), (0x16F00, 0x16F4A, 2), (0x16F4F, 0x16F4F, 9), (0x16F50, 0x16F50, 2),
   (0x16F51, 0x16F87, 9), (0x16F8F, 0x16F92, 9), (0x16F93, 0x16F9F, 2), (0x16FE0, 0x16FE3, 18), (0x16FE4, 0x16FE4, 12),
   (0x16FF0, 0x16FF1, 9), (0x17000, 0x187F7, 14), (0x18800, 0x18AFF, 14), (0x18B00, 0x18CD5, 2), (0x18D00, 0x18D08, 14),
   (0x1B000, 0x1B11E, 14), (0x1B150, 0x1B152, 37), (0x1B164, 0x1B167, 37), (0x1B170, 0x1B2FB, 14), (0x1BC00, 0x1BC6A, 2),
   (0x1BC70, 0x1BC7C, 2), (0x1BC80, 0x1BC88, 2), (0x1BC90, 0x1BC99, 2), (0x1BC9C, 0x1BC9C, 2), (0x1BC9D, 0x1BC9E, 9),
   (0x1BC9F, 0x1BC9F, 4), (0x1BCA0, 0x1BCA3, 9), (0x1D000, 0x1D0F5, 2), (0x1D100, 0x1D126, 2), (0x1D129, 0x1D164, 2),
   (0x1D165, 0x1D169, 9), (0x1D16A, 0x1D16C, 2), (0x1D16D, 0x1D182, 9), (0x1D183, 0x1D184, 2), (0x1D185, 0x1D18B, 9),
   (0x1D18C, 0x1D1A9, 2), (0x1D1AA, 0x1D1AD, 9), (0x1D1AE, 0x1D1E8, 2), (0x1D200, 0x1D241, 2), (0x1D242, 0x1D244, 9),
   (0x1D245, 0x1D245, 2), (0x1D2E0, 0x1D2F3, 2), (0x1D300, 0x1D356, 2), (0x1D360, 0x1D378, 2), (0x1D400, 0x1D454, 2),
   (0x1D456, 0x1D49C, 2), (0x1D49E, 0x1D49F, 2), (0x1D4A2, 0x1D4A2, 2), (0x1D4A5, 0x1D4A6, 2), (0x1D4A9, 0x1D4AC, 2),
   (0x1D4AE, 0x1D4B9, 2), (0x1D4BB, 0x1D4BB, 2), (0x1D4BD, 0x1D4C3, 2), (0x1D4C5, 0x1D505, 2), (0x1D507, 0x1D50A, 2),
   (0x1D50D, 0x1D514, 2), (0x1D516, 0x1D51C, 2), (0x1D51E, 0x1D539, 2), (0x1D53B, 0x1D53E, 2), (0x1D540, 0x1D544, 2),
   (0x1D546, 0x1D546, 2), (0x1D54A, 0x1D550, 2), (0x1D552, 0x1D6A5, 2), (0x1D6A8, 0x1D7CB, 2), (0x1D7CE, 0x1D7FF, 19),
   (0x1D800, 0x1D9FF, 2), (0x1DA00, 0x1DA36, 9), (0x1DA37, 0x1DA3A, 2), (0x1DA3B, 0x1DA6C, 9), (0x1DA6D, 0x1DA74, 2),
   (0x1DA75, 0x1DA75, 9), (0x1DA76, 0x1DA83, 2), (0x1DA84, 0x1DA84, 9), (0x1DA85, 0x1DA86, 2), (0x1DA87, 0x1DA8A, 4),
   (0x1DA8B, 0x1DA8B, 2), (0x1DA9B, 0x1DA9F, 9), (0x1DAA1, 0x1DAAF, 9), (0x1E000, 0x1E006, 9), (0x1E008, 0x1E018, 9),
   (0x1E01B, 0x1E021, 9), (0x1E023, 0x1E024, 9), (0x1E026, 0x1E02A, 9), (0x1E100, 0x1E12C, 2), (0x1E130, 0x1E136, 9),
   (0x1E137, 0x1E13D, 2), (0x1E140, 0x1E149, 19), (0x1E14E, 0x1E14F, 2), (0x1E2C0, 0x1E2EB, 2), (0x1E2EC, 0x1E2EF, 9),
   (0x1E2F0, 0x1E2F9, 19), (0x1E2FF, 0x1E2FF, 22), (0x1E800, 0x1E8C4, 2), (0x1E8C7, 0x1E8CF, 2), (0x1E8D0, 0x1E8D6, 9),
   (0x1E900, 0x1E943, 2), (0x1E944, 0x1E94A, 9), (0x1E94B, 0x1E94B, 2), (0x1E950, 0x1E959, 19), (0x1E95E, 0x1E95F, 20),
   (0x1EC71, 0x1ECAB, 2), (0x1ECAC, 0x1ECAC, 21), (0x1ECAD, 0x1ECAF, 2), (0x1ECB0, 0x1ECB0, 21), (0x1ECB1, 0x1ECB4, 2),
   (0x1ED01, 0x1ED3D, 2), (0x1EE00, 0x1EE03, 2), (0x1EE05, 0x1EE1F, 2), (0x1EE21, 0x1EE22, 2), (0x1EE24, 0x1EE24, 2),
   (0x1EE27, 0x1EE27, 2), (0x1EE29, 0x1EE32, 2), (0x1EE34, 0x1EE37, 2), (0x1EE39, 0x1EE39, 2), (0x1EE3B, 0x1EE3B, 2),
   (0x1EE42, 0x1EE42, 2), (0x1EE47, 0x1EE47, 2), (0x1EE49, 0x1EE49, 2), (0x1EE4B, 0x1EE4B, 2), (0x1EE4D, 0x1EE4F, 2),
   (0x1EE51, 0x1EE52, 2), (0x1EE54, 0x1EE54, 2), (0x1EE57, 0x1EE57, 2), (0x1EE59, 0x1EE59, 2), (0x1EE5B, 0x1EE5B, 2),
   (0x1EE5D, 0x1EE5D, 2), (0x1EE5F, 0x1EE5F, 2), (0x1EE61, 0x1EE62, 2), (0x1EE64, 0x1EE64, 2), (0x1EE67, 0x1EE6A, 2),
   (0x1EE6C, 0x1EE72, 2), (0x1EE74, 0x1EE77, 2), (0x1EE79, 0x1EE7C, 2), (0x1EE7E, 0x1EE7E, 2), (0x1EE80, 0x1EE89, 2),
   (0x1EE8B, 0x1EE9B, 2), (0x1EEA1, 0x1EEA3, 2), (0x1EEA5, 0x1EEA9, 2), (0x1EEAB, 0x1EEBB, 2), (0x1EEF0, 0x1EEF1, 2),
   (0x1F000, 0x1F0FF, 14), (0x1F100, 0x1F10C, 1), (0x1F10D, 0x1F10F, 14), (0x1F110, 0x1F12D, 1), (0x1F12E, 0x1F12F, 2),
   (0x1F130, 0x1F169, 1), (0x1F16A, 0x1F16C, 2), (0x1F16D, 0x1F16F, 14), (0x1F170, 0x1F1AC, 1), (0x1F1AD, 0x1F1E5, 14),
   (0x1F1E6, 0x1F1FF, 39), (0x1F200, 0x1F384, 14), (0x1F385, 0x1F385, 40), (0x1F386, 0x1F39B, 14), (0x1F39C, 0x1F39D, 2),
   (0x1F39E, 0x1F3B4, 14), (0x1F3B5, 0x1F3B6, 2), (0x1F3B7, 0x1F3BB, 14), (0x1F3BC, 0x1F3BC, 2), (0x1F3BD, 0x1F3C1, 14),
   (0x1F3C2, 0x1F3C4, 40), (0x1F3C5, 0x1F3C6, 14), (0x1F3C7, 0x1F3C7, 40), (0x1F3C8, 0x1F3C9, 14), (0x1F3CA, 0x1F3CC, 40),
   (0x1F3CD, 0x1F3FA, 14), (0x1F3FB, 0x1F3FF, 41), (0x1F400, 0x1F441, 14), (0x1F442, 0x1F443, 40), (0x1F444, 0x1F445, 14),
   (0x1F446, 0x1F450, 40), (0x1F451, 0x1F465, 14), (0x1F466, 0x1F478, 40), (0x1F479, 0x1F47B, 14), (0x1F47C, 0x1F47C, 40),
   (0x1F47D, 0x1F480, 14), (0x1F481, 0x1F483, 40), (0x1F484, 0x1F484, 14), (0x1F485, 0x1F487, 40), (0x1F488, 0x1F48E, 14),
   (0x1F48F, 0x1F48F, 40), (0x1F490, 0x1F490, 14), (0x1F491, 0x1F491, 40), (0x1F492, 0x1F49F, 14), (0x1F4A0, 0x1F4A0, 2),
   (0x1F4A1, 0x1F4A1, 14), (0x1F4A2, 0x1F4A2, 2), (0x1F4A3, 0x1F4A3, 14), (0x1F4A4, 0x1F4A4, 2), (0x1F4A5, 0x1F4A9, 14),
   (0x1F4AA, 0x1F4AA, 40), (0x1F4AB, 0x1F4AE, 14), (0x1F4AF, 0x1F4AF, 2), (0x1F4B0, 0x1F4B0, 14), (0x1F4B1, 0x1F4B2, 2),
   (0x1F4B3, 0x1F4FF, 14), (0x1F500, 0x1F506, 2), (0x1F507, 0x1F516, 14), (0x1F517, 0x1F524, 2), (0x1F525, 0x1F531, 14),
   (0x1F532, 0x1F549, 2), (0x1F54A, 0x1F573, 14), (0x1F574, 0x1F575, 40), (0x1F576, 0x1F579, 14), (0x1F57A, 0x1F57A, 40),
   (0x1F57B, 0x1F58F, 14), (0x1F590, 0x1F590, 40), (0x1F591, 0x1F594, 14), (0x1F595, 0x1F596, 40), (0x1F597, 0x1F5D3, 14),
   (0x1F5D4, 0x1F5DB, 2), (0x1F5DC, 0x1F5F3, 14), (0x1F5F4, 0x1F5F9, 2), (0x1F5FA, 0x1F644, 14), (0x1F645, 0x1F647, 40),
   (0x1F648, 0x1F64A, 14), (0x1F64B, 0x1F64F, 40), (0x1F650, 0x1F675, 2), (0x1F676, 0x1F678, 23), (0x1F679, 0x1F67B, 18),
   (0x1F67C, 0x1F67F, 2), (0x1F680, 0x1F6A2, 14), (0x1F6A3, 0x1F6A3, 40), (0x1F6A4, 0x1F6B3, 14), (0x1F6B4, 0x1F6B6, 40),
   (0x1F6B7, 0x1F6BF, 14), (0x1F6C0, 0x1F6C0, 40), (0x1F6C1, 0x1F6CB, 14), (0x1F6CC, 0x1F6CC, 40), (0x1F6CD, 0x1F6FF, 14),
   (0x1F700, 0x1F773, 2), (0x1F774, 0x1F77F, 14), (0x1F780, 0x1F7D4, 2), (0x1F7D5, 0x1F7FF, 14), (0x1F800, 0x1F80B, 2),
   (0x1F80C, 0x1F80F, 14), (0x1F810, 0x1F847, 2), (0x1F848, 0x1F84F, 14), (0x1F850, 0x1F859, 2), (0x1F85A, 0x1F85F, 14),
   (0x1F860, 0x1F887, 2), (0x1F888, 0x1F88F, 14), (0x1F890, 0x1F8AD, 2), (0x1F8AE, 0x1F8FF, 14), (0x1F900, 0x1F90B, 2)]

/-- Line_Break. Part 10. -/
def lineRuns_10 : List (Nat × Nat × Nat) :=
  [
   (0x1F90C, 0x1F90C, 40), (0x1F90D, 0x1F90E, 14), (0x1F90F, 0x1F90F, 40), (0x1F910, 0x1F917, 14), (0x1F918, 0x1F91F, 40),
   (0x1F920, 0x1F925, 14), (0x1F926, 0x1F926, 40), (0x1F927, 0x1F92F, 14), (0x1F930, 0x1F939, 40), (0x1F93A, 0x1F93B, 14),
   (0x1F93C, 0x1F93E, 40), (0x1F93F, 0x1F976, 14), (0x1F977, 0x1F977, 40), (0x1F978, 0x1F9B4, 14), (0x1F9B5, 0x1F9B6, 40),
   (0x1F9B7, 0x1F9B7, 14), (0x1F9B8, 0x1F9B9, 40), (0x1F9BA, 0x1F9BA, 14), (0x1F9BB, 0x1F9BB, 40), (0x1F9BC, 0x1F9CC, 14),
   (0x1F9CD, 0x1F9CF, 40), (0x1F9D0, 0x1F9D0, 14), (0x1F9D1, 0x1F9DD, 40), (0x1F9DE, 0x1F9FF, 14), (0x1FA00, 0x1FA53, 2),
   (0x1FA54, 0x1FAFF, 14), (0x1FB00, 0x1FB92, 2), (0x1FB94, 0x1FBCA, 2), (0x1FBF0, 0x1FBF9, 19), (0x1FC00, 0x1FFFD, 14),
   (0x20000, 0x2FFFD, 14), (0x30000, 0x3FFFD, 14), (0xE0001, 0xE0001, 9), (0xE0020, 0xE007F, 9), (0xE0100, 0xE01EF, 9)]

/-- Line_Break. -/
def lineRuns : List (Nat × Nat × Nat) :=
  lineRuns_1 ++ (lineRuns_2 ++ (lineRuns_3 ++ (lineRuns_4 ++ (lineRuns_5 ++ (lineRuns_6 ++ (lineRuns_7 ++ (lineRuns_8
    ++ (lineRuns_9 ++ (lineRuns_10)))))))))

end Verif.Spec
