/-!
# Bidi classes, joining types and joining groups of the Unicode standard, version 13.0

DerivedBidiClass.txt, DerivedJoiningType.txt and ArabicShaping.txt. Lines `first, last, value` in ascending order; code
points in none of them have the default value. The default is L (0), U (0) and no joining group (0).
-/
namespace Verif.Spec
set_option maxRecDepth 10000

/-- The bidi classes and their numbers. -/
def classLegend : List (Nat × String) :=
  [
   (0, "L"), (1, "R"), (2, "EN"), (3, "ES"), (4, "ET"), (5, "AN"), (6, "CS"), (7, "B"), (8, "S"), (9, "WS"), (10, "ON"),
   (11, "LRE"), (12, "LRO"), (13, "AL"), (14, "RLE"), (15, "RLO"), (16, "PDF"), (17, "NSM"), (18, "BN"), (19, "FSI"), (20, "LRI"),
   (21, "RLI"), (22, "PDI")]

/-- Bidi_Class. Part 1. -/
def classRuns_1 : List (Nat × Nat × Nat) :=
  [
   (0x0, 0x8, 18), (0x9, 0x9, 8), (0xA, 0xA, 7), (0xB, 0xB, 8), (0xC, 0xC, 9), (0xD, 0xD, 7), (0xE, 0x1B, 18), (0x1C, 0x1E, 7),
   (0x1F, 0x1F, 8), (0x20, 0x20, 9), (0x21, 0x22, 10), (0x23, 0x25, 4), (0x26, 0x2A, 10), (0x2B, 0x2B, 3), (0x2C, 0x2C, 6),
   (0x2D, 0x2D, 3), (0x2E, 0x2F, 6), (0x30, 0x39, 2), (0x3A, 0x3A, 6), (0x3B, 0x40, 10), (0x5B, 0x60, 10), (0x7B, 0x7E, 10),
   (0x7F, 0x84, 18), (0x85, 0x85, 7), (0x86, 0x9F, 18), (0xA0, 0xA0, 6), (0xA1, 0xA1, 10), (0xA2, 0xA5, 4), (0xA6, 0xA9, 10),
   (0xAB, 0xAC, 10), (0xAD, 0xAD, 18), (0xAE, 0xAF, 10), (0xB0, 0xB1, 4), (0xB2, 0xB3, 2), (0xB4, 0xB4, 10), (0xB6, 0xB8, 10),
   (0xB9, 0xB9, 2), (0xBB, 0xBF, 10), (0xD7, 0xD7, 10), (0xF7, 0xF7, 10), (0x2B9, 0x2BA, 10), (0x2C2, 0x2CF, 10),
   (0x2D2, 0x2DF, 10), (0x2E5, 0x2ED, 10), (0x2EF, 0x2FF, 10), (0x300, 0x36F, 17), (0x374, 0x375, 10), (0x37E, 0x37E, 10),
   (0x384, 0x385, 10), (0x387, 0x387, 10), (0x3F6, 0x3F6, 10), (0x483, 0x489, 17), (0x58A, 0x58A, 10), (0x58D, 0x58E, 10),
   (0x58F, 0x58F, 4), (0x590, 0x590, 1), (0x591, 0x5BD, 17), (0x5BE, 0x5BE, 1), (0x5BF, 0x5BF, 17), (0x5C0, 0x5C0, 1),
   (0x5C1, 0x5C2, 17), (0x5C3, 0x5C3, 1), (0x5C4, 0x5C5, 17), (0x5C6, 0x5C6, 1), (0x5C7, 0x5C7, 17), (0x5C8, 0x5FF, 1),
   (0x600, 0x605, 5), (0x606, 0x607, 10), (0x608, 0x608, 13), (0x609, 0x60A, 4), (0x60B, 0x60B, 13), (0x60C, 0x60C, 6),
   (0x60D, 0x60D, 13), (0x60E, 0x60F, 10), (0x610, 0x61A, 17), (0x61B, 0x64A, 13), (0x64B, 0x65F, 17), (0x660, 0x669, 5),
   (0x66A, 0x66A, 4), (0x66B, 0x66C, 5), (0x66D, 0x66F, 13), (0x670, 0x670, 17), (0x671, 0x6D5, 13), (0x6D6, 0x6DC, 17),
   (0x6DD, 0x6DD, 5), (0x6DE, 0x6DE, 10), (0x6DF, 0x6E4, 17), (0x6E5, 0x6E6, 13), (0x6E7, 0x6E8, 17), (0x6E9, 0x6E9, 10),
   (0x6EA, 0x6ED, 17), (0x6EE, 0x6EF, 13), (0x6F0, 0x6F9, 2), (0x6FA, 0x710, 13), (0x711, 0x711, 17), (0x712, 0x72F, 13),
   (0x730, 0x74A, 17), (0x74B, 0x7A5, 13), (0x7A6, 0x7B0, 17), (0x7B1, 0x7BF, 13), (0x7C0, 0x7EA, 1), (0x7EB, 0x7F3, 17),
   (0x7F4, 0x7F5, 1), (0x7F6, 0x7F9, 10), (0x7FA, 0x7FC, 1), (0x7FD, 0x7FD, 17), (0x7FE, 0x815, 1), (0x816, 0x819, 17),
   (0x81A, 0x81A, 1), (0x81B, 0x823, 17), (0x824, 0x824, 1), (0x825, 0x827, 17), (0x828, 0x828, 1), (0x829, 0x82D, 17),
   (0x82E, 0x858, 1), (0x859, 0x85B, 17), (0x85C, 0x85F, 1), (0x860, 0x86F, 13), (0x870, 0x89F, 1), (0x8A0, 0x8D2, 13),
   (0x8D3, 0x8E1, 17), (0x8E2, 0x8E2, 5), (0x8E3, 0x902, 17), (0x93A, 0x93A, 17), (0x93C, 0x93C, 17), (0x941, 0x948, 17),
   (0x94D, 0x94D, 17), (0x951, 0x957, 17), (0x962, 0x963, 17), (0x981, 0x981, 17), (0x9BC, 0x9BC, 17), (0x9C1, 0x9C4, 17),
   (0x9CD, 0x9CD, 17), (0x9E2, 0x9E3, 17), (0x9F2, 0x9F3, 4), (0x9FB, 0x9FB, 4), (0x9FE, 0x9FE, 17), (0xA01, 0xA02, 17),
   (0xA3C, 0xA3C, 17), (0xA41, 0xA42, 17), (0xA47, 0xA48, 17), (0xA4B, 0xA4D, 17), (0xA51, 0xA51, 17), (0xA70, 0xA71, 17),
   (0xA75, 0xA75, 17), (0xA81, 0xA82, 17), (0xABC, 0xABC, 17), (0xAC1, 0xAC5, 17), (0xAC7, 0xAC8, 17), (0xACD, 0xACD, 17),
   (0xAE2, 0xAE3, 17), (0xAF1, 0xAF1, 4), (0xAFA, 0xAFF, 17), (0xB01, 0xB01, 17), (0xB3C, 0xB3C, 17), (0xB3F, 0xB3F, 17),
   (0xB41, 0xB44, 17), (0xB4D, 0xB4D, 17), (0xB55, 0xB56, 17), (0xB62, 0xB63, 17), (0xB82, 0xB82, 17), (0xBC0, 0xBC0, 17),
   (0xBCD, 0xBCD, 17), (0xBF3, 0xBF8, 10), (0xBF9, 0xBF9, 4), (0xBFA, 0xBFA, 10), (0xC00, 0xC00, 17), (0xC04, 0xC04, 17),
   (0xC3E, 0xC40, 17), (0xC46, 0xC48, 17), (0xC4A, 0xC4D, 17), (0xC55, 0xC56, 17), (0xC62, 0xC63, 17), (0xC78, 0xC7E, 10),
   (0xC81, 0xC81, 17), (0xCBC, 0xCBC, 17), (0xCCC, 0xCCD, 17), (0xCE2, 0xCE3, 17), (0xD00, 0xD01, 17), (0xD3B, 0xD3C, 17),
   (0xD41, 0xD44, 17), (0xD4D, 0xD4D, 17), (0xD62, 0xD63, 17), (0xD81, 0xD81, 17), (0xDCA, 0xDCA, 17), (0xDD2, 0xDD4, 17),
   (0xDD6, 0xDD6, 17), (0xE31, 0xE31, 17), (0xE34, 0xE3A, 17), (0xE3F, 0xE3F, 4), (0xE47, 0xE4E, 17), (0xEB1, 0xEB1, 17),
   (0xEB4, 0xEBC, 17), (0xEC8, 0xECD, 17), (0xF18, 0xF19, 17), (0xF35, 0xF35, 17), (0xF37, 0xF37, 17), (0xF39, 0xF39, 17),
   (0xF3A, 0xF3D, 10), (0xF71, 0xF7E, 17), (0xF80, 0xF84, 17), (0xF86, 0xF87, 17), (0xF8D, 0xF97, 17), (0xF99, 0xFBC, 17),
   (0xFC6, 0xFC6, 17), (0x102D, 0x1030, 17), (0x1032, 0x1037, 17), (0x1039, 0x103A, 17), (0x103D, 0x103E, 17), (0x1058, 0x1059, 17),
   (0x105E, 0x1060, 17), (0x1071, 0x1074, 17), (0x1082, 0x1082, 17), (0x1085, 0x1086, 17), (0x108D, 0x108D, 17),
   (0x109D, 0x109D, 17), (0x135D, 0x135F, 17), (0x1390, 0x1399, 10), (0x1400, 0x1400, 10), (0x1680, 0x1680, 9),
   (0x169B, 0x169C, 10), (0x1712, 0x1714, 17), (0x1732, 0x1734, 17), (0x1752, 0x1753, 17), (0x1772, 0x1773, 17),
   (0x17B4, 0x17B5, 17), (0x17B7, 0x17BD, 17), (0x17C6, 0x17C6, 17), (0x17C9, 0x17D3, 17), (0x17DB, 0x17DB, 4),
   (0x17DD, 0x17DD, 17), (0x17F0, 0x17F9, 10), (0x1800, 0x180A, 10), (0x180B, 0x180D, 17), (0x180E, 0x180E, 18),
   (0x1885, 0x1886, 17), (0x18A9, 0x18A9, 17), (0x1920, 0x1922, 17), (0x1927, 0x1928, 17), (0x1932, 0x1932, 17),
   (0x1939, 0x193B, 17), (0x1940, 0x1940, 10), (0x1944, 0x1945, 10), (0x19DE, 0x19FF, 10), (0x1A17, 0x1A18, 17),
   (0x1A1B, 0x1A1B, 17), (0x1A56, 0x1A56, 17), (0x1A58, 0x1A5E, 17), (0x1A60, 0x1A60, 17), (0x1A62, 0x1A62, 17),
   (0x1A65, 0x1A6C, 17), (0x1A73, 0x1A7C, 17), (0x1A7F, 0x1A7F, 17), (0x1AB0, 0x1AC0, 17), (0x1B00, 0x1B03, 17),
   (0x1B34, 0x1B34, 17), (0x1B36, 0x1B3A, 17), (0x1B3C, 0x1B3C, 17), (0x1B42, 0x1B42, 17), (0x1B6B, 0x1B73, 17),
   (0x1B80, 0x1B81, 17), (0x1BA2, 0x1BA5, 17), (0x1BA8, 0x1BA9, 17), (0x1BAB, 0x1BAD, 17), (0x1BE6, 0x1BE6, 17),
   (0x1BE8, 0x1BE9, 17), (0x1BED, 0x1BED, 17), (0x1BEF, 0x1BF1, 17), (0x1C2C, 0x1C33, 17), (0x1C36, 0x1C37, 17),
   (0x1CD0, 0x1CD2, 17), (0x1CD4, 0x1CE0, 17), (0x1CE2, 0x1CE8, 17), (0x1CED, 0x1CED, 17), (0x1CF4, 0x1CF4, 17),
   (0x1CF8, 0x1CF9, 17), (0x1DC0, 0x1DF9, 17), (0x1DFB, 0x1DFF, 17), (0x1FBD, 0x1FBD, 10), (0x1FBF, 0x1FC1, 10),
   (0x1FCD, 0x1FCF, 10), (0x1FDD, 0x1FDF, 10), (0x1FED, 0x1FEF, 10), (0x1FFD, 0x1FFE, 10), (0x2000, 0x200A, 9),
   (0x200B, 0x200D, 18), (0x200F, 0x200F, 1), (0x2010, 0x2027, 10), (0x2028, 0x2028, 9), (0x2029, 0x2029, 7), (0x202A, 0x202A, 11),
   (0x202B, 0x202B, 14), (0x202C, 0x202C, 16), (0x202D, 0x202D, 12), (0x202E, 0x202E, 15), (0x202F, 0x202F, 6), (0x2030, 0x2034, 4),
   (0x2035, 0x2043, 10), (0x2044, 0x2044, 6), (0x2045, 0x205E, 10)]

/-- Bidi_Class. Part 2. -/
def classRuns_2 : List (Nat × Nat × Nat) :=
  [
   (0x205F, 0x205F, 9), (0x2060, 0x2065, 18), (0x2066, 0x2066, 20), (0x2067, 0x2067, 21), (0x2068, 0x2068, 19),
   (0x2069, 0x2069, 22), (0x206A, 0x206F, 18), (0x2070, 0x2070, 2), (0x2074, 0x2079, 2), (0x207A, 0x207B, 3), (0x207C, 0x207E, 10),
   (0x2080, 0x2089, 2), (0x208A, 0x208B, 3), (0x208C, 0x208E, 10), (0x20A0, 0x20CF, 4), (0x20D0, 0x20F0, 17), (0x2100, 0x2101, 10),
   (0x2103, 0x2106, 10), (0x2108, 0x2109, 10), (0x2114, 0x2114, 10), (0x2116, 0x2118, 10), (0x211E, 0x2123, 10),
   (0x2125, 0x2125, 10), (0x2127, 0x2127, 10), (0x2129, 0x2129, 10), (0x212E, 0x212E, 4), (0x213A, 0x213B, 10),
   (0x2140, 0x2144, 10), (0x214A, 0x214D, 10), (0x2150, 0x215F, 10), (0x2189, 0x218B, 10), (0x2190, 0x2211, 10),
   (0x2212, 0x2212, 3), (0x2213, 0x2213, 4), (0x2214, 0x2335, 10), (0x237B, 0x2394, 10), (0x2396, 0x2426, 10), (0x2440, 0x244A, 10),
   (0x2460, 0x2487, 10), (0x2488, 0x249B, 2), (0x24EA, 0x26AB, 10), (0x26AD, 0x27FF, 10), (0x2900, 0x2B73, 10),
   (0x2B76, 0x2B95, 10), (0x2B97, 0x2BFF, 10), (0x2CE5, 0x2CEA, 10), (0x2CEF, 0x2CF1, 17), (0x2CF9, 0x2CFF, 10),
   (0x2D7F, 0x2D7F, 17), (0x2DE0, 0x2DFF, 17), (0x2E00, 0x2E52, 10), (0x2E80, 0x2E99, 10), (0x2E9B, 0x2EF3, 10),
   (0x2F00, 0x2FD5, 10), (0x2FF0, 0x2FFB, 10), (0x3000, 0x3000, 9), (0x3001, 0x3004, 10), (0x3008, 0x3020, 10),
   (0x302A, 0x302D, 17), (0x3030, 0x3030, 10), (0x3036, 0x3037, 10), (0x303D, 0x303F, 10), (0x3099, 0x309A, 17),
   (0x309B, 0x309C, 10), (0x30A0, 0x30A0, 10), (0x30FB, 0x30FB, 10), (0x31C0, 0x31E3, 10), (0x321D, 0x321E, 10),
   (0x3250, 0x325F, 10), (0x327C, 0x327E, 10), (0x32B1, 0x32BF, 10), (0x32CC, 0x32CF, 10), (0x3377, 0x337A, 10),
   (0x33DE, 0x33DF, 10), (0x33FF, 0x33FF, 10), (0x4DC0, 0x4DFF, 10), (0xA490, 0xA4C6, 10), (0xA60D, 0xA60F, 10),
   (0xA66F, 0xA672, 17), (0xA673, 0xA673, 10), (0xA674, 0xA67D, 17), (0xA67E, 0xA67F, 10), (0xA69E, 0xA69F, 17),
   (0xA6F0, 0xA6F1, 17), (0xA700, 0xA721, 10), (0xA788, 0xA788, 10), (0xA802, 0xA802, 17), (0xA806, 0xA806, 17),
   (0xA80B, 0xA80B, 17), (0xA825, 0xA826, 17), (0xA828, 0xA82B, 10), (0xA82C, 0xA82C, 17), (0xA838, 0xA839, 4),
   (0xA874, 0xA877, 10), (0xA8C4, 0xA8C5, 17), (0xA8E0, 0xA8F1, 17), (0xA8FF, 0xA8FF, 17), (0xA926, 0xA92D, 17),
   (0xA947, 0xA951, 17), (0xA980, 0xA982, 17), (0xA9B3, 0xA9B3, 17), (0xA9B6, 0xA9B9, 17), (0xA9BC, 0xA9BD, 17),
   (0xA9E5, 0xA9E5, 17), (0xAA29, 0xAA2E, 17), (0xAA31, 0xAA32, 17), (0xAA35, 0xAA36, 17), (0xAA43, 0xAA43, 17),
   (0xAA4C, 0xAA4C, 17), (0xAA7C, 0xAA7C, 17), (0xAAB0, 0xAAB0, 17), (0xAAB2, 0xAAB4, 17), (0xAAB7, 0xAAB8, 17),
   (0xAABE, 0xAABF, 17), (0xAAC1, 0xAAC1, 17), (0xAAEC, 0xAAED, 17), (0xAAF6, 0xAAF6, 17), (0xAB6A, 0xAB6B, 10),
   (0xABE5, 0xABE5, 17), (0xABE8, 0xABE8, 17), (0xABED, 0xABED, 17), (0xFB1D, 0xFB1D, 1), (0xFB1E, 0xFB1E, 17), (0xFB1F, 0xFB28, 1),
   (0xFB29, 0xFB29, 3), (0xFB2A, 0xFB4F, 1), (0xFB50, 0xFD3D, 13), (0xFD3E, 0xFD3F, 10), (0xFD40, 0xFDCF, 13), (0xFDD0, 0xFDEF, 18),
   (0xFDF0, 0xFDFC, 13), (0xFDFD, 0xFDFD, 10), (0xFDFE, 0xFDFF, 13), (0xFE00, 0xFE0F, 17), (0xFE10, 0xFE19, 10),
   (0xFE20, 0xFE2F, 17), (0xFE30, 0xFE4F, 10), (0xFE50, 0xFE50, 6), (0xFE51, 0xFE51, 10), (0xFE52, 0xFE52, 6), (0xFE54, 0xFE54, 10),
   (0xFE55, 0xFE55, 6), (0xFE56, 0xFE5E, 10), (0xFE5F, 0xFE5F, 4), (0xFE60, 0xFE61, 10), (0xFE62, 0xFE63, 3), (0xFE64, 0xFE66, 10),
   (0xFE68, 0xFE68, 10), (0xFE69, 0xFE6A, 4), (0xFE6B, 0xFE6B, 10), (0xFE70, 0xFEFE, 13), (0xFEFF, 0xFEFF, 18),
   (0xFF01, 0xFF02, 10), (0xFF03, 0xFF05, 4), (0xFF06, 0xFF0A, 10), (0xFF0B, 0xFF0B, 3), (0xFF0C, 0xFF0C, 6), (0xFF0D, 0xFF0D, 3),
   (0xFF0E, 0xFF0F, 6), (0xFF10, 0xFF19, 2), (0xFF1A, 0xFF1A, 6), (0xFF1B, 0xFF20, 10), (0xFF3B, 0xFF40, 10), (0xFF5B, 0xFF65, 10),
   (0xFFE0, 0xFFE1, 4), (0xFFE2, 0xFFE4, 10), (0xFFE5, 0xFFE6, 4), (0xFFE8, 0xFFEE, 10), (0xFFF0, 0xFFF8, 18), (0xFFF9, 0xFFFD, 10),
   (0xFFFE, 0xFFFF, 18), (0x10101, 0x10101, 10), (0x10140, 0x1018C, 10), (0x10190, 0x1019C, 10), (0x101A0, 0x101A0, 10),
   (0x101FD, 0x101FD, 17), (0x102E0, 0x102E0, 17), (0x102E1, 0x102FB, 2), (0x10376, 0x1037A, 17), (0x10800, 0x1091E, 1),
   (0x1091F, 0x1091F, 10), (0x10920, 0x10A00, 1), (0x10A01, 0x10A03, 17), (0x10A04, 0x10A04, 1), (0x10A05, 0x10A06, 17),
   (0x10A07, 0x10A0B, 1), (0x10A0C, 0x10A0F, 17), (0x10A10, 0x10A37, 1), (0x10A38, 0x10A3A, 17), (0x10A3B, 0x10A3E, 1),
   (0x10A3F, 0x10A3F, 17), (0x10A40, 0x10AE4, 1), (0x10AE5, 0x10AE6, 17), (0x10AE7, 0x10B38, 1), (0x10B39, 0x10B3F, 10),
   (0x10B40, 0x10CFF, 1), (0x10D00, 0x10D23, 13), (0x10D24, 0x10D27, 17), (0x10D28, 0x10D2F, 13), (0x10D30, 0x10D39, 5),
   (0x10D3A, 0x10D3F, 13), (0x10D40, 0x10E5F, 1), (0x10E60, 0x10E7E, 5), (0x10E7F, 0x10EAA, 1), (0x10EAB, 0x10EAC, 17),
   (0x10EAD, 0x10F2F, 1), (0x10F30, 0x10F45, 13), (0x10F46, 0x10F50, 17), (0x10F51, 0x10F6F, 13), (0x10F70, 0x10FFF, 1),
   (0x11001, 0x11001, 17), (0x11038, 0x11046, 17), (0x11052, 0x11065, 10), (0x1107F, 0x11081, 17), (0x110B3, 0x110B6, 17),
   (0x110B9, 0x110BA, 17), (0x11100, 0x11102, 17), (0x11127, 0x1112B, 17), (0x1112D, 0x11134, 17), (0x11173, 0x11173, 17),
   (0x11180, 0x11181, 17), (0x111B6, 0x111BE, 17), (0x111C9, 0x111CC, 17), (0x111CF, 0x111CF, 17), (0x1122F, 0x11231, 17),
   (0x11234, 0x11234, 17), (0x11236, 0x11237, 17), (0x1123E, 0x1123E, 17), (0x112DF, 0x112DF, 17), (0x112E3, 0x112EA, 17),
   (0x11300, 0x11301, 17), (0x1133B, 0x1133C, 17), (0x11340, 0x11340, 17), (0x11366, 0x1136C, 17), (0x11370, 0x11374, 17),
   (0x11438, 0x1143F, 17), (0x11442, 0x11444, 17), (0x11446, 0x11446, 17), (0x1145E, 0x1145E, 17), (0x114B3, 0x114B8, 17),
   (0x114BA, 0x114BA, 17), (0x114BF, 0x114C0, 17), (0x114C2, 0x114C3, 17), (0x115B2, 0x115B5, 17), (0x115BC, 0x115BD, 17),
   (0x115BF, 0x115C0, 17), (0x115DC, 0x115DD, 17), (0x11633, 0x1163A, 17), (0x1163D, 0x1163D, 17), (0x1163F, 0x11640, 17),
   (0x11660, 0x1166C, 10), (0x116AB, 0x116AB, 17), (0x116AD, 0x116AD, 17), (0x116B0, 0x116B5, 17), (0x116B7, 0x116B7, 17),
   (0x1171D, 0x1171F, 17), (0x11722, 0x11725, 17), (0x11727, 0x1172B, 17), (0x1182F, 0x11837, 17), (0x11839, 0x1183A, 17),
   (0x1193B, 0x1193C, 17), (0x1193E, 0x1193E, 17), (0x11943, 0x11943, 17), (0x119D4, 0x119D7, 17), (0x119DA, 0x119DB, 17),
   (0x119E0, 0x119E0, 17), (0x11A01, 0x11A06, 17), (0x11A09, 0x11A0A, 17), (0x11A33, 0x11A38, 17), (0x11A3B, 0x11A3E, 17),
   (0x11A47, 0x11A47, 17), (0x11A51, 0x11A56, 17), (0x11A59, 0x11A5B, 17), (0x11A8A, 0x11A96, 17), (0x11A98, 0x11A99, 17),
   (0x11C30, 0x11C36, 17), (0x11C38, 0x11C3D, 17), (0x11C92, 0x11CA7, 17), (0x11CAA, 0x11CB0, 17), (0x11CB2, 0x11CB3, 17),
   (0x11CB5, 0x11CB6, 17), (0x11D31, 0x11D36, 17), (0x11D3A, 0x11D3A, 17), (0x11D3C, 0x11D3D, 17), (0x11D3F, 0x11D45, 17),
   (0x11D47, 0x11D47, 17), (0x11D90, 0x11D91, 17), (0x11D95, 0x11D95, 17), (0x11D97, 0x11D97, 17), (0x11EF3, 0x11EF4, 17),
   (0x11FD5, 0x11FDC, 10), (0x11FDD, 0x11FE0, 4), (0x11FE1, 0x11FF1, 10), (0x16AF0, 0x16AF4, 17), (0x16B30, 0x16B36, 17),
   (0x16F4F, 0x16F4F, 17), (0x16F8F, 0x16F92, 17), (0x16FE2, 0x16FE2, 10), (0x16FE4, 0x16FE4, 17), (0x1BC9D, 0x1BC9E, 17)]

/-- Bidi_Class. Part 3. -/
def classRuns_3 : List (Nat × Nat × Nat) :=
  [
   (0x1BCA0, 0x1BCA3, 18), (0x1D167, 0x1D169, 17), (0x1D173, 0x1D17A, 18), (0x1D17B, 0x1D182, 17), (0x1D185, 0x1D18B, 17),
   (0x1D1AA, 0x1D1AD, 17), (0x1D200, 0x1D241, 10), (0x1D242, 0x1D244, 17), (0x1D245, 0x1D245, 10), (0x1D300, 0x1D356, 10),
   (0x1D6DB, 0x1D6DB, 10), (0x1D715, 0x1D715, 10), (0x1D74F, 0x1D74F, 10), (0x1D789, 0x1D789, 10), (0x1D7C3, 0x1D7C3, 10),
   (0x1D7CE, 0x1D7FF, 2), (0x1DA00, 0x1DA36, 17), (0x1DA3B, 0x1DA6C, 17), (0x1DA75, 0x1DA75, 17), (0x1DA84, 0x1DA84, 17),
   (0x1DA9B, 0x1DA9F, 17), (0x1DAA1, 0x1DAAF, 17), (0x1E000, 0x1E006, 17), (0x1E008, 0x1E018, 17), (0x1E01B, 0x1E021, 17),
   (0x1E023, 0x1E024, 17), (0x1E026, 0x1E02A, 17), (0x1E130, 0x1E136, 17), (0x1E2EC, 0x1E2EF, 17), (0x1E2FF, 0x1E2FF, 4),
   (0x1E800, 0x1E8CF, 1), (0x1E8D0, 0x1E8D6, 17), (0x1E8D7, 0x1E943, 1), (0x1E944, 0x1E94A, 17), (0x1E94B, 0x1EC6F, 1),
   (0x1EC70, 0x1ECBF, 13), (0x1ECC0, 0x1ECFF, 1), (0x1ED00, 0x1ED4F, 13), (0x1ED50, 0x1EDFF, 1), (0x1EE00, 0x1EEEF, 13),
   (0x1EEF0, 0x1EEF1, 10), (0x1EEF2, 0x1EEFF, 13), (0x1EF00, 0x1EFFF, 1), (0x1F000, 0x1F02B, 10), (0x1F030, 0x1F093, 10),
   (0x1F0A0, 0x1F0AE, 10), (0x1F0B1, 0x1F0BF, 10), (0x1F0C1, 0x1F0CF, 10), (0x1F0D1, 0x1F0F5, 10), (0x1F100, 0x1F10A, 2),
   (0x1F10B, 0x1F10F, 10), (0x1F12F, 0x1F12F, 10), (0x1F16A, 0x1F16F, 10), (0x1F1AD, 0x1F1AD, 10), (0x1F260, 0x1F265, 10),
   (0x1F300, 0x1F6D7, 10), (0x1F6E0, 0x1F6EC, 10), (0x1F6F0, 0x1F6FC, 10), (0x1F700, 0x1F773, 10), (0x1F780, 0x1F7D8, 10),
   (0x1F7E0, 0x1F7EB, 10), (0x1F800, 0x1F80B, 10), (0x1F810, 0x1F847, 10), (0x1F850, 0x1F859, 10), (0x1F860, 0x1F887, 10),
   (0x1F890, 0x1F8AD, 10), (0x1F8B0, 0x1F8B1, 10), (0x1F900, 0x1F978, 10), (0x1F97A, 0x1F9CB, 10), (0x1F9CD, 0x1FA53, 10),
   (0x1FA60, 0x1FA6D, 10), (0x1FA70, 0x1FA74, 10), (0x1FA78, 0x1FA7A, 10), (0x1FA80, 0x1FA86, 10), (0x1FA90, 0x1FAA8, 10),
   (0x1FAB0, 0x1FAB6, 10), (0x1FAC0, 0x1FAC2, 10), (0x1FAD0, 0x1FAD6, 10), (0x1FB00, 0x1FB92, 10), (0x1FB94, 0x1FBCA, 10),
   (0x1FBF0, 0x1FBF9, 2), (0x1FFFE, 0x1FFFF, 18), (0x2FFFE, 0x2FFFF, 18), (0x3FFFE, 0x3FFFF, 18), (0x4FFFE, 0x4FFFF, 18),
   (0x5FFFE, 0x5FFFF, 18), (0x6FFFE, 0x6FFFF, 18), (0x7FFFE, 0x7FFFF, 18), (0x8FFFE, 0x8FFFF, 18), (0x9FFFE, 0x9FFFF, 18),
   (0xAFFFE, 0xAFFFF, 18), (0xBFFFE, 0xBFFFF, 18), (0xCFFFE, 0xCFFFF, 18), (0xDFFFE, 0xE00FF, 18), (0xE0100, 0xE01EF, 17),
   (0xE01F0, 0xE0FFF, 18), (0xEFFFE, 0xEFFFF, 18), (0xFFFFE, 0xFFFFF, 18), (0x10FFFE, 0x10FFFF, 18)]

/-- Bidi_Class. -/
def classRuns : List (Nat × Nat × Nat) :=
  classRuns_1 ++ (classRuns_2 ++ (classRuns_3))

/-- The joining types and their numbers. -/
def joiningLegend : List (Nat × String) :=
  [
   (0, "U"), (1, "C"), (2, "D"), (3, "L"), (4, "R"), (5, "T")]

/-- Joining_Type. Part 1. -/
def joiningRuns_1 : List (Nat × Nat × Nat) :=
  [
   (0xAD, 0xAD, 5), (0x300, 0x36F, 5), (0x483, 0x489, 5), (0x591, 0x5BD, 5), (0x5BF, 0x5BF, 5), (0x5C1, 0x5C2, 5),
   (0x5C4, 0x5C5, 5), (0x5C7, 0x5C7, 5), (0x610, 0x61A, 5), (0x61C, 0x61C, 5), (0x620, 0x620, 2), (0x622, 0x625, 4),
   (0x626, 0x626, 2), (0x627, 0x627, 4), (0x628, 0x628, 2), (0x629, 0x629, 4), (0x62A, 0x62E, 2), (0x62F, 0x632, 4),
   (0x633, 0x63F, 2), (0x640, 0x640, 1), (0x641, 0x647, 2), (0x648, 0x648, 4), (0x649, 0x64A, 2), (0x64B, 0x65F, 5),
   (0x66E, 0x66F, 2), (0x670, 0x670, 5), (0x671, 0x673, 4), (0x675, 0x677, 4), (0x678, 0x687, 2), (0x688, 0x699, 4),
   (0x69A, 0x6BF, 2), (0x6C0, 0x6C0, 4), (0x6C1, 0x6C2, 2), (0x6C3, 0x6CB, 4), (0x6CC, 0x6CC, 2), (0x6CD, 0x6CD, 4),
   (0x6CE, 0x6CE, 2), (0x6CF, 0x6CF, 4), (0x6D0, 0x6D1, 2), (0x6D2, 0x6D3, 4), (0x6D5, 0x6D5, 4), (0x6D6, 0x6DC, 5),
   (0x6DF, 0x6E4, 5), (0x6E7, 0x6E8, 5), (0x6EA, 0x6ED, 5), (0x6EE, 0x6EF, 4), (0x6FA, 0x6FC, 2), (0x6FF, 0x6FF, 2),
   (0x70F, 0x70F, 5), (0x710, 0x710, 4), (0x711, 0x711, 5), (0x712, 0x714, 2), (0x715, 0x719, 4), (0x71A, 0x71D, 2),
   (0x71E, 0x71E, 4), (0x71F, 0x727, 2), (0x728, 0x728, 4), (0x729, 0x729, 2), (0x72A, 0x72A, 4), (0x72B, 0x72B, 2),
   (0x72C, 0x72C, 4), (0x72D, 0x72E, 2), (0x72F, 0x72F, 4), (0x730, 0x74A, 5), (0x74D, 0x74D, 4), (0x74E, 0x758, 2),
   (0x759, 0x75B, 4), (0x75C, 0x76A, 2), (0x76B, 0x76C, 4), (0x76D, 0x770, 2), (0x771, 0x771, 4), (0x772, 0x772, 2),
   (0x773, 0x774, 4), (0x775, 0x777, 2), (0x778, 0x779, 4), (0x77A, 0x77F, 2), (0x7A6, 0x7B0, 5), (0x7CA, 0x7EA, 2),
   (0x7EB, 0x7F3, 5), (0x7FA, 0x7FA, 1), (0x7FD, 0x7FD, 5), (0x816, 0x819, 5), (0x81B, 0x823, 5), (0x825, 0x827, 5),
   (0x829, 0x82D, 5), (0x840, 0x840, 4), (0x841, 0x845, 2), (0x846, 0x847, 4), (0x848, 0x848, 2), (0x849, 0x849, 4),
   (0x84A, 0x853, 2), (0x854, 0x854, 4), (0x855, 0x855, 2), (0x856, 0x858, 4), (0x859, 0x85B, 5), (0x860, 0x860, 2),
   (0x862, 0x865, 2), (0x867, 0x867, 4), (0x868, 0x868, 2), (0x869, 0x86A, 4), (0x8A0, 0x8A9, 2), (0x8AA, 0x8AC, 4),
   (0x8AE, 0x8AE, 4), (0x8AF, 0x8B0, 2), (0x8B1, 0x8B2, 4), (0x8B3, 0x8B4, 2), (0x8B6, 0x8B8, 2), (0x8B9, 0x8B9, 4),
   (0x8BA, 0x8C7, 2), (0x8D3, 0x8E1, 5), (0x8E3, 0x902, 5), (0x93A, 0x93A, 5), (0x93C, 0x93C, 5), (0x941, 0x948, 5),
   (0x94D, 0x94D, 5), (0x951, 0x957, 5), (0x962, 0x963, 5), (0x981, 0x981, 5), (0x9BC, 0x9BC, 5), (0x9C1, 0x9C4, 5),
   (0x9CD, 0x9CD, 5), (0x9E2, 0x9E3, 5), (0x9FE, 0x9FE, 5), (0xA01, 0xA02, 5), (0xA3C, 0xA3C, 5), (0xA41, 0xA42, 5),
   (0xA47, 0xA48, 5), (0xA4B, 0xA4D, 5), (0xA51, 0xA51, 5), (0xA70, 0xA71, 5), (0xA75, 0xA75, 5), (0xA81, 0xA82, 5),
   (0xABC, 0xABC, 5), (0xAC1, 0xAC5, 5), (0xAC7, 0xAC8, 5), (0xACD, 0xACD, 5), (0xAE2, 0xAE3, 5), (0xAFA, 0xAFF, 5),
   (0xB01, 0xB01, 5), (0xB3C, 0xB3C, 5), (0xB3F, 0xB3F, 5), (0xB41, 0xB44, 5), (0xB4D, 0xB4D, 5), (0xB55, 0xB56, 5),
   (0xB62, 0xB63, 5), (0xB82, 0xB82, 5), (0xBC0, 0xBC0, 5), (0xBCD, 0xBCD, 5), (0xC00, 0xC00, 5), (0xC04, 0xC04, 5),
   (0xC3E, 0xC40, 5), (0xC46, 0xC48, 5), (0xC4A, 0xC4D, 5), (0xC55, 0xC56, 5), (0xC62, 0xC63, 5), (0xC81, 0xC81, 5),
   (0xCBC, 0xCBC, 5), (0xCBF, 0xCBF, 5), (0xCC6, 0xCC6, 5), (0xCCC, 0xCCD, 5), (0xCE2, 0xCE3, 5), (0xD00, 0xD01, 5),
   (0xD3B, 0xD3C, 5), (0xD41, 0xD44, 5), (0xD4D, 0xD4D, 5), (0xD62, 0xD63, 5), (0xD81, 0xD81, 5), (0xDCA, 0xDCA, 5),
   (0xDD2, 0xDD4, 5), (0xDD6, 0xDD6, 5), (0xE31, 0xE31, 5), (0xE34, 0xE3A, 5), (0xE47, 0xE4E, 5), (0xEB1, 0xEB1, 5),
   (0xEB4, 0xEBC, 5), (0xEC8, 0xECD, 5), (0xF18, 0xF19, 5), (0xF35, 0xF35, 5), (0xF37, 0xF37, 5), (0xF39, 0xF39, 5),
   (0xF71, 0xF7E, 5), (0xF80, 0xF84, 5), (0xF86, 0xF87, 5), (0xF8D, 0xF97, 5), (0xF99, 0xFBC, 5), (0xFC6, 0xFC6, 5),
   (0x102D, 0x1030, 5), (0x1032, 0x1037, 5), (0x1039, 0x103A, 5), (0x103D, 0x103E, 5), (0x1058, 0x1059, 5), (0x105E, 0x1060, 5),
   (0x1071, 0x1074, 5), (0x1082, 0x1082, 5), (0x1085, 0x1086, 5), (0x108D, 0x108D, 5), (0x109D, 0x109D, 5), (0x135D, 0x135F, 5),
   (0x1712, 0x1714, 5), (0x1732, 0x1734, 5), (0x1752, 0x1753, 5), (0x1772, 0x1773, 5), (0x17B4, 0x17B5, 5), (0x17B7, 0x17BD, 5),
   (0x17C6, 0x17C6, 5), (0x17C9, 0x17D3, 5), (0x17DD, 0x17DD, 5), (0x1807, 0x1807, 2), (0x180A, 0x180A, 1), (0x180B, 0x180D, 5),
   (0x1820, 0x1878, 2), (0x1885, 0x1886, 5), (0x1887, 0x18A8, 2), (0x18A9, 0x18A9, 5), (0x18AA, 0x18AA, 2), (0x1920, 0x1922, 5),
   (0x1927, 0x1928, 5), (0x1932, 0x1932, 5), (0x1939, 0x193B, 5), (0x1A17, 0x1A18, 5), (0x1A1B, 0x1A1B, 5), (0x1A56, 0x1A56, 5),
   (0x1A58, 0x1A5E, 5), (0x1A60, 0x1A60, 5), (0x1A62, 0x1A62, 5), (0x1A65, 0x1A6C, 5), (0x1A73, 0x1A7C, 5), (0x1A7F, 0x1A7F, 5),
   (0x1AB0, 0x1AC0, 5), (0x1B00, 0x1B03, 5), (0x1B34, 0x1B34, 5), (0x1B36, 0x1B3A, 5), (0x1B3C, 0x1B3C, 5), (0x1B42, 0x1B42, 5),
   (0x1B6B, 0x1B73, 5), (0x1B80, 0x1B81, 5), (0x1BA2, 0x1BA5, 5), (0x1BA8, 0x1BA9, 5), (0x1BAB, 0x1BAD, 5), (0x1BE6, 0x1BE6, 5),
   (0x1BE8, 0x1BE9, 5), (0x1BED, 0x1BED, 5), (0x1BEF, 0x1BF1, 5), (0x1C2C, 0x1C33, 5), (0x1C36, 0x1C37, 5), (0x1CD0, 0x1CD2, 5),
   (0x1CD4, 0x1CE0, 5), (0x1CE2, 0x1CE8, 5), (0x1CED, 0x1CED, 5), (0x1CF4, 0x1CF4, 5), (0x1CF8, 0x1CF9, 5), (0x1DC0, 0x1DF9, 5),
   (0x1DFB, 0x1DFF, 5), (0x200B, 0x200B, 5), (0x200D, 0x200D, 1), (0x200E, 0x200F, 5), (0x202A, 0x202E, 5), (0x2060, 0x2064, 5),
   (0x206A, 0x206F, 5), (0x20D0, 0x20F0, 5), (0x2CEF, 0x2CF1, 5), (0x2D7F, 0x2D7F, 5), (0x2DE0, 0x2DFF, 5), (0x302A, 0x302D, 5),
   (0x3099, 0x309A, 5), (0xA66F, 0xA672, 5), (0xA674, 0xA67D, 5), (0xA69E, 0xA69F, 5), (0xA6F0, 0xA6F1, 5), (0xA802, 0xA802, 5),
   (0xA806, 0xA806, 5), (0xA80B, 0xA80B, 5), (0xA825, 0xA826, 5), (0xA82C, 0xA82C, 5), (0xA840, 0xA871, 2), (0xA872, 0xA872, 3),
   (0xA8C4, 0xA8C5, 5), (0xA8E0, 0xA8F1, 5), (0xA8FF, 0xA8FF, 5), (0xA926, 0xA92D, 5), (0xA947, 0xA951, 5), (0xA980, 0xA982, 5),
   (0xA9B3, 0xA9B3, 5), (0xA9B6, 0xA9B9, 5), (0xA9BC, 0xA9BD, 5), (0xA9E5, 0xA9E5, 5), (0xAA29, 0xAA2E, 5), (0xAA31, 0xAA32, 5),
   (0xAA35, 0xAA36, 5), (0xAA43, 0xAA43, 5), (0xAA4C, 0xAA4C, 5), (0xAA7C, 0xAA7C, 5), (0xAAB0, 0xAAB0, 5), (0xAAB2, 0xAAB4, 5),
   (0xAAB7, 0xAAB8, 5), (0xAABE, 0xAABF, 5), (0xAAC1, 0xAAC1, 5), (0xAAEC, 0xAAED, 5), (0xAAF6, 0xAAF6, 5), (0xABE5, 0xABE5, 5)]

/-- Joining_Type. Part 2. -/
def joiningRuns_2 : List (Nat × Nat × Nat) :=
  [
   (0xABE8, 0xABE8, 5), (0xABED, 0xABED, 5), (0xFB1E, 0xFB1E, 5), (0xFE00, 0xFE0F, 5), (0xFE20, 0xFE2F, 5), (0xFEFF, 0xFEFF, 5),
   (0xFFF9, 0xFFFB, 5), (0x101FD, 0x101FD, 5), (0x102E0, 0x102E0, 5), (0x10376, 0x1037A, 5), (0x10A01, 0x10A03, 5),
   (0x10A05, 0x10A06, 5), (0x10A0C, 0x10A0F, 5), (0x10A38, 0x10A3A, 5), (0x10A3F, 0x10A3F, 5), (0x10AC0, 0x10AC4, 2),
   (0x10AC5, 0x10AC5, 4), (0x10AC7, 0x10AC7, 4), (0x10AC9, 0x10ACA, 4), (0x10ACD, 0x10ACD, 3), (0x10ACE, 0x10AD2, 4),
   (0x10AD3, 0x10AD6, 2), (0x10AD7, 0x10AD7, 3), (0x10AD8, 0x10ADC, 2), (0x10ADD, 0x10ADD, 4), (0x10ADE, 0x10AE0, 2),
   (0x10AE1, 0x10AE1, 4), (0x10AE4, 0x10AE4, 4), (0x10AE5, 0x10AE6, 5), (0x10AEB, 0x10AEE, 2), (0x10AEF, 0x10AEF, 4),
   (0x10B80, 0x10B80, 2), (0x10B81, 0x10B81, 4), (0x10B82, 0x10B82, 2), (0x10B83, 0x10B85, 4), (0x10B86, 0x10B88, 2),
   (0x10B89, 0x10B89, 4), (0x10B8A, 0x10B8B, 2), (0x10B8C, 0x10B8C, 4), (0x10B8D, 0x10B8D, 2), (0x10B8E, 0x10B8F, 4),
   (0x10B90, 0x10B90, 2), (0x10B91, 0x10B91, 4), (0x10BA9, 0x10BAC, 4), (0x10BAD, 0x10BAE, 2), (0x10D00, 0x10D00, 3),
   (0x10D01, 0x10D21, 2), (0x10D22, 0x10D22, 4), (0x10D23, 0x10D23, 2), (0x10D24, 0x10D27, 5), (0x10EAB, 0x10EAC, 5),
   (0x10F30, 0x10F32, 2), (0x10F33, 0x10F33, 4), (0x10F34, 0x10F44, 2), (0x10F46, 0x10F50, 5), (0x10F51, 0x10F53, 2),
   (0x10F54, 0x10F54, 4), (0x10FB0, 0x10FB0, 2), (0x10FB2, 0x10FB3, 2), (0x10FB4, 0x10FB6, 4), (0x10FB8, 0x10FB8, 2),
   (0x10FB9, 0x10FBA, 4), (0x10FBB, 0x10FBC, 2), (0x10FBD, 0x10FBD, 4), (0x10FBE, 0x10FBF, 2), (0x10FC1, 0x10FC1, 2),
   (0x10FC2, 0x10FC3, 4), (0x10FC4, 0x10FC4, 2), (0x10FC9, 0x10FC9, 4), (0x10FCA, 0x10FCA, 2), (0x10FCB, 0x10FCB, 3),
   (0x11001, 0x11001, 5), (0x11038, 0x11046, 5), (0x1107F, 0x11081, 5), (0x110B3, 0x110B6, 5), (0x110B9, 0x110BA, 5),
   (0x11100, 0x11102, 5), (0x11127, 0x1112B, 5), (0x1112D, 0x11134, 5), (0x11173, 0x11173, 5), (0x11180, 0x11181, 5),
   (0x111B6, 0x111BE, 5), (0x111C9, 0x111CC, 5), (0x111CF, 0x111CF, 5), (0x1122F, 0x11231, 5), (0x11234, 0x11234, 5),
   (0x11236, 0x11237, 5), (0x1123E, 0x1123E, 5), (0x112DF, 0x112DF, 5), (0x112E3, 0x112EA, 5), (0x11300, 0x11301, 5),
   (0x1133B, 0x1133C, 5), (0x11340, 0x11340, 5), (0x11366, 0x1136C, 5), (0x11370, 0x11374, 5), (0x11438, 0x1143F, 5),
   (0x11442, 0x11444, 5), (0x11446, 0x11446, 5), (0x1145E, 0x1145E, 5), (0x114B3, 0x114B8, 5), (0x114BA, 0x114BA, 5),
   (0x114BF, 0x114C0, 5), (0x114C2, 0x114C3, 5), (0x115B2, 0x115B5, 5), (0x115BC, 0x115BD, 5), (0x115BF, 0x115C0, 5),
   (0x115DC, 0x115DD, 5), (0x11633, 0x1163A, 5), (0x1163D, 0x1163D, 5), (0x1163F, 0x11640, 5), (0x116AB, 0x116AB, 5),
   (0x116AD, 0x116AD, 5), (0x116B0, 0x116B5, 5), (0x116B7, 0x116B7, 5), (0x1171D, 0x1171F, 5), (0x11722, 0x11725, 5),
   (0x11727, 0x1172B, 5), (0x1182F, 0x11837, 5), (0x11839, 0x1183A, 5), (0x1193B, 0x1193C, 5), (0x1193E, 0x1193E, 5),
   (0x11943, 0x11943, 5), (0x119D4, 0x119D7, 5), (0x119DA, 0x119DB, 5), (0x119E0, 0x119E0, 5), (0x11A01, 0x11A0A, 5),
   (0x11A33, 0x11A38, 5), (0x11A3B, 0x11A3E, 5), (0x11A47, 0x11A47, 5), (0x11A51, 0x11A56, 5), (0x11A59, 0x11A5B, 5),
   (0x11A8A, 0x11A96, 5), (0x11A98, 0x11A99, 5), (0x11C30, 0x11C36, 5), (0x11C38, 0x11C3D, 5), (0x11C3F, 0x11C3F, 5),
   (0x11C92, 0x11CA7, 5), (0x11CAA, 0x11CB0, 5), (0x11CB2, 0x11CB3, 5), (0x11CB5, 0x11CB6, 5), (0x11D31, 0x11D36, 5),
   (0x11D3A, 0x11D3A, 5), (0x11D3C, 0x11D3D, 5), (0x11D3F, 0x11D45, 5), (0x11D47, 0x11D47, 5), (0x11D90, 0x11D91, 5),
   (0x11D95, 0x11D95, 5), (0x11D97, 0x11D97, 5), (0x11EF3, 0x11EF4, 5), (0x13430, 0x13438, 5), (0x16AF0, 0x16AF4, 5),
   (0x16B30, 0x16B36, 5), (0x16F4F, 0x16F4F, 5), (0x16F8F, 0x16F92, 5), (0x16FE4, 0x16FE4, 5), (0x1BC9D, 0x1BC9E, 5),
   (0x1BCA0, 0x1BCA3, 5), (0x1D167, 0x1D169, 5), (0x1D173, 0x1D182, 5), (0x1D185, 0x1D18B, 5), (0x1D1AA, 0x1D1AD, 5),
   (0x1D242, 0x1D244, 5), (0x1DA00, 0x1DA36, 5), (0x1DA3B, 0x1DA6C, 5), (0x1DA75, 0x1DA75, 5), (0x1DA84, 0x1DA84, 5),
   (0x1DA9B, 0x1DA9F, 5), (0x1DAA1, 0x1DAAF, 5), (0x1E000, 0x1E006, 5), (0x1E008, 0x1E018, 5), (0x1E01B, 0x1E021, 5),
   (0x1E023, 0x1E024, 5), (0x1E026, 0x1E02A, 5), (0x1E130, 0x1E136, 5), (0x1E2EC, 0x1E2EF, 5), (0x1E8D0, 0x1E8D6, 5),
   (0x1E900, 0x1E943, 2), (0x1E944, 0x1E94B, 5), (0xE0001, 0xE0001, 5), (0xE0020, 0xE007F, 5), (0xE0100, 0xE01EF, 5)]

/-- Joining_Type. -/
def joiningRuns : List (Nat × Nat × Nat) :=
  joiningRuns_1 ++ (joiningRuns_2)

/-- The joining groups and their numbers. -/
def groupLegend : List (Nat × String) :=
  [
   (0, "No Joining Group"), (1, "Ain"), (2, "Alaph"), (3, "Alef"), (4, "Beh"), (5, "Beth"), (6, "Dal"), (7, "Dalath Rish"),
   (8, "E"), (9, "Feh"), (10, "Final Semkath"), (11, "Gaf"), (12, "Gamal"), (13, "Hah"), (14, "Teh Marbuta Goal"), (15, "He"),
   (16, "Heh"), (17, "Heh Goal"), (18, "Heth"), (19, "Kaf"), (20, "Kaph"), (21, "Knotted Heh"), (22, "Lam"), (23, "Lamadh"),
   (24, "Meem"), (25, "Mim"), (26, "Noon"), (27, "Nun"), (28, "Pe"), (29, "Qaf"), (30, "Qaph"), (31, "Reh"), (32, "Reversed Pe"),
   (33, "Sad"), (34, "Sadhe"), (35, "Seen"), (36, "Semkath"), (37, "Shin"), (38, "Swash Kaf"), (39, "Syriac Waw"), (40, "Tah"),
   (41, "Taw"), (42, "Teh Marbuta"), (43, "Teth"), (44, "Waw"), (45, "Yeh"), (46, "Yeh Barree"), (47, "Yeh With Tail"),
   (48, "Yudh"), (49, "Yudh He"), (50, "Zain"), (51, "Fe"), (52, "Khaph"), (53, "Zhain"), (54, "Burushaski Yeh Barree"),
   (55, "Farsi Yeh"), (56, "Nya"), (57, "Rohingya Yeh"), (58, "Manichaean Aleph"), (59, "Manichaean Ayin"), (60, "Manichaean Beth"),
   (61, "Manichaean Daleth"), (62, "Manichaean Dhamedh"), (63, "Manichaean Five"), (64, "Manichaean Gimel"),
   (65, "Manichaean Heth"), (66, "Manichaean Hundred"), (67, "Manichaean Kaph"), (68, "Manichaean Lamedh"), (69, "Manichaean Mem"),
   (70, "Manichaean Nun"), (71, "Manichaean One"), (72, "Manichaean Pe"), (73, "Manichaean Qoph"), (74, "Manichaean Resh"),
   (75, "Manichaean Sadhe"), (76, "Manichaean Samekh"), (77, "Manichaean Taw"), (78, "Manichaean Ten"), (79, "Manichaean Teth"),
   (80, "Manichaean Thamedh"), (81, "Manichaean Twenty"), (82, "Manichaean Waw"), (83, "Manichaean Yodh"), (84, "Manichaean Zayin"),
   (85, "Straight Waw"), (86, "African Feh"), (87, "African Noon"), (88, "African Qaf"), (89, "Malayalam Bha"),
   (90, "Malayalam Ja"), (91, "Malayalam Lla"), (92, "Malayalam Llla"), (93, "Malayalam Nga"), (94, "Malayalam Nna"),
   (95, "Malayalam Nnna"), (96, "Malayalam Nya"), (97, "Malayalam Ra"), (98, "Malayalam Ssa"), (99, "Malayalam Tta"),
   (100, "Hanifi Rohingya Kinna Ya"), (101, "Hanifi Rohingya Pa")]

/-- Joining_Group. -/
def groupRuns : List (Nat × Nat × Nat) :=
  [
   (0x620, 0x620, 45), (0x622, 0x623, 3), (0x624, 0x624, 44), (0x625, 0x625, 3), (0x626, 0x626, 45), (0x627, 0x627, 3),
   (0x628, 0x628, 4), (0x629, 0x629, 42), (0x62A, 0x62B, 4), (0x62C, 0x62E, 13), (0x62F, 0x630, 6), (0x631, 0x632, 31),
   (0x633, 0x634, 35), (0x635, 0x636, 33), (0x637, 0x638, 40), (0x639, 0x63A, 1), (0x63B, 0x63C, 11), (0x63D, 0x63F, 55),
   (0x641, 0x641, 9), (0x642, 0x642, 29), (0x643, 0x643, 19), (0x644, 0x644, 22), (0x645, 0x645, 24), (0x646, 0x646, 26),
   (0x647, 0x647, 16), (0x648, 0x648, 44), (0x649, 0x64A, 45), (0x66E, 0x66E, 4), (0x66F, 0x66F, 29), (0x671, 0x673, 3),
   (0x675, 0x675, 3), (0x676, 0x677, 44), (0x678, 0x678, 45), (0x679, 0x680, 4), (0x681, 0x687, 13), (0x688, 0x690, 6),
   (0x691, 0x699, 31), (0x69A, 0x69C, 35), (0x69D, 0x69E, 33), (0x69F, 0x69F, 40), (0x6A0, 0x6A0, 1), (0x6A1, 0x6A6, 9),
   (0x6A7, 0x6A8, 29), (0x6A9, 0x6A9, 11), (0x6AA, 0x6AA, 38), (0x6AB, 0x6AB, 11), (0x6AC, 0x6AE, 19), (0x6AF, 0x6B4, 11),
   (0x6B5, 0x6B8, 22), (0x6B9, 0x6BC, 26), (0x6BD, 0x6BD, 56), (0x6BE, 0x6BE, 21), (0x6BF, 0x6BF, 13), (0x6C0, 0x6C0, 42),
   (0x6C1, 0x6C2, 17), (0x6C3, 0x6C3, 14), (0x6C4, 0x6CB, 44), (0x6CC, 0x6CC, 55), (0x6CD, 0x6CD, 47), (0x6CE, 0x6CE, 55),
   (0x6CF, 0x6CF, 44), (0x6D0, 0x6D1, 45), (0x6D2, 0x6D3, 46), (0x6D5, 0x6D5, 42), (0x6EE, 0x6EE, 6), (0x6EF, 0x6EF, 31),
   (0x6FA, 0x6FA, 35), (0x6FB, 0x6FB, 33), (0x6FC, 0x6FC, 1), (0x6FF, 0x6FF, 21), (0x710, 0x710, 2), (0x712, 0x712, 5),
   (0x713, 0x714, 12), (0x715, 0x716, 7), (0x717, 0x717, 15), (0x718, 0x718, 39), (0x719, 0x719, 50), (0x71A, 0x71A, 18),
   (0x71B, 0x71C, 43), (0x71D, 0x71D, 48), (0x71E, 0x71E, 49), (0x71F, 0x71F, 20), (0x720, 0x720, 23), (0x721, 0x721, 25),
   (0x722, 0x722, 27), (0x723, 0x723, 36), (0x724, 0x724, 10), (0x725, 0x725, 8), (0x726, 0x726, 28), (0x727, 0x727, 32),
   (0x728, 0x728, 34), (0x729, 0x729, 30), (0x72A, 0x72A, 7), (0x72B, 0x72B, 37), (0x72C, 0x72C, 41), (0x72D, 0x72D, 5),
   (0x72E, 0x72E, 12), (0x72F, 0x72F, 7), (0x74D, 0x74D, 53), (0x74E, 0x74E, 52), (0x74F, 0x74F, 51), (0x750, 0x756, 4),
   (0x757, 0x758, 13), (0x759, 0x75A, 6), (0x75B, 0x75B, 31), (0x75C, 0x75C, 35), (0x75D, 0x75F, 1), (0x760, 0x761, 9),
   (0x762, 0x764, 11), (0x765, 0x766, 24), (0x767, 0x769, 26), (0x76A, 0x76A, 22), (0x76B, 0x76C, 31), (0x76D, 0x76D, 35),
   (0x76E, 0x76F, 13), (0x770, 0x770, 35), (0x771, 0x771, 31), (0x772, 0x772, 13), (0x773, 0x774, 3), (0x775, 0x776, 55),
   (0x777, 0x777, 45), (0x778, 0x779, 44), (0x77A, 0x77B, 54), (0x77C, 0x77C, 13), (0x77D, 0x77E, 35), (0x77F, 0x77F, 19),
   (0x860, 0x860, 93), (0x861, 0x861, 90), (0x862, 0x862, 96), (0x863, 0x863, 99), (0x864, 0x864, 94), (0x865, 0x865, 95),
   (0x866, 0x866, 89), (0x867, 0x867, 97), (0x868, 0x868, 91), (0x869, 0x869, 92), (0x86A, 0x86A, 98), (0x8A0, 0x8A1, 4),
   (0x8A2, 0x8A2, 13), (0x8A3, 0x8A3, 40), (0x8A4, 0x8A4, 9), (0x8A5, 0x8A5, 29), (0x8A6, 0x8A6, 22), (0x8A7, 0x8A7, 24),
   (0x8A8, 0x8A9, 45), (0x8AA, 0x8AA, 31), (0x8AB, 0x8AB, 44), (0x8AC, 0x8AC, 57), (0x8AE, 0x8AE, 6), (0x8AF, 0x8AF, 33),
   (0x8B0, 0x8B0, 11), (0x8B1, 0x8B1, 85), (0x8B2, 0x8B2, 31), (0x8B3, 0x8B3, 1), (0x8B4, 0x8B4, 19), (0x8B6, 0x8B8, 4),
   (0x8B9, 0x8B9, 31), (0x8BA, 0x8BA, 45), (0x8BB, 0x8BB, 86), (0x8BC, 0x8BC, 88), (0x8BD, 0x8BD, 87), (0x8BE, 0x8C0, 4),
   (0x8C1, 0x8C1, 13), (0x8C2, 0x8C2, 11), (0x8C3, 0x8C3, 1), (0x8C4, 0x8C4, 88), (0x8C5, 0x8C6, 13), (0x8C7, 0x8C7, 22),
   (0x10AC0, 0x10AC0, 58), (0x10AC1, 0x10AC2, 60), (0x10AC3, 0x10AC4, 64), (0x10AC5, 0x10AC5, 61), (0x10AC7, 0x10AC7, 82),
   (0x10AC9, 0x10ACA, 84), (0x10ACD, 0x10ACD, 65), (0x10ACE, 0x10ACE, 79), (0x10ACF, 0x10ACF, 83), (0x10AD0, 0x10AD2, 67),
   (0x10AD3, 0x10AD3, 68), (0x10AD4, 0x10AD4, 62), (0x10AD5, 0x10AD5, 80), (0x10AD6, 0x10AD6, 69), (0x10AD7, 0x10AD7, 70),
   (0x10AD8, 0x10AD8, 76), (0x10AD9, 0x10ADA, 59), (0x10ADB, 0x10ADC, 72), (0x10ADD, 0x10ADD, 75), (0x10ADE, 0x10AE0, 73),
   (0x10AE1, 0x10AE1, 74), (0x10AE4, 0x10AE4, 77), (0x10AEB, 0x10AEB, 71), (0x10AEC, 0x10AEC, 63), (0x10AED, 0x10AED, 78),
   (0x10AEE, 0x10AEE, 81), (0x10AEF, 0x10AEF, 66), (0x10D02, 0x10D02, 101), (0x10D09, 0x10D09, 101), (0x10D19, 0x10D19, 100),
   (0x10D1C, 0x10D1C, 101), (0x10D1E, 0x10D1E, 100), (0x10D20, 0x10D20, 100), (0x10D23, 0x10D23, 100)]

end Verif.Spec
