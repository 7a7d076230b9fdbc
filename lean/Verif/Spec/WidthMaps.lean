/-!
# East Asian widths and decomposition types of the Unicode standard, version 13.0

EastAsianWidth.txt and the sixth field of UnicodeData.txt. Lines `first, last, value` in ascending order; code points in
none of them have the default value. The default is N (0) and none (0).
-/
namespace Verif.Spec
set_option maxRecDepth 10000

/-- The widths and their numbers. -/
def widthLegend : List (Nat × String) :=
  [
   (0, "N"), (1, "A"), (2, "H"), (3, "F"), (4, "Na"), (5, "W")]

/-- East_Asian_Width. Part 1. -/
def widthRuns_1 : List (Nat × Nat × Nat) :=
  [
   (0x20, 0x7E, 4), (0xA1, 0xA1, 1), (0xA2, 0xA3, 4), (0xA4, 0xA4, 1), (0xA5, 0xA6, 4), (0xA7, 0xA8, 1), (0xAA, 0xAA, 1),
   (0xAC, 0xAC, 4), (0xAD, 0xAE, 1), (0xAF, 0xAF, 4), (0xB0, 0xB4, 1), (0xB6, 0xBA, 1), (0xBC, 0xBF, 1), (0xC6, 0xC6, 1),
   (0xD0, 0xD0, 1), (0xD7, 0xD8, 1), (0xDE, 0xE1, 1), (0xE6, 0xE6, 1), (0xE8, 0xEA, 1), (0xEC, 0xED, 1), (0xF0, 0xF0, 1),
   (0xF2, 0xF3, 1), (0xF7, 0xFA, 1), (0xFC, 0xFC, 1), (0xFE, 0xFE, 1), (0x101, 0x101, 1), (0x111, 0x111, 1), (0x113, 0x113, 1),
   (0x11B, 0x11B, 1), (0x126, 0x127, 1), (0x12B, 0x12B, 1), (0x131, 0x133, 1), (0x138, 0x138, 1), (0x13F, 0x142, 1),
   (0x144, 0x144, 1), (0x148, 0x14B, 1), (0x14D, 0x14D, 1), (0x152, 0x153, 1), (0x166, 0x167, 1), (0x16B, 0x16B, 1),
   (0x1CE, 0x1CE, 1), (0x1D0, 0x1D0, 1), (0x1D2, 0x1D2, 1), (0x1D4, 0x1D4, 1), (0x1D6, 0x1D6, 1), (0x1D8, 0x1D8, 1),
   (0x1DA, 0x1DA, 1), (0x1DC, 0x1DC, 1), (0x251, 0x251, 1), (0x261, 0x261, 1), (0x2C4, 0x2C4, 1), (0x2C7, 0x2C7, 1),
   (0x2C9, 0x2CB, 1), (0x2CD, 0x2CD, 1), (0x2D0, 0x2D0, 1), (0x2D8, 0x2DB, 1), (0x2DD, 0x2DD, 1), (0x2DF, 0x2DF, 1),
   (0x300, 0x36F, 1), (0x391, 0x3A1, 1), (0x3A3, 0x3A9, 1), (0x3B1, 0x3C1, 1), (0x3C3, 0x3C9, 1), (0x401, 0x401, 1),
   (0x410, 0x44F, 1), (0x451, 0x451, 1), (0x1100, 0x115F, 5), (0x2010, 0x2010, 1), (0x2013, 0x2016, 1), (0x2018, 0x2019, 1),
   (0x201C, 0x201D, 1), (0x2020, 0x2022, 1), (0x2024, 0x2027, 1), (0x2030, 0x2030, 1), (0x2032, 0x2033, 1), (0x2035, 0x2035, 1),
   (0x203B, 0x203B, 1), (0x203E, 0x203E, 1), (0x2074, 0x2074, 1), (0x207F, 0x207F, 1), (0x2081, 0x2084, 1), (0x20A9, 0x20A9, 2),
   (0x20AC, 0x20AC, 1), (0x2103, 0x2103, 1), (0x2105, 0x2105, 1), (0x2109, 0x2109, 1), (0x2113, 0x2113, 1), (0x2116, 0x2116, 1),
   (0x2121, 0x2122, 1), (0x2126, 0x2126, 1), (0x212B, 0x212B, 1), (0x2153, 0x2154, 1), (0x215B, 0x215E, 1), (0x2160, 0x216B, 1),
   (0x2170, 0x2179, 1), (0x2189, 0x2189, 1), (0x2190, 0x2199, 1), (0x21B8, 0x21B9, 1), (0x21D2, 0x21D2, 1), (0x21D4, 0x21D4, 1),
   (0x21E7, 0x21E7, 1), (0x2200, 0x2200, 1), (0x2202, 0x2203, 1), (0x2207, 0x2208, 1), (0x220B, 0x220B, 1), (0x220F, 0x220F, 1),
   (0x2211, 0x2211, 1), (0x2215, 0x2215, 1), (0x221A, 0x221A, 1), (0x221D, 0x2220, 1), (0x2223, 0x2223, 1), (0x2225, 0x2225, 1),
   (0x2227, 0x222C, 1), (0x222E, 0x222E, 1), (0x2234, 0x2237, 1), (0x223C, 0x223D, 1), (0x2248, 0x2248, 1), (0x224C, 0x224C, 1),
   (0x2252, 0x2252, 1), (0x2260, 0x2261, 1), (0x2264, 0x2267, 1), (0x226A, 0x226B, 1), (0x226E, 0x226F, 1), (0x2282, 0x2283, 1),
   (0x2286, 0x2287, 1), (0x2295, 0x2295, 1), (0x2299, 0x2299, 1), (0x22A5, 0x22A5, 1), (0x22BF, 0x22BF, 1), (0x2312, 0x2312, 1),
   (0x231A, 0x231B, 5), (0x2329, 0x232A, 5), (0x23E9, 0x23EC, 5), (0x23F0, 0x23F0, 5), (0x23F3, 0x23F3, 5), (0x2460, 0x24E9, 1),
   (0x24EB, 0x254B, 1), (0x2550, 0x2573, 1), (0x2580, 0x258F, 1), (0x2592, 0x2595, 1), (0x25A0, 0x25A1, 1), (0x25A3, 0x25A9, 1),
   (0x25B2, 0x25B3, 1), (0x25B6, 0x25B7, 1), (0x25BC, 0x25BD, 1), (0x25C0, 0x25C1, 1), (0x25C6, 0x25C8, 1), (0x25CB, 0x25CB, 1),
   (0x25CE, 0x25D1, 1), (0x25E2, 0x25E5, 1), (0x25EF, 0x25EF, 1), (0x25FD, 0x25FE, 5), (0x2605, 0x2606, 1), (0x2609, 0x2609, 1),
   (0x260E, 0x260F, 1), (0x2614, 0x2615, 5), (0x261C, 0x261C, 1), (0x261E, 0x261E, 1), (0x2640, 0x2640, 1), (0x2642, 0x2642, 1),
   (0x2648, 0x2653, 5), (0x2660, 0x2661, 1), (0x2663, 0x2665, 1), (0x2667, 0x266A, 1), (0x266C, 0x266D, 1), (0x266F, 0x266F, 1),
   (0x267F, 0x267F, 5), (0x2693, 0x2693, 5), (0x269E, 0x269F, 1), (0x26A1, 0x26A1, 5), (0x26AA, 0x26AB, 5), (0x26BD, 0x26BE, 5),
   (0x26BF, 0x26BF, 1), (0x26C4, 0x26C5, 5), (0x26C6, 0x26CD, 1), (0x26CE, 0x26CE, 5), (0x26CF, 0x26D3, 1), (0x26D4, 0x26D4, 5),
   (0x26D5, 0x26E1, 1), (0x26E3, 0x26E3, 1), (0x26E8, 0x26E9, 1), (0x26EA, 0x26EA, 5), (0x26EB, 0x26F1, 1), (0x26F2, 0x26F3, 5),
   (0x26F4, 0x26F4, 1), (0x26F5, 0x26F5, 5), (0x26F6, 0x26F9, 1), (0x26FA, 0x26FA, 5), (0x26FB, 0x26FC, 1), (0x26FD, 0x26FD, 5),
   (0x26FE, 0x26FF, 1), (0x2705, 0x2705, 5), (0x270A, 0x270B, 5), (0x2728, 0x2728, 5), (0x273D, 0x273D, 1), (0x274C, 0x274C, 5),
   (0x274E, 0x274E, 5), (0x2753, 0x2755, 5), (0x2757, 0x2757, 5), (0x2776, 0x277F, 1), (0x2795, 0x2797, 5), (0x27B0, 0x27B0, 5),
   (0x27BF, 0x27BF, 5), (0x27E6, 0x27ED, 4), (0x2985, 0x2986, 4), (0x2B1B, 0x2B1C, 5), (0x2B50, 0x2B50, 5), (0x2B55, 0x2B55, 5),
   (0x2B56, 0x2B59, 1), (0x2E80, 0x2E99, 5), (0x2E9B, 0x2EF3, 5), (0x2F00, 0x2FD5, 5), (0x2FF0, 0x2FFB, 5), (0x3000, 0x3000, 3),
   (0x3001, 0x303E, 5), (0x3041, 0x3096, 5), (0x3099, 0x30FF, 5), (0x3105, 0x312F, 5), (0x3131, 0x318E, 5), (0x3190, 0x31E3, 5),
   (0x31F0, 0x321E, 5), (0x3220, 0x3247, 5), (0x3248, 0x324F, 1), (0x3250, 0x4DBF, 5), (0x4E00, 0xA48C, 5), (0xA490, 0xA4C6, 5),
   (0xA960, 0xA97C, 5), (0xAC00, 0xD7A3, 5), (0xE000, 0xF8FF, 1), (0xF900, 0xFAFF, 5), (0xFE00, 0xFE0F, 1), (0xFE10, 0xFE19, 5),
   (0xFE30, 0xFE52, 5), (0xFE54, 0xFE66, 5), (0xFE68, 0xFE6B, 5), (0xFF01, 0xFF60, 3), (0xFF61, 0xFFBE, 2), (0xFFC2, 0xFFC7, 2),
   (0xFFCA, 0xFFCF, 2), (0xFFD2, 0xFFD7, 2), (0xFFDA, 0xFFDC, 2), (0xFFE0, 0xFFE6, 3), (0xFFE8, 0xFFEE, 2), (0xFFFD, 0xFFFD, 1),
   (0x16FE0, 0x16FE4, 5), (0x16FF0, 0x16FF1, 5), (0x17000, 0x187F7, 5), (0x18800, 0x18CD5, 5), (0x18D00, 0x18D08, 5),
   (0x1B000, 0x1B11E, 5), (0x1B150, 0x1B152, 5), (0x1B164, 0x1B167, 5), (0x1B170, 0x1B2FB, 5), (0x1F004, 0x1F004, 5),
   (0x1F0CF, 0x1F0CF, 5), (0x1F100, 0x1F10A, 1), (0x1F110, 0x1F12D, 1), (0x1F130, 0x1F169, 1), (0x1F170, 0x1F18D, 1),
   (0x1F18E, 0x1F18E, 5), (0x1F18F, 0x1F190, 1), (0x1F191, 0x1F19A, 5), (0x1F19B, 0x1F1AC, 1), (0x1F200, 0x1F202, 5),
   (0x1F210, 0x1F23B, 5), (0x1F240, 0x1F248, 5), (0x1F250, 0x1F251, 5), (0x1F260, 0x1F265, 5), (0x1F300, 0x1F320, 5),
   (0x1F32D, 0x1F335, 5), (0x1F337, 0x1F37C, 5), (0x1F37E, 0x1F393, 5), (0x1F3A0, 0x1F3CA, 5), (0x1F3CF, 0x1F3D3, 5),
   (0x1F3E0, 0x1F3F0, 5), (0x1F3F4, 0x1F3F4, 5), (0x1F3F8, 0x1F43E, 5), (0x1F440, 0x1F440, 5), (0x1F442, 0x1F4FC, 5),
   (0x1F4FF, 0x1F53D, 5), (0x1F54B, 0x1F54E, 5), (0x1F550, 0x1F567, 5), (0x1F57A, 0x1F57A, 5), (0x1F595, 0x1F596, 5),
   (0x1F5A4, 0x1F5A4, 5), (0x1F5FB, 0x1F64F, 5), (0x1F680, 0x1F6C5, 5), (0x1F6CC, 0x1F6CC, 5), (0x1F6D0, 0x1F6D2, 5),
   (0x1F6D5, 0x1F6D7, 5), (0x1F6EB, 0x1F6EC, 5), (0x1F6F4, 0x1F6FC, 5), (0x1F7E0, 0x1F7EB, 5), (0x1F90C, 0x1F93A, 5),
   (0x1F93C, 0x1F945, 5), (0x1F947, 0x1F978, 5), (0x1F97A, 0x1F9CB, 5), (0x1F9CD, 0x1F9FF, 5), (0x1FA70, 0x1FA74, 5),
   (0x1FA78, 0x1FA7A, 5)]

/-- East_Asian_Width. Part 2. -/
def widthRuns_2 : List (Nat × Nat × Nat) :=
  [
   (0x1FA80, 0x1FA86, 5), (0x1FA90, 0x1FAA8, 5), (0x1FAB0, 0x1FAB6, 5), (0x1FAC0, 0x1FAC2, 5), (0x1FAD0, 0x1FAD6, 5),
   (0x20000, 0x2FFFD, 5), (0x30000, 0x3FFFD, 5), (0xE0100, 0xE01EF, 1), (0xF0000, 0xFFFFD, 1), (0x100000, 0x10FFFD, 1)]

/-- East_Asian_Width. -/
def widthRuns : List (Nat × Nat × Nat) :=
  widthRuns_1 ++ (widthRuns_2)

/-- The decomposition types and their numbers. -/
def decompositionLegend : List (Nat × String) :=
  [
   (0, "none"), (1, "can"), (2, "com"), (3, "enc"), (4, "fin"), (5, "font"), (6, "fra"), (7, "init"), (8, "iso"), (9, "med"),
   (10, "nar"), (11, "nb"), (12, "sml"), (13, "sqr"), (14, "sub"), (15, "sup"), (16, "vert"), (17, "wide")]

/-- Decomposition_Type. Part 1. -/
def decompositionRuns_1 : List (Nat × Nat × Nat) :=
  [
   (0xA0, 0xA0, 11), (0xA8, 0xA8, 2), (0xAA, 0xAA, 15), (0xAF, 0xAF, 2), (0xB2, 0xB3, 15), (0xB4, 0xB5, 2), (0xB8, 0xB8, 2),
   (0xB9, 0xBA, 15), (0xBC, 0xBE, 6), (0xC0, 0xC5, 1), (0xC7, 0xCF, 1), (0xD1, 0xD6, 1), (0xD9, 0xDD, 1), (0xE0, 0xE5, 1),
   (0xE7, 0xEF, 1), (0xF1, 0xF6, 1), (0xF9, 0xFD, 1), (0xFF, 0x10F, 1), (0x112, 0x125, 1), (0x128, 0x130, 1), (0x132, 0x133, 2),
   (0x134, 0x137, 1), (0x139, 0x13E, 1), (0x13F, 0x140, 2), (0x143, 0x148, 1), (0x149, 0x149, 2), (0x14C, 0x151, 1),
   (0x154, 0x165, 1), (0x168, 0x17E, 1), (0x17F, 0x17F, 2), (0x1A0, 0x1A1, 1), (0x1AF, 0x1B0, 1), (0x1C4, 0x1CC, 2),
   (0x1CD, 0x1DC, 1), (0x1DE, 0x1E3, 1), (0x1E6, 0x1F0, 1), (0x1F1, 0x1F3, 2), (0x1F4, 0x1F5, 1), (0x1F8, 0x21B, 1),
   (0x21E, 0x21F, 1), (0x226, 0x233, 1), (0x2B0, 0x2B8, 15), (0x2D8, 0x2DD, 2), (0x2E0, 0x2E4, 15), (0x340, 0x341, 1),
   (0x343, 0x344, 1), (0x374, 0x374, 1), (0x37A, 0x37A, 2), (0x37E, 0x37E, 1), (0x384, 0x384, 2), (0x385, 0x38A, 1),
   (0x38C, 0x38C, 1), (0x38E, 0x390, 1), (0x3AA, 0x3B0, 1), (0x3CA, 0x3CE, 1), (0x3D0, 0x3D2, 2), (0x3D3, 0x3D4, 1),
   (0x3D5, 0x3D6, 2), (0x3F0, 0x3F2, 2), (0x3F4, 0x3F5, 2), (0x3F9, 0x3F9, 2), (0x400, 0x401, 1), (0x403, 0x403, 1),
   (0x407, 0x407, 1), (0x40C, 0x40E, 1), (0x419, 0x419, 1), (0x439, 0x439, 1), (0x450, 0x451, 1), (0x453, 0x453, 1),
   (0x457, 0x457, 1), (0x45C, 0x45E, 1), (0x476, 0x477, 1), (0x4C1, 0x4C2, 1), (0x4D0, 0x4D3, 1), (0x4D6, 0x4D7, 1),
   (0x4DA, 0x4DF, 1), (0x4E2, 0x4E7, 1), (0x4EA, 0x4F5, 1), (0x4F8, 0x4F9, 1), (0x587, 0x587, 2), (0x622, 0x626, 1),
   (0x675, 0x678, 2), (0x6C0, 0x6C0, 1), (0x6C2, 0x6C2, 1), (0x6D3, 0x6D3, 1), (0x929, 0x929, 1), (0x931, 0x931, 1),
   (0x934, 0x934, 1), (0x958, 0x95F, 1), (0x9CB, 0x9CC, 1), (0x9DC, 0x9DD, 1), (0x9DF, 0x9DF, 1), (0xA33, 0xA33, 1),
   (0xA36, 0xA36, 1), (0xA59, 0xA5B, 1), (0xA5E, 0xA5E, 1), (0xB48, 0xB48, 1), (0xB4B, 0xB4C, 1), (0xB5C, 0xB5D, 1),
   (0xB94, 0xB94, 1), (0xBCA, 0xBCC, 1), (0xC48, 0xC48, 1), (0xCC0, 0xCC0, 1), (0xCC7, 0xCC8, 1), (0xCCA, 0xCCB, 1),
   (0xD4A, 0xD4C, 1), (0xDDA, 0xDDA, 1), (0xDDC, 0xDDE, 1), (0xE33, 0xE33, 2), (0xEB3, 0xEB3, 2), (0xEDC, 0xEDD, 2),
   (0xF0C, 0xF0C, 11), (0xF43, 0xF43, 1), (0xF4D, 0xF4D, 1), (0xF52, 0xF52, 1), (0xF57, 0xF57, 1), (0xF5C, 0xF5C, 1),
   (0xF69, 0xF69, 1), (0xF73, 0xF73, 1), (0xF75, 0xF76, 1), (0xF77, 0xF77, 2), (0xF78, 0xF78, 1), (0xF79, 0xF79, 2),
   (0xF81, 0xF81, 1), (0xF93, 0xF93, 1), (0xF9D, 0xF9D, 1), (0xFA2, 0xFA2, 1), (0xFA7, 0xFA7, 1), (0xFAC, 0xFAC, 1),
   (0xFB9, 0xFB9, 1), (0x1026, 0x1026, 1), (0x10FC, 0x10FC, 15), (0x1B06, 0x1B06, 1), (0x1B08, 0x1B08, 1), (0x1B0A, 0x1B0A, 1),
   (0x1B0C, 0x1B0C, 1), (0x1B0E, 0x1B0E, 1), (0x1B12, 0x1B12, 1), (0x1B3B, 0x1B3B, 1), (0x1B3D, 0x1B3D, 1), (0x1B40, 0x1B41, 1),
   (0x1B43, 0x1B43, 1), (0x1D2C, 0x1D2E, 15), (0x1D30, 0x1D3A, 15), (0x1D3C, 0x1D4D, 15), (0x1D4F, 0x1D61, 15),
   (0x1D62, 0x1D6A, 14), (0x1D78, 0x1D78, 15), (0x1D9B, 0x1DBF, 15), (0x1E00, 0x1E99, 1), (0x1E9A, 0x1E9A, 2), (0x1E9B, 0x1E9B, 1),
   (0x1EA0, 0x1EF9, 1), (0x1F00, 0x1F15, 1), (0x1F18, 0x1F1D, 1), (0x1F20, 0x1F45, 1), (0x1F48, 0x1F4D, 1), (0x1F50, 0x1F57, 1),
   (0x1F59, 0x1F59, 1), (0x1F5B, 0x1F5B, 1), (0x1F5D, 0x1F5D, 1), (0x1F5F, 0x1F7D, 1), (0x1F80, 0x1FB4, 1), (0x1FB6, 0x1FBC, 1),
   (0x1FBD, 0x1FBD, 2), (0x1FBE, 0x1FBE, 1), (0x1FBF, 0x1FC0, 2), (0x1FC1, 0x1FC4, 1), (0x1FC6, 0x1FD3, 1), (0x1FD6, 0x1FDB, 1),
   (0x1FDD, 0x1FEF, 1), (0x1FF2, 0x1FF4, 1), (0x1FF6, 0x1FFD, 1), (0x1FFE, 0x1FFE, 2), (0x2000, 0x2001, 1), (0x2002, 0x2006, 2),
   (0x2007, 0x2007, 11), (0x2008, 0x200A, 2), (0x2011, 0x2011, 11), (0x2017, 0x2017, 2), (0x2024, 0x2026, 2), (0x202F, 0x202F, 11),
   (0x2033, 0x2034, 2), (0x2036, 0x2037, 2), (0x203C, 0x203C, 2), (0x203E, 0x203E, 2), (0x2047, 0x2049, 2), (0x2057, 0x2057, 2),
   (0x205F, 0x205F, 2), (0x2070, 0x2071, 15), (0x2074, 0x207F, 15), (0x2080, 0x208E, 14), (0x2090, 0x209C, 14), (0x20A8, 0x20A8, 2),
   (0x2100, 0x2101, 2), (0x2102, 0x2102, 5), (0x2103, 0x2103, 2), (0x2105, 0x2107, 2), (0x2109, 0x2109, 2), (0x210A, 0x2113, 5),
   (0x2115, 0x2115, 5), (0x2116, 0x2116, 2), (0x2119, 0x211D, 5), (0x2120, 0x2120, 15), (0x2121, 0x2121, 2), (0x2122, 0x2122, 15),
   (0x2124, 0x2124, 5), (0x2126, 0x2126, 1), (0x2128, 0x2128, 5), (0x212A, 0x212B, 1), (0x212C, 0x212D, 5), (0x212F, 0x2131, 5),
   (0x2133, 0x2134, 5), (0x2135, 0x2138, 2), (0x2139, 0x2139, 5), (0x213B, 0x213B, 2), (0x213C, 0x2140, 5), (0x2145, 0x2149, 5),
   (0x2150, 0x215F, 6), (0x2160, 0x217F, 2), (0x2189, 0x2189, 6), (0x219A, 0x219B, 1), (0x21AE, 0x21AE, 1), (0x21CD, 0x21CF, 1),
   (0x2204, 0x2204, 1), (0x2209, 0x2209, 1), (0x220C, 0x220C, 1), (0x2224, 0x2224, 1), (0x2226, 0x2226, 1), (0x222C, 0x222D, 2),
   (0x222F, 0x2230, 2), (0x2241, 0x2241, 1), (0x2244, 0x2244, 1), (0x2247, 0x2247, 1), (0x2249, 0x2249, 1), (0x2260, 0x2260, 1),
   (0x2262, 0x2262, 1), (0x226D, 0x2271, 1), (0x2274, 0x2275, 1), (0x2278, 0x2279, 1), (0x2280, 0x2281, 1), (0x2284, 0x2285, 1),
   (0x2288, 0x2289, 1), (0x22AC, 0x22AF, 1), (0x22E0, 0x22E3, 1), (0x22EA, 0x22ED, 1), (0x2329, 0x232A, 1), (0x2460, 0x2473, 3),
   (0x2474, 0x24B5, 2), (0x24B6, 0x24EA, 3), (0x2A0C, 0x2A0C, 2), (0x2A74, 0x2A76, 2), (0x2ADC, 0x2ADC, 1), (0x2C7C, 0x2C7C, 14),
   (0x2C7D, 0x2C7D, 15), (0x2D6F, 0x2D6F, 15), (0x2E9F, 0x2E9F, 2), (0x2EF3, 0x2EF3, 2), (0x2F00, 0x2FD5, 2), (0x3000, 0x3000, 17),
   (0x3036, 0x3036, 2), (0x3038, 0x303A, 2), (0x304C, 0x304C, 1), (0x304E, 0x304E, 1), (0x3050, 0x3050, 1), (0x3052, 0x3052, 1),
   (0x3054, 0x3054, 1), (0x3056, 0x3056, 1), (0x3058, 0x3058, 1), (0x305A, 0x305A, 1), (0x305C, 0x305C, 1), (0x305E, 0x305E, 1),
   (0x3060, 0x3060, 1), (0x3062, 0x3062, 1), (0x3065, 0x3065, 1), (0x3067, 0x3067, 1), (0x3069, 0x3069, 1), (0x3070, 0x3071, 1),
   (0x3073, 0x3074, 1), (0x3076, 0x3077, 1), (0x3079, 0x307A, 1), (0x307C, 0x307D, 1), (0x3094, 0x3094, 1), (0x309B, 0x309C, 2),
   (0x309E, 0x309E, 1), (0x309F, 0x309F, 16), (0x30AC, 0x30AC, 1), (0x30AE, 0x30AE, 1), (0x30B0, 0x30B0, 1), (0x30B2, 0x30B2, 1),
   (0x30B4, 0x30B4, 1), (0x30B6, 0x30B6, 1), (0x30B8, 0x30B8, 1), (0x30BA, 0x30BA, 1), (0x30BC, 0x30BC, 1), (0x30BE, 0x30BE, 1),
   (0x30C0, 0x30C0, 1), (0x30C2, 0x30C2, 1), (0x30C5, 0x30C5, 1), (0x30C7, 0x30C7, 1)]

/-- Decomposition_Type. Part 2. -/
def decompositionRuns_2 : List (Nat × Nat × Nat) :=
  [
   (0x30C9, 0x30C9, 1), (0x30D0, 0x30D1, 1), (0x30D3, 0x30D4, 1), (0x30D6, 0x30D7, 1), (0x30D9, 0x30DA, 1), (0x30DC, 0x30DD, 1),
   (0x30F4, 0x30F4, 1), (0x30F7, 0x30FA, 1), (0x30FE, 0x30FE, 1), (0x30FF, 0x30FF, 16), (0x3131, 0x318E, 2), (0x3192, 0x319F, 15),
   (0x3200, 0x321E, 2), (0x3220, 0x3243, 2), (0x3244, 0x3247, 3), (0x3250, 0x3250, 13), (0x3251, 0x327E, 3), (0x3280, 0x32BF, 3),
   (0x32C0, 0x32CB, 2), (0x32CC, 0x32CF, 13), (0x32D0, 0x32FE, 3), (0x32FF, 0x3357, 13), (0x3358, 0x3370, 2), (0x3371, 0x33DF, 13),
   (0x33E0, 0x33FE, 2), (0x33FF, 0x33FF, 13), (0xA69C, 0xA69D, 15), (0xA770, 0xA770, 15), (0xA7F8, 0xA7F9, 15),
   (0xAB5C, 0xAB5F, 15), (0xAB69, 0xAB69, 15), (0xAC00, 0xD7A3, 1), (0xF900, 0xFA0D, 1), (0xFA10, 0xFA10, 1), (0xFA12, 0xFA12, 1),
   (0xFA15, 0xFA1E, 1), (0xFA20, 0xFA20, 1), (0xFA22, 0xFA22, 1), (0xFA25, 0xFA26, 1), (0xFA2A, 0xFA6D, 1), (0xFA70, 0xFAD9, 1),
   (0xFB00, 0xFB06, 2), (0xFB13, 0xFB17, 2), (0xFB1D, 0xFB1D, 1), (0xFB1F, 0xFB1F, 1), (0xFB20, 0xFB29, 5), (0xFB2A, 0xFB36, 1),
   (0xFB38, 0xFB3C, 1), (0xFB3E, 0xFB3E, 1), (0xFB40, 0xFB41, 1), (0xFB43, 0xFB44, 1), (0xFB46, 0xFB4E, 1), (0xFB4F, 0xFB4F, 2),
   (0xFB50, 0xFB50, 8), (0xFB51, 0xFB51, 4), (0xFB52, 0xFB52, 8), (0xFB53, 0xFB53, 4), (0xFB54, 0xFB54, 7), (0xFB55, 0xFB55, 9),
   (0xFB56, 0xFB56, 8), (0xFB57, 0xFB57, 4), (0xFB58, 0xFB58, 7), (0xFB59, 0xFB59, 9), (0xFB5A, 0xFB5A, 8), (0xFB5B, 0xFB5B, 4),
   (0xFB5C, 0xFB5C, 7), (0xFB5D, 0xFB5D, 9), (0xFB5E, 0xFB5E, 8), (0xFB5F, 0xFB5F, 4), (0xFB60, 0xFB60, 7), (0xFB61, 0xFB61, 9),
   (0xFB62, 0xFB62, 8), (0xFB63, 0xFB63, 4), (0xFB64, 0xFB64, 7), (0xFB65, 0xFB65, 9), (0xFB66, 0xFB66, 8), (0xFB67, 0xFB67, 4),
   (0xFB68, 0xFB68, 7), (0xFB69, 0xFB69, 9), (0xFB6A, 0xFB6A, 8), (0xFB6B, 0xFB6B, 4), (0xFB6C, 0xFB6C, 7), (0xFB6D, 0xFB6D, 9),
   (0xFB6E, 0xFB6E, 8), (0xFB6F, 0xFB6F, 4), (0xFB70, 0xFB70, 7), (0xFB71, 0xFB71, 9), (0xFB72, 0xFB72, 8), (0xFB73, 0xFB73, 4),
   (0xFB74, 0xFB74, 7), (0xFB75, 0xFB75, 9), (0xFB76, 0xFB76, 8), (0xFB77, 0xFB77, 4), (0xFB78, 0xFB78, 7), (0xFB79, 0xFB79, 9),
   (0xFB7A, 0xFB7A, 8), (0xFB7B, 0xFB7B, 4), (0xFB7C, 0xFB7C, 7), (0xFB7D, 0xFB7D, 9), (0xFB7E, 0xFB7E, 8), (0xFB7F, 0xFB7F, 4),
   (0xFB80, 0xFB80, 7), (0xFB81, 0xFB81, 9), (0xFB82, 0xFB82, 8), (0xFB83, 0xFB83, 4), (0xFB84, 0xFB84, 8), (0xFB85, 0xFB85, 4),
   (0xFB86, 0xFB86, 8), (0xFB87, 0xFB87, 4), (0xFB88, 0xFB88, 8), (0xFB89, 0xFB89, 4), (0xFB8A, 0xFB8A, 8), (0xFB8B, 0xFB8B, 4),
   (0xFB8C, 0xFB8C, 8), (0xFB8D, 0xFB8D, 4), (0xFB8E, 0xFB8E, 8), (0xFB8F, 0xFB8F, 4), (0xFB90, 0xFB90, 7), (0xFB91, 0xFB91, 9),
   (0xFB92, 0xFB92, 8), (0xFB93, 0xFB93, 4), (0xFB94, 0xFB94, 7), (0xFB95, 0xFB95, 9), (0xFB96, 0xFB96, 8), (0xFB97, 0xFB97, 4),
   (0xFB98, 0xFB98, 7), (0xFB99, 0xFB99, 9), (0xFB9A, 0xFB9A, 8), (0xFB9B, 0xFB9B, 4), (0xFB9C, 0xFB9C, 7), (0xFB9D, 0xFB9D, 9),
   (0xFB9E, 0xFB9E, 8), (0xFB9F, 0xFB9F, 4), (0xFBA0, 0xFBA0, 8), (0xFBA1, 0xFBA1, 4), (0xFBA2, 0xFBA2, 7), (0xFBA3, 0xFBA3, 9),
   (0xFBA4, 0xFBA4, 8), (0xFBA5, 0xFBA5, 4), (0xFBA6, 0xFBA6, 8), (0xFBA7, 0xFBA7, 4), (0xFBA8, 0xFBA8, 7), (0xFBA9, 0xFBA9, 9),
   (0xFBAA, 0xFBAA, 8), (0xFBAB, 0xFBAB, 4), (0xFBAC, 0xFBAC, 7), (0xFBAD, 0xFBAD, 9), (0xFBAE, 0xFBAE, 8), (0xFBAF, 0xFBAF, 4),
   (0xFBB0, 0xFBB0, 8), (0xFBB1, 0xFBB1, 4), (0xFBD3, 0xFBD3, 8), (0xFBD4, 0xFBD4, 4), (0xFBD5, 0xFBD5, 7), (0xFBD6, 0xFBD6, 9),
   (0xFBD7, 0xFBD7, 8), (0xFBD8, 0xFBD8, 4), (0xFBD9, 0xFBD9, 8), (0xFBDA, 0xFBDA, 4), (0xFBDB, 0xFBDB, 8), (0xFBDC, 0xFBDC, 4),
   (0xFBDD, 0xFBDE, 8), (0xFBDF, 0xFBDF, 4), (0xFBE0, 0xFBE0, 8), (0xFBE1, 0xFBE1, 4), (0xFBE2, 0xFBE2, 8), (0xFBE3, 0xFBE3, 4),
   (0xFBE4, 0xFBE4, 8), (0xFBE5, 0xFBE5, 4), (0xFBE6, 0xFBE6, 7), (0xFBE7, 0xFBE7, 9), (0xFBE8, 0xFBE8, 7), (0xFBE9, 0xFBE9, 9),
   (0xFBEA, 0xFBEA, 8), (0xFBEB, 0xFBEB, 4), (0xFBEC, 0xFBEC, 8), (0xFBED, 0xFBED, 4), (0xFBEE, 0xFBEE, 8), (0xFBEF, 0xFBEF, 4),
   (0xFBF0, 0xFBF0, 8), (0xFBF1, 0xFBF1, 4), (0xFBF2, 0xFBF2, 8), (0xFBF3, 0xFBF3, 4), (0xFBF4, 0xFBF4, 8), (0xFBF5, 0xFBF5, 4),
   (0xFBF6, 0xFBF6, 8), (0xFBF7, 0xFBF7, 4), (0xFBF8, 0xFBF8, 7), (0xFBF9, 0xFBF9, 8), (0xFBFA, 0xFBFA, 4), (0xFBFB, 0xFBFB, 7),
   (0xFBFC, 0xFBFC, 8), (0xFBFD, 0xFBFD, 4), (0xFBFE, 0xFBFE, 7), (0xFBFF, 0xFBFF, 9), (0xFC00, 0xFC63, 8), (0xFC64, 0xFC96, 4),
   (0xFC97, 0xFCDE, 7), (0xFCDF, 0xFCF4, 9), (0xFCF5, 0xFD10, 8), (0xFD11, 0xFD2C, 4), (0xFD2D, 0xFD33, 7), (0xFD34, 0xFD3B, 9),
   (0xFD3C, 0xFD3C, 4), (0xFD3D, 0xFD3D, 8), (0xFD50, 0xFD50, 7), (0xFD51, 0xFD51, 4), (0xFD52, 0xFD57, 7), (0xFD58, 0xFD58, 4),
   (0xFD59, 0xFD59, 7), (0xFD5A, 0xFD5B, 4), (0xFD5C, 0xFD5D, 7), (0xFD5E, 0xFD5F, 4), (0xFD60, 0xFD61, 7), (0xFD62, 0xFD62, 4),
   (0xFD63, 0xFD63, 7), (0xFD64, 0xFD64, 4), (0xFD65, 0xFD65, 7), (0xFD66, 0xFD67, 4), (0xFD68, 0xFD68, 7), (0xFD69, 0xFD6A, 4),
   (0xFD6B, 0xFD6B, 7), (0xFD6C, 0xFD6C, 4), (0xFD6D, 0xFD6D, 7), (0xFD6E, 0xFD6F, 4), (0xFD70, 0xFD70, 7), (0xFD71, 0xFD71, 4),
   (0xFD72, 0xFD73, 7), (0xFD74, 0xFD76, 4), (0xFD77, 0xFD77, 7), (0xFD78, 0xFD7C, 4), (0xFD7D, 0xFD7D, 7), (0xFD7E, 0xFD82, 4),
   (0xFD83, 0xFD83, 7), (0xFD84, 0xFD85, 4), (0xFD86, 0xFD86, 7), (0xFD87, 0xFD87, 4), (0xFD88, 0xFD8A, 7), (0xFD8B, 0xFD8B, 4),
   (0xFD8C, 0xFD8F, 7), (0xFD92, 0xFD95, 7), (0xFD96, 0xFD97, 4), (0xFD98, 0xFD98, 7), (0xFD99, 0xFD9C, 4), (0xFD9D, 0xFD9D, 7),
   (0xFD9E, 0xFDB3, 4), (0xFDB4, 0xFDB5, 7), (0xFDB6, 0xFDB7, 4), (0xFDB8, 0xFDB8, 7), (0xFDB9, 0xFDB9, 4), (0xFDBA, 0xFDBA, 7),
   (0xFDBB, 0xFDC2, 4), (0xFDC3, 0xFDC5, 7), (0xFDC6, 0xFDC7, 4), (0xFDF0, 0xFDFC, 8), (0xFE10, 0xFE19, 16), (0xFE30, 0xFE44, 16),
   (0xFE47, 0xFE48, 16), (0xFE49, 0xFE4F, 2), (0xFE50, 0xFE52, 12), (0xFE54, 0xFE66, 12), (0xFE68, 0xFE6B, 12), (0xFE70, 0xFE70, 8),
   (0xFE71, 0xFE71, 9), (0xFE72, 0xFE72, 8), (0xFE74, 0xFE74, 8), (0xFE76, 0xFE76, 8), (0xFE77, 0xFE77, 9), (0xFE78, 0xFE78, 8),
   (0xFE79, 0xFE79, 9), (0xFE7A, 0xFE7A, 8), (0xFE7B, 0xFE7B, 9), (0xFE7C, 0xFE7C, 8), (0xFE7D, 0xFE7D, 9), (0xFE7E, 0xFE7E, 8),
   (0xFE7F, 0xFE7F, 9), (0xFE80, 0xFE81, 8), (0xFE82, 0xFE82, 4), (0xFE83, 0xFE83, 8), (0xFE84, 0xFE84, 4), (0xFE85, 0xFE85, 8),
   (0xFE86, 0xFE86, 4), (0xFE87, 0xFE87, 8), (0xFE88, 0xFE88, 4), (0xFE89, 0xFE89, 8), (0xFE8A, 0xFE8A, 4), (0xFE8B, 0xFE8B, 7),
   (0xFE8C, 0xFE8C, 9), (0xFE8D, 0xFE8D, 8), (0xFE8E, 0xFE8E, 4), (0xFE8F, 0xFE8F, 8), (0xFE90, 0xFE90, 4), (0xFE91, 0xFE91, 7),
   (0xFE92, 0xFE92, 9), (0xFE93, 0xFE93, 8), (0xFE94, 0xFE94, 4), (0xFE95, 0xFE95, 8), (0xFE96, 0xFE96, 4), (0xFE97, 0xFE97, 7),
   (0xFE98, 0xFE98, 9)]

/-- Decomposition_Type. Part 3. -/
def decompositionRuns_3 : List (Nat × Nat × Nat) :=
  [
   (0xFE99, 0xFE99, 8), (0xFE9A, 0xFE9A, 4), (0xFE9B, 0xFE9B, 7), (0xFE9C, 0xFE9C, 9), (0xFE9D, 0xFE9D, 8), (0xFE9E, 0xFE9E, 4),
   (0xFE9F, 0xFE9F, 7), (0xFEA0, 0xFEA0, 9), (0xFEA1, 0xFEA1, 8), (0xFEA2, 0xFEA2, 4), (0xFEA3, 0xFEA3, 7), (0xFEA4, 0xFEA4, 9),
   (0xFEA5, 0xFEA5, 8), (0xFEA6, 0xFEA6, 4), (0xFEA7, 0xFEA7, 7), (0xFEA8, 0xFEA8, 9), (0xFEA9, 0xFEA9, 8), (0xFEAA, 0xFEAA, 4),
   (0xFEAB, 0xFEAB, 8), (0xFEAC, 0xFEAC, 4), (0xFEAD, 0xFEAD, 8), (0xFEAE, 0xFEAE, 4), (0xFEAF, 0xFEAF, 8), (0xFEB0, 0xFEB0, 4),
   (0xFEB1, 0xFEB1, 8), (0xFEB2, 0xFEB2, 4), (0xFEB3, 0xFEB3, 7), (0xFEB4, 0xFEB4, 9), (0xFEB5, 0xFEB5, 8), (0xFEB6, 0xFEB6, 4),
   (0xFEB7, 0xFEB7, 7), (0xFEB8, 0xFEB8, 9), (0xFEB9, 0xFEB9, 8), (0xFEBA, 0xFEBA, 4), (0xFEBB, 0xFEBB, 7), (0xFEBC, 0xFEBC, 9),
   (0xFEBD, 0xFEBD, 8), (0xFEBE, 0xFEBE, 4), (0xFEBF, 0xFEBF, 7), (0xFEC0, 0xFEC0, 9), (0xFEC1, 0xFEC1, 8), (0xFEC2, 0xFEC2, 4),
   (0xFEC3, 0xFEC3, 7), (0xFEC4, 0xFEC4, 9), (0xFEC5, 0xFEC5, 8), (0xFEC6, 0xFEC6, 4), (0xFEC7, 0xFEC7, 7), (0xFEC8, 0xFEC8, 9),
   (0xFEC9, 0xFEC9, 8), (0xFECA, 0xFECA, 4), (0xFECB, 0xFECB, 7), (0xFECC, 0xFECC, 9), (0xFECD, 0xFECD, 8), (0xFECE, 0xFECE, 4),
   (0xFECF, 0xFECF, 7), (0xFED0, 0xFED0, 9), (0xFED1, 0xFED1, 8), (0xFED2, 0xFED2, 4), (0xFED3, 0xFED3, 7), (0xFED4, 0xFED4, 9),
   (0xFED5, 0xFED5, 8), (0xFED6, 0xFED6, 4), (0xFED7, 0xFED7, 7), (0xFED8, 0xFED8, 9), (0xFED9, 0xFED9, 8), (0xFEDA, 0xFEDA, 4),
   (0xFEDB, 0xFEDB, 7), (0xFEDC, 0xFEDC, 9), (0xFEDD, 0xFEDD, 8), (0xFEDE, 0xFEDE, 4), (0xFEDF, 0xFEDF, 7), (0xFEE0, 0xFEE0, 9),
   (0xFEE1, 0xFEE1, 8), (0xFEE2, 0xFEE2, 4), (0xFEE3, 0xFEE3, 7), (0xFEE4, 0xFEE4, 9), (0xFEE5, 0xFEE5, 8), (0xFEE6, 0xFEE6, 4),
   (0xFEE7, 0xFEE7, 7), (0xFEE8, 0xFEE8, 9), (0xFEE9, 0xFEE9, 8), (0xFEEA, 0xFEEA, 4), (0xFEEB, 0xFEEB, 7), (0xFEEC, 0xFEEC, 9),
   (0xFEED, 0xFEED, 8), (0xFEEE, 0xFEEE, 4), (0xFEEF, 0xFEEF, 8), (0xFEF0, 0xFEF0, 4), (0xFEF1, 0xFEF1, 8), (0xFEF2, 0xFEF2, 4),
   (0xFEF3, 0xFEF3, 7), (0xFEF4, 0xFEF4, 9), (0xFEF5, 0xFEF5, 8), (0xFEF6, 0xFEF6, 4), (0xFEF7, 0xFEF7, 8), (0xFEF8, 0xFEF8, 4),
   (0xFEF9, 0xFEF9, 8), (0xFEFA, 0xFEFA, 4), (0xFEFB, 0xFEFB, 8), (0xFEFC, 0xFEFC, 4), (0xFF01, 0xFF60, 17), (0xFF61, 0xFFBE, 10),
   (0xFFC2, 0xFFC7, 10), (0xFFCA, 0xFFCF, 10), (0xFFD2, 0xFFD7, 10), (0xFFDA, 0xFFDC, 10), (0xFFE0, 0xFFE6, 17),
   (0xFFE8, 0xFFEE, 10), (0x1109A, 0x1109A, 1), (0x1109C, 0x1109C, 1), (0x110AB, 0x110AB, 1), (0x1112E, 0x1112F, 1),
   (0x1134B, 0x1134C, 1), (0x114BB, 0x114BC, 1), (0x114BE, 0x114BE, 1), (0x115BA, 0x115BB, 1), (0x11938, 0x11938, 1),
   (0x1D15E, 0x1D164, 1), (0x1D1BB, 0x1D1C0, 1), (0x1D400, 0x1D454, 5), (0x1D456, 0x1D49C, 5), (0x1D49E, 0x1D49F, 5),
   (0x1D4A2, 0x1D4A2, 5), (0x1D4A5, 0x1D4A6, 5), (0x1D4A9, 0x1D4AC, 5), (0x1D4AE, 0x1D4B9, 5), (0x1D4BB, 0x1D4BB, 5),
   (0x1D4BD, 0x1D4C3, 5), (0x1D4C5, 0x1D505, 5), (0x1D507, 0x1D50A, 5), (0x1D50D, 0x1D514, 5), (0x1D516, 0x1D51C, 5),
   (0x1D51E, 0x1D539, 5), (0x1D53B, 0x1D53E, 5), (0x1D540, 0x1D544, 5), (0x1D546, 0x1D546, 5), (0x1D54A, 0x1D550, 5),
   (0x1D552, 0x1D6A5, 5), (0x1D6A8, 0x1D7CB, 5), (0x1D7CE, 0x1D7FF, 5), (0x1EE00, 0x1EE03, 5), (0x1EE05, 0x1EE1F, 5),
   (0x1EE21, 0x1EE22, 5), (0x1EE24, 0x1EE24, 5), (0x1EE27, 0x1EE27, 5), (0x1EE29, 0x1EE32, 5), (0x1EE34, 0x1EE37, 5),
   (0x1EE39, 0x1EE39, 5), (0x1EE3B, 0x1EE3B, 5), (0x1EE42, 0x1EE42, 5), (0x1EE47, 0x1EE47, 5), (0x1EE49, 0x1EE49, 5),
   (0x1EE4B, 0x1EE4B, 5), (0x1EE4D, 0x1EE4F, 5), (0x1EE51, 0x1EE52, 5), (0x1EE54, 0x1EE54, 5), (0x1EE57, 0x1EE57, 5),
   (0x1EE59, 0x1EE59, 5), (0x1EE5B, 0x1EE5B, 5), (0x1EE5D, 0x1EE5D, 5), (0x1EE5F, 0x1EE5F, 5), (0x1EE61, 0x1EE62, 5),
   (0x1EE64, 0x1EE64, 5), (0x1EE67, 0x1EE6A, 5), (0x1EE6C, 0x1EE72, 5), (0x1EE74, 0x1EE77, 5), (0x1EE79, 0x1EE7C, 5),
   (0x1EE7E, 0x1EE7E, 5), (0x1EE80, 0x1EE89, 5), (0x1EE8B, 0x1EE9B, 5), (0x1EEA1, 0x1EEA3, 5), (0x1EEA5, 0x1EEA9, 5),
   (0x1EEAB, 0x1EEBB, 5), (0x1F100, 0x1F10A, 2), (0x1F110, 0x1F12A, 2), (0x1F12B, 0x1F12E, 3), (0x1F130, 0x1F14F, 13),
   (0x1F16A, 0x1F16C, 15), (0x1F190, 0x1F190, 13), (0x1F200, 0x1F202, 13), (0x1F210, 0x1F23B, 13), (0x1F240, 0x1F248, 2),
   (0x1F250, 0x1F251, 3), (0x1FBF0, 0x1FBF9, 5), (0x2F800, 0x2FA1D, 1)]

/-- Decomposition_Type. -/
def decompositionRuns : List (Nat × Nat × Nat) :=
  decompositionRuns_1 ++ (decompositionRuns_2 ++ (decompositionRuns_3))

end Verif.Spec
