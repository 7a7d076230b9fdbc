/-!
# Grapheme cluster and word break classes of the Unicode standard, version 13.0

GraphemeBreakProperty.txt and WordBreakProperty.txt. Lines `first, last, value` in ascending order; code points in none
of them have the default value. The default is XX (0).
-/
namespace Verif.Spec
set_option maxRecDepth 10000

/-- The grapheme cluster break classes and their numbers. -/
def graphemeLegend : List (Nat × String) :=
  [
   (0, "XX"), (1, "CN"), (2, "CR"), (3, "EX"), (4, "L"), (5, "LF"), (6, "LV"), (7, "LVT"), (8, "T"), (9, "V"), (10, "SM"),
   (11, "PP"), (12, "RI"), (13, "EB"), (14, "EBG"), (15, "EM"), (16, "GAZ"), (17, "ZWJ")]

/-- Grapheme_Cluster_Break. Part 1. -/
def graphemeRuns_1 : List (Nat × Nat × Nat) :=
  [
   (0x0, 0x9, 1), (0xA, 0xA, 5), (0xB, 0xC, 1), (0xD, 0xD, 2), (0xE, 0x1F, 1), (0x7F, 0x9F, 1), (0xAD, 0xAD, 1), (0x300, 0x36F, 3),
   (0x483, 0x489, 3), (0x591, 0x5BD, 3), (0x5BF, 0x5BF, 3), (0x5C1, 0x5C2, 3), (0x5C4, 0x5C5, 3), (0x5C7, 0x5C7, 3),
   (0x600, 0x605, 11), (0x610, 0x61A, 3), (0x61C, 0x61C, 1), (0x64B, 0x65F, 3), (0x670, 0x670, 3), (0x6D6, 0x6DC, 3),
   (0x6DD, 0x6DD, 11), (0x6DF, 0x6E4, 3), (0x6E7, 0x6E8, 3), (0x6EA, 0x6ED, 3), (0x70F, 0x70F, 11), (0x711, 0x711, 3),
   (0x730, 0x74A, 3), (0x7A6, 0x7B0, 3), (0x7EB, 0x7F3, 3), (0x7FD, 0x7FD, 3), (0x816, 0x819, 3), (0x81B, 0x823, 3),
   (0x825, 0x827, 3), (0x829, 0x82D, 3), (0x859, 0x85B, 3), (0x8D3, 0x8E1, 3), (0x8E2, 0x8E2, 11), (0x8E3, 0x902, 3),
   (0x903, 0x903, 10), (0x93A, 0x93A, 3), (0x93B, 0x93B, 10), (0x93C, 0x93C, 3), (0x93E, 0x940, 10), (0x941, 0x948, 3),
   (0x949, 0x94C, 10), (0x94D, 0x94D, 3), (0x94E, 0x94F, 10), (0x951, 0x957, 3), (0x962, 0x963, 3), (0x981, 0x981, 3),
   (0x982, 0x983, 10), (0x9BC, 0x9BC, 3), (0x9BE, 0x9BE, 3), (0x9BF, 0x9C0, 10), (0x9C1, 0x9C4, 3), (0x9C7, 0x9C8, 10),
   (0x9CB, 0x9CC, 10), (0x9CD, 0x9CD, 3), (0x9D7, 0x9D7, 3), (0x9E2, 0x9E3, 3), (0x9FE, 0x9FE, 3), (0xA01, 0xA02, 3),
   (0xA03, 0xA03, 10), (0xA3C, 0xA3C, 3), (0xA3E, 0xA40, 10), (0xA41, 0xA42, 3), (0xA47, 0xA48, 3), (0xA4B, 0xA4D, 3),
   (0xA51, 0xA51, 3), (0xA70, 0xA71, 3), (0xA75, 0xA75, 3), (0xA81, 0xA82, 3), (0xA83, 0xA83, 10), (0xABC, 0xABC, 3),
   (0xABE, 0xAC0, 10), (0xAC1, 0xAC5, 3), (0xAC7, 0xAC8, 3), (0xAC9, 0xAC9, 10), (0xACB, 0xACC, 10), (0xACD, 0xACD, 3),
   (0xAE2, 0xAE3, 3), (0xAFA, 0xAFF, 3), (0xB01, 0xB01, 3), (0xB02, 0xB03, 10), (0xB3C, 0xB3C, 3), (0xB3E, 0xB3F, 3),
   (0xB40, 0xB40, 10), (0xB41, 0xB44, 3), (0xB47, 0xB48, 10), (0xB4B, 0xB4C, 10), (0xB4D, 0xB4D, 3), (0xB55, 0xB57, 3),
   (0xB62, 0xB63, 3), (0xB82, 0xB82, 3), (0xBBE, 0xBBE, 3), (0xBBF, 0xBBF, 10), (0xBC0, 0xBC0, 3), (0xBC1, 0xBC2, 10),
   (0xBC6, 0xBC8, 10), (0xBCA, 0xBCC, 10), (0xBCD, 0xBCD, 3), (0xBD7, 0xBD7, 3), (0xC00, 0xC00, 3), (0xC01, 0xC03, 10),
   (0xC04, 0xC04, 3), (0xC3E, 0xC40, 3), (0xC41, 0xC44, 10), (0xC46, 0xC48, 3), (0xC4A, 0xC4D, 3), (0xC55, 0xC56, 3),
   (0xC62, 0xC63, 3), (0xC81, 0xC81, 3), (0xC82, 0xC83, 10), (0xCBC, 0xCBC, 3), (0xCBE, 0xCBE, 10), (0xCBF, 0xCBF, 3),
   (0xCC0, 0xCC1, 10), (0xCC2, 0xCC2, 3), (0xCC3, 0xCC4, 10), (0xCC6, 0xCC6, 3), (0xCC7, 0xCC8, 10), (0xCCA, 0xCCB, 10),
   (0xCCC, 0xCCD, 3), (0xCD5, 0xCD6, 3), (0xCE2, 0xCE3, 3), (0xD00, 0xD01, 3), (0xD02, 0xD03, 10), (0xD3B, 0xD3C, 3),
   (0xD3E, 0xD3E, 3), (0xD3F, 0xD40, 10), (0xD41, 0xD44, 3), (0xD46, 0xD48, 10), (0xD4A, 0xD4C, 10), (0xD4D, 0xD4D, 3),
   (0xD4E, 0xD4E, 11), (0xD57, 0xD57, 3), (0xD62, 0xD63, 3), (0xD81, 0xD81, 3), (0xD82, 0xD83, 10), (0xDCA, 0xDCA, 3),
   (0xDCF, 0xDCF, 3), (0xDD0, 0xDD1, 10), (0xDD2, 0xDD4, 3), (0xDD6, 0xDD6, 3), (0xDD8, 0xDDE, 10), (0xDDF, 0xDDF, 3),
   (0xDF2, 0xDF3, 10), (0xE31, 0xE31, 3), (0xE33, 0xE33, 10), (0xE34, 0xE3A, 3), (0xE47, 0xE4E, 3), (0xEB1, 0xEB1, 3),
   (0xEB3, 0xEB3, 10), (0xEB4, 0xEBC, 3), (0xEC8, 0xECD, 3), (0xF18, 0xF19, 3), (0xF35, 0xF35, 3), (0xF37, 0xF37, 3),
   (0xF39, 0xF39, 3), (0xF3E, 0xF3F, 10), (0xF71, 0xF7E, 3), (0xF7F, 0xF7F, 10), (0xF80, 0xF84, 3), (0xF86, 0xF87, 3),
   (0xF8D, 0xF97, 3), (0xF99, 0xFBC, 3), (0xFC6, 0xFC6, 3), (0x102D, 0x1030, 3), (0x1031, 0x1031, 10), (0x1032, 0x1037, 3),
   (0x1039, 0x103A, 3), (0x103B, 0x103C, 10), (0x103D, 0x103E, 3), (0x1056, 0x1057, 10), (0x1058, 0x1059, 3), (0x105E, 0x1060, 3),
   (0x1071, 0x1074, 3), (0x1082, 0x1082, 3), (0x1084, 0x1084, 10), (0x1085, 0x1086, 3), (0x108D, 0x108D, 3), (0x109D, 0x109D, 3),
   (0x1100, 0x115F, 4), (0x1160, 0x11A7, 9), (0x11A8, 0x11FF, 8), (0x135D, 0x135F, 3), (0x1712, 0x1714, 3), (0x1732, 0x1734, 3),
   (0x1752, 0x1753, 3), (0x1772, 0x1773, 3), (0x17B4, 0x17B5, 3), (0x17B6, 0x17B6, 10), (0x17B7, 0x17BD, 3), (0x17BE, 0x17C5, 10),
   (0x17C6, 0x17C6, 3), (0x17C7, 0x17C8, 10), (0x17C9, 0x17D3, 3), (0x17DD, 0x17DD, 3), (0x180B, 0x180D, 3), (0x180E, 0x180E, 1),
   (0x1885, 0x1886, 3), (0x18A9, 0x18A9, 3), (0x1920, 0x1922, 3), (0x1923, 0x1926, 10), (0x1927, 0x1928, 3), (0x1929, 0x192B, 10),
   (0x1930, 0x1931, 10), (0x1932, 0x1932, 3), (0x1933, 0x1938, 10), (0x1939, 0x193B, 3), (0x1A17, 0x1A18, 3), (0x1A19, 0x1A1A, 10),
   (0x1A1B, 0x1A1B, 3), (0x1A55, 0x1A55, 10), (0x1A56, 0x1A56, 3), (0x1A57, 0x1A57, 10), (0x1A58, 0x1A5E, 3), (0x1A60, 0x1A60, 3),
   (0x1A62, 0x1A62, 3), (0x1A65, 0x1A6C, 3), (0x1A6D, 0x1A72, 10), (0x1A73, 0x1A7C, 3), (0x1A7F, 0x1A7F, 3), (0x1AB0, 0x1AC0, 3),
   (0x1B00, 0x1B03, 3), (0x1B04, 0x1B04, 10), (0x1B34, 0x1B3A, 3), (0x1B3B, 0x1B3B, 10), (0x1B3C, 0x1B3C, 3), (0x1B3D, 0x1B41, 10),
   (0x1B42, 0x1B42, 3), (0x1B43, 0x1B44, 10), (0x1B6B, 0x1B73, 3), (0x1B80, 0x1B81, 3), (0x1B82, 0x1B82, 10), (0x1BA1, 0x1BA1, 10),
   (0x1BA2, 0x1BA5, 3), (0x1BA6, 0x1BA7, 10), (0x1BA8, 0x1BA9, 3), (0x1BAA, 0x1BAA, 10), (0x1BAB, 0x1BAD, 3), (0x1BE6, 0x1BE6, 3),
   (0x1BE7, 0x1BE7, 10), (0x1BE8, 0x1BE9, 3), (0x1BEA, 0x1BEC, 10), (0x1BED, 0x1BED, 3), (0x1BEE, 0x1BEE, 10), (0x1BEF, 0x1BF1, 3),
   (0x1BF2, 0x1BF3, 10), (0x1C24, 0x1C2B, 10), (0x1C2C, 0x1C33, 3), (0x1C34, 0x1C35, 10), (0x1C36, 0x1C37, 3), (0x1CD0, 0x1CD2, 3),
   (0x1CD4, 0x1CE0, 3), (0x1CE1, 0x1CE1, 10), (0x1CE2, 0x1CE8, 3), (0x1CED, 0x1CED, 3), (0x1CF4, 0x1CF4, 3), (0x1CF7, 0x1CF7, 10),
   (0x1CF8, 0x1CF9, 3), (0x1DC0, 0x1DF9, 3), (0x1DFB, 0x1DFF, 3), (0x200B, 0x200B, 1), (0x200C, 0x200C, 3), (0x200D, 0x200D, 17),
   (0x200E, 0x200F, 1), (0x2028, 0x202E, 1), (0x2060, 0x206F, 1), (0x20D0, 0x20F0, 3), (0x2CEF, 0x2CF1, 3), (0x2D7F, 0x2D7F, 3),
   (0x2DE0, 0x2DFF, 3), (0x302A, 0x302F, 3), (0x3099, 0x309A, 3), (0xA66F, 0xA672, 3), (0xA674, 0xA67D, 3), (0xA69E, 0xA69F, 3),
   (0xA6F0, 0xA6F1, 3), (0xA802, 0xA802, 3), (0xA806, 0xA806, 3), (0xA80B, 0xA80B, 3), (0xA823, 0xA824, 10), (0xA825, 0xA826, 3),
   (0xA827, 0xA827, 10), (0xA82C, 0xA82C, 3), (0xA880, 0xA881, 10), (0xA8B4, 0xA8C3, 10), (0xA8C4, 0xA8C5, 3), (0xA8E0, 0xA8F1, 3),
   (0xA8FF, 0xA8FF, 3), (0xA926, 0xA92D, 3), (0xA947, 0xA951, 3), (0xA952, 0xA953, 10), (0xA960, 0xA97C, 4), (0xA980, 0xA982, 3),
   (0xA983, 0xA983, 10), (0xA9B3, 0xA9B3, 3), (0xA9B4, 0xA9B5, 10), (0xA9B6, 0xA9B9, 3)]

/-- Grapheme_Cluster_Break. Part 2. -/
def graphemeRuns_2 : List (Nat × Nat × Nat) :=
  [
   (0xA9BA, 0xA9BB, 10), (0xA9BC, 0xA9BD, 3), (0xA9BE, 0xA9C0, 10), (0xA9E5, 0xA9E5, 3), (0xAA29, 0xAA2E, 3), (0xAA2F, 0xAA30, 10),
   (0xAA31, 0xAA32, 3), (0xAA33, 0xAA34, 10), (0xAA35, 0xAA36, 3), (0xAA43, 0xAA43, 3), (0xAA4C, 0xAA4C, 3), (0xAA4D, 0xAA4D, 10),
   (0xAA7C, 0xAA7C, 3), (0xAAB0, 0xAAB0, 3), (0xAAB2, 0xAAB4, 3), (0xAAB7, 0xAAB8, 3), (0xAABE, 0xAABF, 3), (0xAAC1, 0xAAC1, 3),
   (0xAAEB, 0xAAEB, 10), (0xAAEC, 0xAAED, 3), (0xAAEE, 0xAAEF, 10), (0xAAF5, 0xAAF5, 10), (0xAAF6, 0xAAF6, 3), (0xABE3, 0xABE4, 10),
   (0xABE5, 0xABE5, 3), (0xABE6, 0xABE7, 10), (0xABE8, 0xABE8, 3), (0xABE9, 0xABEA, 10), (0xABEC, 0xABEC, 10), (0xABED, 0xABED, 3),
   (0xAC00, 0xAC00, 6), (0xAC01, 0xAC1B, 7), (0xAC1C, 0xAC1C, 6), (0xAC1D, 0xAC37, 7), (0xAC38, 0xAC38, 6), (0xAC39, 0xAC53, 7),
   (0xAC54, 0xAC54, 6), (0xAC55, 0xAC6F, 7), (0xAC70, 0xAC70, 6), (0xAC71, 0xAC8B, 7), (0xAC8C, 0xAC8C, 6), (0xAC8D, 0xACA7, 7),
   (0xACA8, 0xACA8, 6), (0xACA9, 0xACC3, 7), (0xACC4, 0xACC4, 6), (0xACC5, 0xACDF, 7), (0xACE0, 0xACE0, 6), (0xACE1, 0xACFB, 7),
   (0xACFC, 0xACFC, 6), (0xACFD, 0xAD17, 7), (0xAD18, 0xAD18, 6), (0xAD19, 0xAD33, 7), (0xAD34, 0xAD34, 6), (0xAD35, 0xAD4F, 7),
   (0xAD50, 0xAD50, 6), (0xAD51, 0xAD6B, 7), (0xAD6C, 0xAD6C, 6), (0xAD6D, 0xAD87, 7), (0xAD88, 0xAD88, 6), (0xAD89, 0xADA3, 7),
   (0xADA4, 0xADA4, 6), (0xADA5, 0xADBF, 7), (0xADC0, 0xADC0, 6), (0xADC1, 0xADDB, 7), (0xADDC, 0xADDC, 6), (0xADDD, 0xADF7, 7),
   (0xADF8, 0xADF8, 6), (0xADF9, 0xAE13, 7), (0xAE14, 0xAE14, 6), (0xAE15, 0xAE2F, 7), (0xAE30, 0xAE30, 6), (0xAE31, 0xAE4B, 7),
   (0xAE4C, 0xAE4C, 6), (0xAE4D, 0xAE67, 7), (0xAE68, 0xAE68, 6), (0xAE69, 0xAE83, 7), (0xAE84, 0xAE84, 6), (0xAE85, 0xAE9F, 7),
   (0xAEA0, 0xAEA0, 6), (0xAEA1, 0xAEBB, 7), (0xAEBC, 0xAEBC, 6), (0xAEBD, 0xAED7, 7), (0xAED8, 0xAED8, 6), (0xAED9, 0xAEF3, 7),
   (0xAEF4, 0xAEF4, 6), (0xAEF5, 0xAF0F, 7), (0xAF10, 0xAF10, 6), (0xAF11, 0xAF2B, 7), (0xAF2C, 0xAF2C, 6), (0xAF2D, 0xAF47, 7),
   (0xAF48, 0xAF48, 6), (0xAF49, 0xAF63, 7), (0xAF64, 0xAF64, 6), (0xAF65, 0xAF7F, 7), (0xAF80, 0xAF80, 6), (0xAF81, 0xAF9B, 7),
   (0xAF9C, 0xAF9C, 6), (0xAF9D, 0xAFB7, 7), (0xAFB8, 0xAFB8, 6), (0xAFB9, 0xAFD3, 7), (0xAFD4, 0xAFD4, 6), (0xAFD5, 0xAFEF, 7),
   (0xAFF0, 0xAFF0, 6), (0xAFF1, 0xB00B, 7), (0xB00C, 0xB00C, 6), (0xB00D, 0xB027, 7), (0xB028, 0xB028, 6), (0xB029, 0xB043, 7),
   (0xB044, 0xB044, 6), (0xB045, 0xB05F, 7), (0xB060, 0xB060, 6), (0xB061, 0xB07B, 7), (0xB07C, 0xB07C, 6), (0xB07D, 0xB097, 7),
   (0xB098, 0xB098, 6), (0xB099, 0xB0B3, 7), (0xB0B4, 0xB0B4, 6), (0xB0B5, 0xB0CF, 7), (0xB0D0, 0xB0D0, 6), (0xB0D1, 0xB0EB, 7),
   (0xB0EC, 0xB0EC, 6), (0xB0ED, 0xB107, 7), (0xB108, 0xB108, 6), (0xB109, 0xB123, 7), (0xB124, 0xB124, 6), (0xB125, 0xB13F, 7),
   (0xB140, 0xB140, 6), (0xB141, 0xB15B, 7), (0xB15C, 0xB15C, 6), (0xB15D, 0xB177, 7), (0xB178, 0xB178, 6), (0xB179, 0xB193, 7),
   (0xB194, 0xB194, 6), (0xB195, 0xB1AF, 7), (0xB1B0, 0xB1B0, 6), (0xB1B1, 0xB1CB, 7), (0xB1CC, 0xB1CC, 6), (0xB1CD, 0xB1E7, 7),
   (0xB1E8, 0xB1E8, 6), (0xB1E9, 0xB203, 7), (0xB204, 0xB204, 6), (0xB205, 0xB21F, 7), (0xB220, 0xB220, 6), (0xB221, 0xB23B, 7),
   (0xB23C, 0xB23C, 6), (0xB23D, 0xB257, 7), (0xB258, 0xB258, 6), (0xB259, 0xB273, 7), (0xB274, 0xB274, 6), (0xB275, 0xB28F, 7),
   (0xB290, 0xB290, 6), (0xB291, 0xB2AB, 7), (0xB2AC, 0xB2AC, 6), (0xB2AD, 0xB2C7, 7), (0xB2C8, 0xB2C8, 6), (0xB2C9, 0xB2E3, 7),
   (0xB2E4, 0xB2E4, 6), (0xB2E5, 0xB2FF, 7), (0xB300, 0xB300, 6), (0xB301, 0xB31B, 7), (0xB31C, 0xB31C, 6), (0xB31D, 0xB337, 7),
   (0xB338, 0xB338, 6), (0xB339, 0xB353, 7), (0xB354, 0xB354, 6), (0xB355, 0xB36F, 7), (0xB370, 0xB370, 6), (0xB371, 0xB38B, 7),
   (0xB38C, 0xB38C, 6), (0xB38D, 0xB3A7, 7), (0xB3A8, 0xB3A8, 6), (0xB3A9, 0xB3C3, 7), (0xB3C4, 0xB3C4, 6), (0xB3C5, 0xB3DF, 7),
   (0xB3E0, 0xB3E0, 6), (0xB3E1, 0xB3FB, 7), (0xB3FC, 0xB3FC, 6), (0xB3FD, 0xB417, 7), (0xB418, 0xB418, 6), (0xB419, 0xB433, 7),
   (0xB434, 0xB434, 6), (0xB435, 0xB44F, 7), (0xB450, 0xB450, 6), (0xB451, 0xB46B, 7), (0xB46C, 0xB46C, 6), (0xB46D, 0xB487, 7),
   (0xB488, 0xB488, 6), (0xB489, 0xB4A3, 7), (0xB4A4, 0xB4A4, 6), (0xB4A5, 0xB4BF, 7), (0xB4C0, 0xB4C0, 6), (0xB4C1, 0xB4DB, 7),
   (0xB4DC, 0xB4DC, 6), (0xB4DD, 0xB4F7, 7), (0xB4F8, 0xB4F8, 6), (0xB4F9, 0xB513, 7), (0xB514, 0xB514, 6), (0xB515, 0xB52F, 7),
   (0xB530, 0xB530, 6), (0xB531, 0xB54B, 7), (0xB54C, 0xB54C, 6), (0xB54D, 0xB567, 7), (0xB568, 0xB568, 6), (0xB569, 0xB583, 7),
   (0xB584, 0xB584, 6), (0xB585, 0xB59F, 7), (0xB5A0, 0xB5A0, 6), (0xB5A1, 0xB5BB, 7), (0xB5BC, 0xB5BC, 6), (0xB5BD, 0xB5D7, 7),
   (0xB5D8, 0xB5D8, 6), (0xB5D9, 0xB5F3, 7), (0xB5F4, 0xB5F4, 6), (0xB5F5, 0xB60F, 7), (0xB610, 0xB610, 6), (0xB611, 0xB62B, 7),
   (0xB62C, 0xB62C, 6), (0xB62D, 0xB647, 7), (0xB648, 0xB648, 6), (0xB649, 0xB663, 7), (0xB664, 0xB664, 6), (0xB665, 0xB67F, 7),
   (0xB680, 0xB680, 6), (0xB681, 0xB69B, 7), (0xB69C, 0xB69C, 6), (0xB69D, 0xB6B7, 7), (0xB6B8, 0xB6B8, 6), (0xB6B9, 0xB6D3, 7),
   (0xB6D4, 0xB6D4, 6), (0xB6D5, 0xB6EF, 7), (0xB6F0, 0xB6F0, 6), (0xB6F1, 0xB70B, 7), (0xB70C, 0xB70C, 6), (0xB70D, 0xB727, 7),
   (0xB728, 0xB728, 6), (0xB729, 0xB743, 7), (0xB744, 0xB744, 6), (0xB745, 0xB75F, 7), (0xB760, 0xB760, 6), (0xB761, 0xB77B, 7),
   (0xB77C, 0xB77C, 6), (0xB77D, 0xB797, 7), (0xB798, 0xB798, 6), (0xB799, 0xB7B3, 7), (0xB7B4, 0xB7B4, 6), (0xB7B5, 0xB7CF, 7),
   (0xB7D0, 0xB7D0, 6), (0xB7D1, 0xB7EB, 7), (0xB7EC, 0xB7EC, 6), (0xB7ED, 0xB807, 7), (0xB808, 0xB808, 6), (0xB809, 0xB823, 7),
   (0xB824, 0xB824, 6), (0xB825, 0xB83F, 7), (0xB840, 0xB840, 6), (0xB841, 0xB85B, 7), (0xB85C, 0xB85C, 6), (0xB85D, 0xB877, 7),
   (0xB878, 0xB878, 6), (0xB879, 0xB893, 7), (0xB894, 0xB894, 6), (0xB895, 0xB8AF, 7), (0xB8B0, 0xB8B0, 6), (0xB8B1, 0xB8CB, 7),
   (0xB8CC, 0xB8CC, 6), (0xB8CD, 0xB8E7, 7), (0xB8E8, 0xB8E8, 6), (0xB8E9, 0xB903, 7), (0xB904, 0xB904, 6), (0xB905, 0xB91F, 7),
   (0xB920, 0xB920, 6), (0xB921, 0xB93B, 7), (0xB93C, 0xB93C, 6), (0xB93D, 0xB957, 7), (0xB958, 0xB958, 6), (0xB959, 0xB973, 7),
   (0xB974, 0xB974, 6), (0xB975, 0xB98F, 7), (0xB990, 0xB990, 6), (0xB991, 0xB9AB, 7), (0xB9AC, 0xB9AC, 6), (0xB9AD, 0xB9C7, 7),
   (0xB9C8, 0xB9C8, 6), (0xB9C9, 0xB9E3, 7), (0xB9E4, 0xB9E4, 6), (0xB9E5, 0xB9FF, 7), (0xBA00, 0xBA00, 6), (0xBA01, 0xBA1B, 7),
   (0xBA1C, 0xBA1C, 6), (0xBA1D, 0xBA37, 7), (0xBA38, 0xBA38, 6), (0xBA39, 0xBA53, 7), (0xBA54, 0xBA54, 6), (0xBA55, 0xBA6F, 7),
   (0xBA70, 0xBA70, 6), (0xBA71, 0xBA8B, 7), (0xBA8C, 0xBA8C, 6), (0xBA8D, 0xBAA7, 7), (0xBAA8, 0xBAA8, 6), (0xBAA9, 0xBAC3, 7)]

/-- Grapheme_Cluster_Break. Part 3. -/
def graphemeRuns_3 : List (Nat × Nat × Nat) :=
  [
   (0xBAC4, 0xBAC4, 6), (0xBAC5, 0xBADF, 7), (0xBAE0, 0xBAE0, 6), (0xBAE1, 0xBAFB, 7), (0xBAFC, 0xBAFC, 6), (0xBAFD, 0xBB17, 7),
   (0xBB18, 0xBB18, 6), (0xBB19, 0xBB33, 7), (0xBB34, 0xBB34, 6), (0xBB35, 0xBB4F, 7), (0xBB50, 0xBB50, 6), (0xBB51, 0xBB6B, 7),
   (0xBB6C, 0xBB6C, 6), (0xBB6D, 0xBB87, 7), (0xBB88, 0xBB88, 6), (0xBB89, 0xBBA3, 7), (0xBBA4, 0xBBA4, 6), (0xBBA5, 0xBBBF, 7),
   (0xBBC0, 0xBBC0, 6), (0xBBC1, 0xBBDB, 7), (0xBBDC, 0xBBDC, 6), (0xBBDD, 0xBBF7, 7), (0xBBF8, 0xBBF8, 6), (0xBBF9, 0xBC13, 7),
   (0xBC14, 0xBC14, 6), (0xBC15, 0xBC2F, 7), (0xBC30, 0xBC30, 6), (0xBC31, 0xBC4B, 7), (0xBC4C, 0xBC4C, 6), (0xBC4D, 0xBC67, 7),
   (0xBC68, 0xBC68, 6), (0xBC69, 0xBC83, 7), (0xBC84, 0xBC84, 6), (0xBC85, 0xBC9F, 7), (0xBCA0, 0xBCA0, 6), (0xBCA1, 0xBCBB, 7),
   (0xBCBC, 0xBCBC, 6), (0xBCBD, 0xBCD7, 7), (0xBCD8, 0xBCD8, 6), (0xBCD9, 0xBCF3, 7), (0xBCF4, 0xBCF4, 6), (0xBCF5, 0xBD0F, 7),
   (0xBD10, 0xBD10, 6), (0xBD11, 0xBD2B, 7), (0xBD2C, 0xBD2C, 6), (0xBD2D, 0xBD47, 7), (0xBD48, 0xBD48, 6), (0xBD49, 0xBD63, 7),
   (0xBD64, 0xBD64, 6), (0xBD65, 0xBD7F, 7), (0xBD80, 0xBD80, 6), (0xBD81, 0xBD9B, 7), (0xBD9C, 0xBD9C, 6), (0xBD9D, 0xBDB7, 7),
   (0xBDB8, 0xBDB8, 6), (0xBDB9, 0xBDD3, 7), (0xBDD4, 0xBDD4, 6), (0xBDD5, 0xBDEF, 7), (0xBDF0, 0xBDF0, 6), (0xBDF1, 0xBE0B, 7),
   (0xBE0C, 0xBE0C, 6), (0xBE0D, 0xBE27, 7), (0xBE28, 0xBE28, 6), (0xBE29, 0xBE43, 7), (0xBE44, 0xBE44, 6), (0xBE45, 0xBE5F, 7),
   (0xBE60, 0xBE60, 6), (0xBE61, 0xBE7B, 7), (0xBE7C, 0xBE7C, 6), (0xBE7D, 0xBE97, 7), (0xBE98, 0xBE98, 6), (0xBE99, 0xBEB3, 7),
   (0xBEB4, 0xBEB4, 6), (0xBEB5, 0xBECF, 7), (0xBED0, 0xBED0, 6), (0xBED1, 0xBEEB, 7), (0xBEEC, 0xBEEC, 6), (0xBEED, 0xBF07, 7),
   (0xBF08, 0xBF08, 6), (0xBF09, 0xBF23, 7), (0xBF24, 0xBF24, 6), (0xBF25, 0xBF3F, 7), (0xBF40, 0xBF40, 6), (0xBF41, 0xBF5B, 7),
   (0xBF5C, 0xBF5C, 6), (0xBF5D, 0xBF77, 7), (0xBF78, 0xBF78, 6), (0xBF79, 0xBF93, 7), (0xBF94, 0xBF94, 6), (0xBF95, 0xBFAF, 7),
   (0xBFB0, 0xBFB0, 6), (0xBFB1, 0xBFCB, 7), (0xBFCC, 0xBFCC, 6), (0xBFCD, 0xBFE7, 7), (0xBFE8, 0xBFE8, 6), (0xBFE9, 0xC003, 7),
   (0xC004, 0xC004, 6), (0xC005, 0xC01F, 7), (0xC020, 0xC020, 6), (0xC021, 0xC03B, 7), (0xC03C, 0xC03C, 6), (0xC03D, 0xC057, 7),
   (0xC058, 0xC058, 6), (0xC059, 0xC073, 7), (0xC074, 0xC074, 6), (0xC075, 0xC08F, 7), (0xC090, 0xC090, 6), (0xC091, 0xC0AB, 7),
   (0xC0AC, 0xC0AC, 6), (0xC0AD, 0xC0C7, 7), (0xC0C8, 0xC0C8, 6), (0xC0C9, 0xC0E3, 7), (0xC0E4, 0xC0E4, 6), (0xC0E5, 0xC0FF, 7),
   (0xC100, 0xC100, 6), (0xC101, 0xC11B, 7), (0xC11C, 0xC11C, 6), (0xC11D, 0xC137, 7), (0xC138, 0xC138, 6), (0xC139, 0xC153, 7),
   (0xC154, 0xC154, 6), (0xC155, 0xC16F, 7), (0xC170, 0xC170, 6), (0xC171, 0xC18B, 7), (0xC18C, 0xC18C, 6), (0xC18D, 0xC1A7, 7),
   (0xC1A8, 0xC1A8, 6), (0xC1A9, 0xC1C3, 7), (0xC1C4, 0xC1C4, 6), (0xC1C5, 0xC1DF, 7), (0xC1E0, 0xC1E0, 6), (0xC1E1, 0xC1FB, 7),
   (0xC1FC, 0xC1FC, 6), (0xC1FD, 0xC217, 7), (0xC218, 0xC218, 6), (0xC219, 0xC233, 7), (0xC234, 0xC234, 6), (0xC235, 0xC24F, 7),
   (0xC250, 0xC250, 6), (0xC251, 0xC26B, 7), (0xC26C, 0xC26C, 6), (0xC26D, 0xC287, 7), (0xC288, 0xC288, 6), (0xC289, 0xC2A3, 7),
   (0xC2A4, 0xC2A4, 6), (0xC2A5, 0xC2BF, 7), (0xC2C0, 0xC2C0, 6), (0xC2C1, 0xC2DB, 7), (0xC2DC, 0xC2DC, 6), (0xC2DD, 0xC2F7, 7),
   (0xC2F8, 0xC2F8, 6), (0xC2F9, 0xC313, 7), (0xC314, 0xC314, 6), (0xC315, 0xC32F, 7), (0xC330, 0xC330, 6), (0xC331, 0xC34B, 7),
   (0xC34C, 0xC34C, 6), (0xC34D, 0xC367, 7), (0xC368, 0xC368, 6), (0xC369, 0xC383, 7), (0xC384, 0xC384, 6), (0xC385, 0xC39F, 7),
   (0xC3A0, 0xC3A0, 6), (0xC3A1, 0xC3BB, 7), (0xC3BC, 0xC3BC, 6), (0xC3BD, 0xC3D7, 7), (0xC3D8, 0xC3D8, 6), (0xC3D9, 0xC3F3, 7),
   (0xC3F4, 0xC3F4, 6), (0xC3F5, 0xC40F, 7), (0xC410, 0xC410, 6), (0xC411, 0xC42B, 7), (0xC42C, 0xC42C, 6), (0xC42D, 0xC447, 7),
   (0xC448, 0xC448, 6), (0xC449, 0xC463, 7), (0xC464, 0xC464, 6), (0xC465, 0xC47F, 7), (0xC480, 0xC480, 6), (0xC481, 0xC49B, 7),
   (0xC49C, 0xC49C, 6), (0xC49D, 0xC4B7, 7), (0xC4B8, 0xC4B8, 6), (0xC4B9, 0xC4D3, 7), (0xC4D4, 0xC4D4, 6), (0xC4D5, 0xC4EF, 7),
   (0xC4F0, 0xC4F0, 6), (0xC4F1, 0xC50B, 7), (0xC50C, 0xC50C, 6), (0xC50D, 0xC527, 7), (0xC528, 0xC528, 6), (0xC529, 0xC543, 7),
   (0xC544, 0xC544, 6), (0xC545, 0xC55F, 7), (0xC560, 0xC560, 6), (0xC561, 0xC57B, 7), (0xC57C, 0xC57C, 6), (0xC57D, 0xC597, 7),
   (0xC598, 0xC598, 6), (0xC599, 0xC5B3, 7), (0xC5B4, 0xC5B4, 6), (0xC5B5, 0xC5CF, 7), (0xC5D0, 0xC5D0, 6), (0xC5D1, 0xC5EB, 7),
   (0xC5EC, 0xC5EC, 6), (0xC5ED, 0xC607, 7), (0xC608, 0xC608, 6), (0xC609, 0xC623, 7), (0xC624, 0xC624, 6), (0xC625, 0xC63F, 7),
   (0xC640, 0xC640, 6), (0xC641, 0xC65B, 7), (0xC65C, 0xC65C, 6), (0xC65D, 0xC677, 7), (0xC678, 0xC678, 6), (0xC679, 0xC693, 7),
   (0xC694, 0xC694, 6), (0xC695, 0xC6AF, 7), (0xC6B0, 0xC6B0, 6), (0xC6B1, 0xC6CB, 7), (0xC6CC, 0xC6CC, 6), (0xC6CD, 0xC6E7, 7),
   (0xC6E8, 0xC6E8, 6), (0xC6E9, 0xC703, 7), (0xC704, 0xC704, 6), (0xC705, 0xC71F, 7), (0xC720, 0xC720, 6), (0xC721, 0xC73B, 7),
   (0xC73C, 0xC73C, 6), (0xC73D, 0xC757, 7), (0xC758, 0xC758, 6), (0xC759, 0xC773, 7), (0xC774, 0xC774, 6), (0xC775, 0xC78F, 7),
   (0xC790, 0xC790, 6), (0xC791, 0xC7AB, 7), (0xC7AC, 0xC7AC, 6), (0xC7AD, 0xC7C7, 7), (0xC7C8, 0xC7C8, 6), (0xC7C9, 0xC7E3, 7),
   (0xC7E4, 0xC7E4, 6), (0xC7E5, 0xC7FF, 7), (0xC800, 0xC800, 6), (0xC801, 0xC81B, 7), (0xC81C, 0xC81C, 6), (0xC81D, 0xC837, 7),
   (0xC838, 0xC838, 6), (0xC839, 0xC853, 7), (0xC854, 0xC854, 6), (0xC855, 0xC86F, 7), (0xC870, 0xC870, 6), (0xC871, 0xC88B, 7),
   (0xC88C, 0xC88C, 6), (0xC88D, 0xC8A7, 7), (0xC8A8, 0xC8A8, 6), (0xC8A9, 0xC8C3, 7), (0xC8C4, 0xC8C4, 6), (0xC8C5, 0xC8DF, 7),
   (0xC8E0, 0xC8E0, 6), (0xC8E1, 0xC8FB, 7), (0xC8FC, 0xC8FC, 6), (0xC8FD, 0xC917, 7), (0xC918, 0xC918, 6), (0xC919, 0xC933, 7),
   (0xC934, 0xC934, 6), (0xC935, 0xC94F, 7), (0xC950, 0xC950, 6), (0xC951, 0xC96B, 7), (0xC96C, 0xC96C, 6), (0xC96D, 0xC987, 7),
   (0xC988, 0xC988, 6), (0xC989, 0xC9A3, 7), (0xC9A4, 0xC9A4, 6), (0xC9A5, 0xC9BF, 7), (0xC9C0, 0xC9C0, 6), (0xC9C1, 0xC9DB, 7),
   (0xC9DC, 0xC9DC, 6), (0xC9DD, 0xC9F7, 7), (0xC9F8, 0xC9F8, 6), (0xC9F9, 0xCA13, 7), (0xCA14, 0xCA14, 6), (0xCA15, 0xCA2F, 7),
   (0xCA30, 0xCA30, 6), (0xCA31, 0xCA4B, 7), (0xCA4C, 0xCA4C, 6), (0xCA4D, 0xCA67, 7), (0xCA68, 0xCA68, 6), (0xCA69, 0xCA83, 7),
   (0xCA84, 0xCA84, 6), (0xCA85, 0xCA9F, 7), (0xCAA0, 0xCAA0, 6), (0xCAA1, 0xCABB, 7), (0xCABC, 0xCABC, 6), (0xCABD, 0xCAD7, 7),
   (0xCAD8, 0xCAD8, 6), (0xCAD9, 0xCAF3, 7), (0xCAF4, 0xCAF4, 6), (0xCAF5, 0xCB0F, 7), (0xCB10, 0xCB10, 6), (0xCB11, 0xCB2B, 7)]

/-- Grapheme_Cluster_Break. Part 4. -/
def graphemeRuns_4 : List (Nat × Nat × Nat) :=
  [
   (0xCB2C, 0xCB2C, 6), (0xCB2D, 0xCB47, 7), (0xCB48, 0xCB48, 6), (0xCB49, 0xCB63, 7), (0xCB64, 0xCB64, 6), (0xCB65, 0xCB7F, 7),
   (0xCB80, 0xCB80, 6), (0xCB81, 0xCB9B, 7), (0xCB9C, 0xCB9C, 6), (0xCB9D, 0xCBB7, 7), (0xCBB8, 0xCBB8, 6), (0xCBB9, 0xCBD3, 7),
   (0xCBD4, 0xCBD4, 6), (0xCBD5, 0xCBEF, 7), (0xCBF0, 0xCBF0, 6), (0xCBF1, 0xCC0B, 7), (0xCC0C, 0xCC0C, 6), (0xCC0D, 0xCC27, 7),
   (0xCC28, 0xCC28, 6), (0xCC29, 0xCC43, 7), (0xCC44, 0xCC44, 6), (0xCC45, 0xCC5F, 7), (0xCC60, 0xCC60, 6), (0xCC61, 0xCC7B, 7),
   (0xCC7C, 0xCC7C, 6), (0xCC7D, 0xCC97, 7), (0xCC98, 0xCC98, 6), (0xCC99, 0xCCB3, 7), (0xCCB4, 0xCCB4, 6), (0xCCB5, 0xCCCF, 7),
   (0xCCD0, 0xCCD0, 6), (0xCCD1, 0xCCEB, 7), (0xCCEC, 0xCCEC, 6), (0xCCED, 0xCD07, 7), (0xCD08, 0xCD08, 6), (0xCD09, 0xCD23, 7),
   (0xCD24, 0xCD24, 6), (0xCD25, 0xCD3F, 7), (0xCD40, 0xCD40, 6), (0xCD41, 0xCD5B, 7), (0xCD5C, 0xCD5C, 6), (0xCD5D, 0xCD77, 7),
   (0xCD78, 0xCD78, 6), (0xCD79, 0xCD93, 7), (0xCD94, 0xCD94, 6), (0xCD95, 0xCDAF, 7), (0xCDB0, 0xCDB0, 6), (0xCDB1, 0xCDCB, 7),
   (0xCDCC, 0xCDCC, 6), (0xCDCD, 0xCDE7, 7), (0xCDE8, 0xCDE8, 6), (0xCDE9, 0xCE03, 7), (0xCE04, 0xCE04, 6), (0xCE05, 0xCE1F, 7),
   (0xCE20, 0xCE20, 6), (0xCE21, 0xCE3B, 7), (0xCE3C, 0xCE3C, 6), (0xCE3D, 0xCE57, 7), (0xCE58, 0xCE58, 6), (0xCE59, 0xCE73, 7),
   (0xCE74, 0xCE74, 6), (0xCE75, 0xCE8F, 7), (0xCE90, 0xCE90, 6), (0xCE91, 0xCEAB, 7), (0xCEAC, 0xCEAC, 6), (0xCEAD, 0xCEC7, 7),
   (0xCEC8, 0xCEC8, 6), (0xCEC9, 0xCEE3, 7), (0xCEE4, 0xCEE4, 6), (0xCEE5, 0xCEFF, 7), (0xCF00, 0xCF00, 6), (0xCF01, 0xCF1B, 7),
   (0xCF1C, 0xCF1C, 6), (0xCF1D, 0xCF37, 7), (0xCF38, 0xCF38, 6), (0xCF39, 0xCF53, 7), (0xCF54, 0xCF54, 6), (0xCF55, 0xCF6F, 7),
   (0xCF70, 0xCF70, 6), (0xCF71, 0xCF8B, 7), (0xCF8C, 0xCF8C, 6), (0xCF8D, 0xCFA7, 7), (0xCFA8, 0xCFA8, 6), (0xCFA9, 0xCFC3, 7),
   (0xCFC4, 0xCFC4, 6), (0xCFC5, 0xCFDF, 7), (0xCFE0, 0xCFE0, 6), (0xCFE1, 0xCFFB, 7), (0xCFFC, 0xCFFC, 6), (0xCFFD, 0xD017, 7),
   (0xD018, 0xD018, 6), (0xD019, 0xD033, 7), (0xD034, 0xD034, 6), (0xD035, 0xD04F, 7), (0xD050, 0xD050, 6), (0xD051, 0xD06B, 7),
   (0xD06C, 0xD06C, 6), (0xD06D, 0xD087, 7), (0xD088, 0xD088, 6), (0xD089, 0xD0A3, 7), (0xD0A4, 0xD0A4, 6), (0xD0A5, 0xD0BF, 7),
   (0xD0C0, 0xD0C0, 6), (0xD0C1, 0xD0DB, 7), (0xD0DC, 0xD0DC, 6), (0xD0DD, 0xD0F7, 7), (0xD0F8, 0xD0F8, 6), (0xD0F9, 0xD113, 7),
   (0xD114, 0xD114, 6), (0xD115, 0xD12F, 7), (0xD130, 0xD130, 6), (0xD131, 0xD14B, 7), (0xD14C, 0xD14C, 6), (0xD14D, 0xD167, 7),
   (0xD168, 0xD168, 6), (0xD169, 0xD183, 7), (0xD184, 0xD184, 6), (0xD185, 0xD19F, 7), (0xD1A0, 0xD1A0, 6), (0xD1A1, 0xD1BB, 7),
   (0xD1BC, 0xD1BC, 6), (0xD1BD, 0xD1D7, 7), (0xD1D8, 0xD1D8, 6), (0xD1D9, 0xD1F3, 7), (0xD1F4, 0xD1F4, 6), (0xD1F5, 0xD20F, 7),
   (0xD210, 0xD210, 6), (0xD211, 0xD22B, 7), (0xD22C, 0xD22C, 6), (0xD22D, 0xD247, 7), (0xD248, 0xD248, 6), (0xD249, 0xD263, 7),
   (0xD264, 0xD264, 6), (0xD265, 0xD27F, 7), (0xD280, 0xD280, 6), (0xD281, 0xD29B, 7), (0xD29C, 0xD29C, 6), (0xD29D, 0xD2B7, 7),
   (0xD2B8, 0xD2B8, 6), (0xD2B9, 0xD2D3, 7), (0xD2D4, 0xD2D4, 6), (0xD2D5, 0xD2EF, 7), (0xD2F0, 0xD2F0, 6), (0xD2F1, 0xD30B, 7),
   (0xD30C, 0xD30C, 6), (0xD30D, 0xD327, 7), (0xD328, 0xD328, 6), (0xD329, 0xD343, 7), (0xD344, 0xD344, 6), (0xD345, 0xD35F, 7),
   (0xD360, 0xD360, 6), (0xD361, 0xD37B, 7), (0xD37C, 0xD37C, 6), (0xD37D, 0xD397, 7), (0xD398, 0xD398, 6), (0xD399, 0xD3B3, 7),
   (0xD3B4, 0xD3B4, 6), (0xD3B5, 0xD3CF, 7), (0xD3D0, 0xD3D0, 6), (0xD3D1, 0xD3EB, 7), (0xD3EC, 0xD3EC, 6), (0xD3ED, 0xD407, 7),
   (0xD408, 0xD408, 6), (0xD409, 0xD423, 7), (0xD424, 0xD424, 6), (0xD425, 0xD43F, 7), (0xD440, 0xD440, 6), (0xD441, 0xD45B, 7),
   (0xD45C, 0xD45C, 6), (0xD45D, 0xD477, 7), (0xD478, 0xD478, 6), (0xD479, 0xD493, 7), (0xD494, 0xD494, 6), (0xD495, 0xD4AF, 7),
   (0xD4B0, 0xD4B0, 6), (0xD4B1, 0xD4CB, 7), (0xD4CC, 0xD4CC, 6), (0xD4CD, 0xD4E7, 7), (0xD4E8, 0xD4E8, 6), (0xD4E9, 0xD503, 7),
   (0xD504, 0xD504, 6), (0xD505, 0xD51F, 7), (0xD520, 0xD520, 6), (0xD521, 0xD53B, 7), (0xD53C, 0xD53C, 6), (0xD53D, 0xD557, 7),
   (0xD558, 0xD558, 6), (0xD559, 0xD573, 7), (0xD574, 0xD574, 6), (0xD575, 0xD58F, 7), (0xD590, 0xD590, 6), (0xD591, 0xD5AB, 7),
   (0xD5AC, 0xD5AC, 6), (0xD5AD, 0xD5C7, 7), (0xD5C8, 0xD5C8, 6), (0xD5C9, 0xD5E3, 7), (0xD5E4, 0xD5E4, 6), (0xD5E5, 0xD5FF, 7),
   (0xD600, 0xD600, 6), (0xD601, 0xD61B, 7), (0xD61C, 0xD61C, 6), (0xD61D, 0xD637, 7), (0xD638, 0xD638, 6), (0xD639, 0xD653, 7),
   (0xD654, 0xD654, 6), (0xD655, 0xD66F, 7), (0xD670, 0xD670, 6), (0xD671, 0xD68B, 7), (0xD68C, 0xD68C, 6), (0xD68D, 0xD6A7, 7),
   (0xD6A8, 0xD6A8, 6), (0xD6A9, 0xD6C3, 7), (0xD6C4, 0xD6C4, 6), (0xD6C5, 0xD6DF, 7), (0xD6E0, 0xD6E0, 6), (0xD6E1, 0xD6FB, 7),
   (0xD6FC, 0xD6FC, 6), (0xD6FD, 0xD717, 7), (0xD718, 0xD718, 6), (0xD719, 0xD733, 7), (0xD734, 0xD734, 6), (0xD735, 0xD74F, 7),
   (0xD750, 0xD750, 6), (0xD751, 0xD76B, 7), (0xD76C, 0xD76C, 6), (0xD76D, 0xD787, 7), (0xD788, 0xD788, 6), (0xD789, 0xD7A3, 7),
   (0xD7B0, 0xD7C6, 9), (0xD7CB, 0xD7FB, 8), (0xFB1E, 0xFB1E, 3), (0xFE00, 0xFE0F, 3), (0xFE20, 0xFE2F, 3), (0xFEFF, 0xFEFF, 1),
   (0xFF9E, 0xFF9F, 3), (0xFFF0, 0xFFFB, 1), (0x101FD, 0x101FD, 3), (0x102E0, 0x102E0, 3), (0x10376, 0x1037A, 3),
   (0x10A01, 0x10A03, 3), (0x10A05, 0x10A06, 3), (0x10A0C, 0x10A0F, 3), (0x10A38, 0x10A3A, 3), (0x10A3F, 0x10A3F, 3),
   (0x10AE5, 0x10AE6, 3), (0x10D24, 0x10D27, 3), (0x10EAB, 0x10EAC, 3), (0x10F46, 0x10F50, 3), (0x11000, 0x11000, 10),
   (0x11001, 0x11001, 3), (0x11002, 0x11002, 10), (0x11038, 0x11046, 3), (0x1107F, 0x11081, 3), (0x11082, 0x11082, 10),
   (0x110B0, 0x110B2, 10), (0x110B3, 0x110B6, 3), (0x110B7, 0x110B8, 10), (0x110B9, 0x110BA, 3), (0x110BD, 0x110BD, 11),
   (0x110CD, 0x110CD, 11), (0x11100, 0x11102, 3), (0x11127, 0x1112B, 3), (0x1112C, 0x1112C, 10), (0x1112D, 0x11134, 3),
   (0x11145, 0x11146, 10), (0x11173, 0x11173, 3), (0x11180, 0x11181, 3), (0x11182, 0x11182, 10), (0x111B3, 0x111B5, 10),
   (0x111B6, 0x111BE, 3), (0x111BF, 0x111C0, 10), (0x111C2, 0x111C3, 11), (0x111C9, 0x111CC, 3), (0x111CE, 0x111CE, 10),
   (0x111CF, 0x111CF, 3), (0x1122C, 0x1122E, 10), (0x1122F, 0x11231, 3), (0x11232, 0x11233, 10), (0x11234, 0x11234, 3),
   (0x11235, 0x11235, 10), (0x11236, 0x11237, 3), (0x1123E, 0x1123E, 3), (0x112DF, 0x112DF, 3), (0x112E0, 0x112E2, 10),
   (0x112E3, 0x112EA, 3), (0x11300, 0x11301, 3), (0x11302, 0x11303, 10), (0x1133B, 0x1133C, 3), (0x1133E, 0x1133E, 3),
   (0x1133F, 0x1133F, 10), (0x11340, 0x11340, 3), (0x11341, 0x11344, 10), (0x11347, 0x11348, 10), (0x1134B, 0x1134D, 10),
   (0x11357, 0x11357, 3), (0x11362, 0x11363, 10), (0x11366, 0x1136C, 3), (0x11370, 0x11374, 3), (0x11435, 0x11437, 10),
   (0x11438, 0x1143F, 3)]

/-- Grapheme_Cluster_Break. Part 5. -/
def graphemeRuns_5 : List (Nat × Nat × Nat) :=
  [
   (0x11440, 0x11441, 10), (0x11442, 0x11444, 3), (0x11445, 0x11445, 10), (0x11446, 0x11446, 3), (0x1145E, 0x1145E, 3),
   (0x114B0, 0x114B0, 3), (0x114B1, 0x114B2, 10), (0x114B3, 0x114B8, 3), (0x114B9, 0x114B9, 10), (0x114BA, 0x114BA, 3),
   (0x114BB, 0x114BC, 10), (0x114BD, 0x114BD, 3), (0x114BE, 0x114BE, 10), (0x114BF, 0x114C0, 3), (0x114C1, 0x114C1, 10),
   (0x114C2, 0x114C3, 3), (0x115AF, 0x115AF, 3), (0x115B0, 0x115B1, 10), (0x115B2, 0x115B5, 3), (0x115B8, 0x115BB, 10),
   (0x115BC, 0x115BD, 3), (0x115BE, 0x115BE, 10), (0x115BF, 0x115C0, 3), (0x115DC, 0x115DD, 3), (0x11630, 0x11632, 10),
   (0x11633, 0x1163A, 3), (0x1163B, 0x1163C, 10), (0x1163D, 0x1163D, 3), (0x1163E, 0x1163E, 10), (0x1163F, 0x11640, 3),
   (0x116AB, 0x116AB, 3), (0x116AC, 0x116AC, 10), (0x116AD, 0x116AD, 3), (0x116AE, 0x116AF, 10), (0x116B0, 0x116B5, 3),
   (0x116B6, 0x116B6, 10), (0x116B7, 0x116B7, 3), (0x1171D, 0x1171F, 3), (0x11720, 0x11721, 10), (0x11722, 0x11725, 3),
   (0x11726, 0x11726, 10), (0x11727, 0x1172B, 3), (0x1182C, 0x1182E, 10), (0x1182F, 0x11837, 3), (0x11838, 0x11838, 10),
   (0x11839, 0x1183A, 3), (0x11930, 0x11930, 3), (0x11931, 0x11935, 10), (0x11937, 0x11938, 10), (0x1193B, 0x1193C, 3),
   (0x1193D, 0x1193D, 10), (0x1193E, 0x1193E, 3), (0x1193F, 0x1193F, 11), (0x11940, 0x11940, 10), (0x11941, 0x11941, 11),
   (0x11942, 0x11942, 10), (0x11943, 0x11943, 3), (0x119D1, 0x119D3, 10), (0x119D4, 0x119D7, 3), (0x119DA, 0x119DB, 3),
   (0x119DC, 0x119DF, 10), (0x119E0, 0x119E0, 3), (0x119E4, 0x119E4, 10), (0x11A01, 0x11A0A, 3), (0x11A33, 0x11A38, 3),
   (0x11A39, 0x11A39, 10), (0x11A3A, 0x11A3A, 11), (0x11A3B, 0x11A3E, 3), (0x11A47, 0x11A47, 3), (0x11A51, 0x11A56, 3),
   (0x11A57, 0x11A58, 10), (0x11A59, 0x11A5B, 3), (0x11A84, 0x11A89, 11), (0x11A8A, 0x11A96, 3), (0x11A97, 0x11A97, 10),
   (0x11A98, 0x11A99, 3), (0x11C2F, 0x11C2F, 10), (0x11C30, 0x11C36, 3), (0x11C38, 0x11C3D, 3), (0x11C3E, 0x11C3E, 10),
   (0x11C3F, 0x11C3F, 3), (0x11C92, 0x11CA7, 3), (0x11CA9, 0x11CA9, 10), (0x11CAA, 0x11CB0, 3), (0x11CB1, 0x11CB1, 10),
   (0x11CB2, 0x11CB3, 3), (0x11CB4, 0x11CB4, 10), (0x11CB5, 0x11CB6, 3), (0x11D31, 0x11D36, 3), (0x11D3A, 0x11D3A, 3),
   (0x11D3C, 0x11D3D, 3), (0x11D3F, 0x11D45, 3), (0x11D46, 0x11D46, 11), (0x11D47, 0x11D47, 3), (0x11D8A, 0x11D8E, 10),
   (0x11D90, 0x11D91, 3), (0x11D93, 0x11D94, 10), (0x11D95, 0x11D95, 3), (0x11D96, 0x11D96, 10), (0x11D97, 0x11D97, 3),
   (0x11EF3, 0x11EF4, 3), (0x11EF5, 0x11EF6, 10), (0x13430, 0x13438, 1), (0x16AF0, 0x16AF4, 3), (0x16B30, 0x16B36, 3),
   (0x16F4F, 0x16F4F, 3), (0x16F51, 0x16F87, 10), (0x16F8F, 0x16F92, 3), (0x16FE4, 0x16FE4, 3), (0x16FF0, 0x16FF1, 10),
   (0x1BC9D, 0x1BC9E, 3), (0x1BCA0, 0x1BCA3, 1), (0x1D165, 0x1D165, 3), (0x1D166, 0x1D166, 10), (0x1D167, 0x1D169, 3),
   (0x1D16D, 0x1D16D, 10), (0x1D16E, 0x1D172, 3), (0x1D173, 0x1D17A, 1), (0x1D17B, 0x1D182, 3), (0x1D185, 0x1D18B, 3),
   (0x1D1AA, 0x1D1AD, 3), (0x1D242, 0x1D244, 3), (0x1DA00, 0x1DA36, 3), (0x1DA3B, 0x1DA6C, 3), (0x1DA75, 0x1DA75, 3),
   (0x1DA84, 0x1DA84, 3), (0x1DA9B, 0x1DA9F, 3), (0x1DAA1, 0x1DAAF, 3), (0x1E000, 0x1E006, 3), (0x1E008, 0x1E018, 3),
   (0x1E01B, 0x1E021, 3), (0x1E023, 0x1E024, 3), (0x1E026, 0x1E02A, 3), (0x1E130, 0x1E136, 3), (0x1E2EC, 0x1E2EF, 3),
   (0x1E8D0, 0x1E8D6, 3), (0x1E944, 0x1E94A, 3), (0x1F1E6, 0x1F1FF, 12), (0x1F3FB, 0x1F3FF, 3), (0xE0000, 0xE001F, 1),
   (0xE0020, 0xE007F, 3), (0xE0080, 0xE00FF, 1), (0xE0100, 0xE01EF, 3), (0xE01F0, 0xE0FFF, 1)]

/-- Grapheme_Cluster_Break. -/
def graphemeRuns : List (Nat × Nat × Nat) :=
  graphemeRuns_1 ++ (graphemeRuns_2 ++ (graphemeRuns_3 ++ (graphemeRuns_4 ++ (graphemeRuns_5))))

/-- The word break classes and their numbers. -/
def wordLegend : List (Nat × String) :=
  [
   (0, "XX"), (1, "LE"), (2, "FO"), (3, "KA"), (4, "ML"), (5, "MN"), (6, "NU"), (7, "EX"), (8, "CR"), (9, "Extend"), (10, "LF"),
   (11, "MB"), (12, "NL"), (13, "RI"), (14, "HL"), (15, "SQ"), (16, "DQ"), (17, "EB"), (18, "EBG"), (19, "EM"), (20, "GAZ"),
   (21, "ZWJ"), (22, "WSegSpace")]

/-- Word_Break. Part 1. -/
def wordRuns_1 : List (Nat × Nat × Nat) :=
  [
   (0xA, 0xA, 10), (0xB, 0xC, 12), (0xD, 0xD, 8), (0x20, 0x20, 22), (0x22, 0x22, 16), (0x27, 0x27, 15), (0x2C, 0x2C, 5),
   (0x2E, 0x2E, 11), (0x30, 0x39, 6), (0x3A, 0x3A, 4), (0x3B, 0x3B, 5), (0x41, 0x5A, 1), (0x5F, 0x5F, 7), (0x61, 0x7A, 1),
   (0x85, 0x85, 12), (0xAA, 0xAA, 1), (0xAD, 0xAD, 2), (0xB5, 0xB5, 1), (0xB7, 0xB7, 4), (0xBA, 0xBA, 1), (0xC0, 0xD6, 1),
   (0xD8, 0xF6, 1), (0xF8, 0x2D7, 1), (0x2DE, 0x2FF, 1), (0x300, 0x36F, 9), (0x370, 0x374, 1), (0x376, 0x377, 1), (0x37A, 0x37D, 1),
   (0x37E, 0x37E, 5), (0x37F, 0x37F, 1), (0x386, 0x386, 1), (0x387, 0x387, 4), (0x388, 0x38A, 1), (0x38C, 0x38C, 1),
   (0x38E, 0x3A1, 1), (0x3A3, 0x3F5, 1), (0x3F7, 0x481, 1), (0x483, 0x489, 9), (0x48A, 0x52F, 1), (0x531, 0x556, 1),
   (0x559, 0x55C, 1), (0x55E, 0x55E, 1), (0x55F, 0x55F, 4), (0x560, 0x588, 1), (0x589, 0x589, 5), (0x58A, 0x58A, 1),
   (0x591, 0x5BD, 9), (0x5BF, 0x5BF, 9), (0x5C1, 0x5C2, 9), (0x5C4, 0x5C5, 9), (0x5C7, 0x5C7, 9), (0x5D0, 0x5EA, 14),
   (0x5EF, 0x5F2, 14), (0x5F3, 0x5F3, 1), (0x5F4, 0x5F4, 4), (0x600, 0x605, 2), (0x60C, 0x60D, 5), (0x610, 0x61A, 9),
   (0x61C, 0x61C, 2), (0x620, 0x64A, 1), (0x64B, 0x65F, 9), (0x660, 0x669, 6), (0x66B, 0x66B, 6), (0x66C, 0x66C, 5),
   (0x66E, 0x66F, 1), (0x670, 0x670, 9), (0x671, 0x6D3, 1), (0x6D5, 0x6D5, 1), (0x6D6, 0x6DC, 9), (0x6DD, 0x6DD, 2),
   (0x6DF, 0x6E4, 9), (0x6E5, 0x6E6, 1), (0x6E7, 0x6E8, 9), (0x6EA, 0x6ED, 9), (0x6EE, 0x6EF, 1), (0x6F0, 0x6F9, 6),
   (0x6FA, 0x6FC, 1), (0x6FF, 0x6FF, 1), (0x70F, 0x70F, 2), (0x710, 0x710, 1), (0x711, 0x711, 9), (0x712, 0x72F, 1),
   (0x730, 0x74A, 9), (0x74D, 0x7A5, 1), (0x7A6, 0x7B0, 9), (0x7B1, 0x7B1, 1), (0x7C0, 0x7C9, 6), (0x7CA, 0x7EA, 1),
   (0x7EB, 0x7F3, 9), (0x7F4, 0x7F5, 1), (0x7F8, 0x7F8, 5), (0x7FA, 0x7FA, 1), (0x7FD, 0x7FD, 9), (0x800, 0x815, 1),
   (0x816, 0x819, 9), (0x81A, 0x81A, 1), (0x81B, 0x823, 9), (0x824, 0x824, 1), (0x825, 0x827, 9), (0x828, 0x828, 1),
   (0x829, 0x82D, 9), (0x840, 0x858, 1), (0x859, 0x85B, 9), (0x860, 0x86A, 1), (0x8A0, 0x8B4, 1), (0x8B6, 0x8C7, 1),
   (0x8D3, 0x8E1, 9), (0x8E2, 0x8E2, 2), (0x8E3, 0x903, 9), (0x904, 0x939, 1), (0x93A, 0x93C, 9), (0x93D, 0x93D, 1),
   (0x93E, 0x94F, 9), (0x950, 0x950, 1), (0x951, 0x957, 9), (0x958, 0x961, 1), (0x962, 0x963, 9), (0x966, 0x96F, 6),
   (0x971, 0x980, 1), (0x981, 0x983, 9), (0x985, 0x98C, 1), (0x98F, 0x990, 1), (0x993, 0x9A8, 1), (0x9AA, 0x9B0, 1),
   (0x9B2, 0x9B2, 1), (0x9B6, 0x9B9, 1), (0x9BC, 0x9BC, 9), (0x9BD, 0x9BD, 1), (0x9BE, 0x9C4, 9), (0x9C7, 0x9C8, 9),
   (0x9CB, 0x9CD, 9), (0x9CE, 0x9CE, 1), (0x9D7, 0x9D7, 9), (0x9DC, 0x9DD, 1), (0x9DF, 0x9E1, 1), (0x9E2, 0x9E3, 9),
   (0x9E6, 0x9EF, 6), (0x9F0, 0x9F1, 1), (0x9FC, 0x9FC, 1), (0x9FE, 0x9FE, 9), (0xA01, 0xA03, 9), (0xA05, 0xA0A, 1),
   (0xA0F, 0xA10, 1), (0xA13, 0xA28, 1), (0xA2A, 0xA30, 1), (0xA32, 0xA33, 1), (0xA35, 0xA36, 1), (0xA38, 0xA39, 1),
   (0xA3C, 0xA3C, 9), (0xA3E, 0xA42, 9), (0xA47, 0xA48, 9), (0xA4B, 0xA4D, 9), (0xA51, 0xA51, 9), (0xA59, 0xA5C, 1),
   (0xA5E, 0xA5E, 1), (0xA66, 0xA6F, 6), (0xA70, 0xA71, 9), (0xA72, 0xA74, 1), (0xA75, 0xA75, 9), (0xA81, 0xA83, 9),
   (0xA85, 0xA8D, 1), (0xA8F, 0xA91, 1), (0xA93, 0xAA8, 1), (0xAAA, 0xAB0, 1), (0xAB2, 0xAB3, 1), (0xAB5, 0xAB9, 1),
   (0xABC, 0xABC, 9), (0xABD, 0xABD, 1), (0xABE, 0xAC5, 9), (0xAC7, 0xAC9, 9), (0xACB, 0xACD, 9), (0xAD0, 0xAD0, 1),
   (0xAE0, 0xAE1, 1), (0xAE2, 0xAE3, 9), (0xAE6, 0xAEF, 6), (0xAF9, 0xAF9, 1), (0xAFA, 0xAFF, 9), (0xB01, 0xB03, 9),
   (0xB05, 0xB0C, 1), (0xB0F, 0xB10, 1), (0xB13, 0xB28, 1), (0xB2A, 0xB30, 1), (0xB32, 0xB33, 1), (0xB35, 0xB39, 1),
   (0xB3C, 0xB3C, 9), (0xB3D, 0xB3D, 1), (0xB3E, 0xB44, 9), (0xB47, 0xB48, 9), (0xB4B, 0xB4D, 9), (0xB55, 0xB57, 9),
   (0xB5C, 0xB5D, 1), (0xB5F, 0xB61, 1), (0xB62, 0xB63, 9), (0xB66, 0xB6F, 6), (0xB71, 0xB71, 1), (0xB82, 0xB82, 9),
   (0xB83, 0xB83, 1), (0xB85, 0xB8A, 1), (0xB8E, 0xB90, 1), (0xB92, 0xB95, 1), (0xB99, 0xB9A, 1), (0xB9C, 0xB9C, 1),
   (0xB9E, 0xB9F, 1), (0xBA3, 0xBA4, 1), (0xBA8, 0xBAA, 1), (0xBAE, 0xBB9, 1), (0xBBE, 0xBC2, 9), (0xBC6, 0xBC8, 9),
   (0xBCA, 0xBCD, 9), (0xBD0, 0xBD0, 1), (0xBD7, 0xBD7, 9), (0xBE6, 0xBEF, 6), (0xC00, 0xC04, 9), (0xC05, 0xC0C, 1),
   (0xC0E, 0xC10, 1), (0xC12, 0xC28, 1), (0xC2A, 0xC39, 1), (0xC3D, 0xC3D, 1), (0xC3E, 0xC44, 9), (0xC46, 0xC48, 9),
   (0xC4A, 0xC4D, 9), (0xC55, 0xC56, 9), (0xC58, 0xC5A, 1), (0xC60, 0xC61, 1), (0xC62, 0xC63, 9), (0xC66, 0xC6F, 6),
   (0xC80, 0xC80, 1), (0xC81, 0xC83, 9), (0xC85, 0xC8C, 1), (0xC8E, 0xC90, 1), (0xC92, 0xCA8, 1), (0xCAA, 0xCB3, 1),
   (0xCB5, 0xCB9, 1), (0xCBC, 0xCBC, 9), (0xCBD, 0xCBD, 1), (0xCBE, 0xCC4, 9), (0xCC6, 0xCC8, 9), (0xCCA, 0xCCD, 9),
   (0xCD5, 0xCD6, 9), (0xCDE, 0xCDE, 1), (0xCE0, 0xCE1, 1), (0xCE2, 0xCE3, 9), (0xCE6, 0xCEF, 6), (0xCF1, 0xCF2, 1),
   (0xD00, 0xD03, 9), (0xD04, 0xD0C, 1), (0xD0E, 0xD10, 1), (0xD12, 0xD3A, 1), (0xD3B, 0xD3C, 9), (0xD3D, 0xD3D, 1),
   (0xD3E, 0xD44, 9), (0xD46, 0xD48, 9), (0xD4A, 0xD4D, 9), (0xD4E, 0xD4E, 1), (0xD54, 0xD56, 1), (0xD57, 0xD57, 9),
   (0xD5F, 0xD61, 1), (0xD62, 0xD63, 9), (0xD66, 0xD6F, 6), (0xD7A, 0xD7F, 1), (0xD81, 0xD83, 9), (0xD85, 0xD96, 1),
   (0xD9A, 0xDB1, 1), (0xDB3, 0xDBB, 1), (0xDBD, 0xDBD, 1), (0xDC0, 0xDC6, 1), (0xDCA, 0xDCA, 9), (0xDCF, 0xDD4, 9),
   (0xDD6, 0xDD6, 9), (0xDD8, 0xDDF, 9), (0xDE6, 0xDEF, 6), (0xDF2, 0xDF3, 9), (0xE31, 0xE31, 9), (0xE34, 0xE3A, 9),
   (0xE47, 0xE4E, 9), (0xE50, 0xE59, 6), (0xEB1, 0xEB1, 9), (0xEB4, 0xEBC, 9), (0xEC8, 0xECD, 9), (0xED0, 0xED9, 6),
   (0xF00, 0xF00, 1), (0xF18, 0xF19, 9), (0xF20, 0xF29, 6), (0xF35, 0xF35, 9), (0xF37, 0xF37, 9), (0xF39, 0xF39, 9),
   (0xF3E, 0xF3F, 9), (0xF40, 0xF47, 1), (0xF49, 0xF6C, 1), (0xF71, 0xF84, 9), (0xF86, 0xF87, 9), (0xF88, 0xF8C, 1),
   (0xF8D, 0xF97, 9), (0xF99, 0xFBC, 9), (0xFC6, 0xFC6, 9), (0x102B, 0x103E, 9), (0x1040, 0x1049, 6), (0x1056, 0x1059, 9),
   (0x105E, 0x1060, 9), (0x1062, 0x1064, 9)]

/-- Word_Break. Part 2. -/
def wordRuns_2 : List (Nat × Nat × Nat) :=
  [
   (0x1067, 0x106D, 9), (0x1071, 0x1074, 9), (0x1082, 0x108D, 9), (0x108F, 0x108F, 9), (0x1090, 0x1099, 6), (0x109A, 0x109D, 9),
   (0x10A0, 0x10C5, 1), (0x10C7, 0x10C7, 1), (0x10CD, 0x10CD, 1), (0x10D0, 0x10FA, 1), (0x10FC, 0x1248, 1), (0x124A, 0x124D, 1),
   (0x1250, 0x1256, 1), (0x1258, 0x1258, 1), (0x125A, 0x125D, 1), (0x1260, 0x1288, 1), (0x128A, 0x128D, 1), (0x1290, 0x12B0, 1),
   (0x12B2, 0x12B5, 1), (0x12B8, 0x12BE, 1), (0x12C0, 0x12C0, 1), (0x12C2, 0x12C5, 1), (0x12C8, 0x12D6, 1), (0x12D8, 0x1310, 1),
   (0x1312, 0x1315, 1), (0x1318, 0x135A, 1), (0x135D, 0x135F, 9), (0x1380, 0x138F, 1), (0x13A0, 0x13F5, 1), (0x13F8, 0x13FD, 1),
   (0x1401, 0x166C, 1), (0x166F, 0x167F, 1), (0x1680, 0x1680, 22), (0x1681, 0x169A, 1), (0x16A0, 0x16EA, 1), (0x16EE, 0x16F8, 1),
   (0x1700, 0x170C, 1), (0x170E, 0x1711, 1), (0x1712, 0x1714, 9), (0x1720, 0x1731, 1), (0x1732, 0x1734, 9), (0x1740, 0x1751, 1),
   (0x1752, 0x1753, 9), (0x1760, 0x176C, 1), (0x176E, 0x1770, 1), (0x1772, 0x1773, 9), (0x17B4, 0x17D3, 9), (0x17DD, 0x17DD, 9),
   (0x17E0, 0x17E9, 6), (0x180B, 0x180D, 9), (0x180E, 0x180E, 2), (0x1810, 0x1819, 6), (0x1820, 0x1878, 1), (0x1880, 0x1884, 1),
   (0x1885, 0x1886, 9), (0x1887, 0x18A8, 1), (0x18A9, 0x18A9, 9), (0x18AA, 0x18AA, 1), (0x18B0, 0x18F5, 1), (0x1900, 0x191E, 1),
   (0x1920, 0x192B, 9), (0x1930, 0x193B, 9), (0x1946, 0x194F, 6), (0x19D0, 0x19D9, 6), (0x1A00, 0x1A16, 1), (0x1A17, 0x1A1B, 9),
   (0x1A55, 0x1A5E, 9), (0x1A60, 0x1A7C, 9), (0x1A7F, 0x1A7F, 9), (0x1A80, 0x1A89, 6), (0x1A90, 0x1A99, 6), (0x1AB0, 0x1AC0, 9),
   (0x1B00, 0x1B04, 9), (0x1B05, 0x1B33, 1), (0x1B34, 0x1B44, 9), (0x1B45, 0x1B4B, 1), (0x1B50, 0x1B59, 6), (0x1B6B, 0x1B73, 9),
   (0x1B80, 0x1B82, 9), (0x1B83, 0x1BA0, 1), (0x1BA1, 0x1BAD, 9), (0x1BAE, 0x1BAF, 1), (0x1BB0, 0x1BB9, 6), (0x1BBA, 0x1BE5, 1),
   (0x1BE6, 0x1BF3, 9), (0x1C00, 0x1C23, 1), (0x1C24, 0x1C37, 9), (0x1C40, 0x1C49, 6), (0x1C4D, 0x1C4F, 1), (0x1C50, 0x1C59, 6),
   (0x1C5A, 0x1C7D, 1), (0x1C80, 0x1C88, 1), (0x1C90, 0x1CBA, 1), (0x1CBD, 0x1CBF, 1), (0x1CD0, 0x1CD2, 9), (0x1CD4, 0x1CE8, 9),
   (0x1CE9, 0x1CEC, 1), (0x1CED, 0x1CED, 9), (0x1CEE, 0x1CF3, 1), (0x1CF4, 0x1CF4, 9), (0x1CF5, 0x1CF6, 1), (0x1CF7, 0x1CF9, 9),
   (0x1CFA, 0x1CFA, 1), (0x1D00, 0x1DBF, 1), (0x1DC0, 0x1DF9, 9), (0x1DFB, 0x1DFF, 9), (0x1E00, 0x1F15, 1), (0x1F18, 0x1F1D, 1),
   (0x1F20, 0x1F45, 1), (0x1F48, 0x1F4D, 1), (0x1F50, 0x1F57, 1), (0x1F59, 0x1F59, 1), (0x1F5B, 0x1F5B, 1), (0x1F5D, 0x1F5D, 1),
   (0x1F5F, 0x1F7D, 1), (0x1F80, 0x1FB4, 1), (0x1FB6, 0x1FBC, 1), (0x1FBE, 0x1FBE, 1), (0x1FC2, 0x1FC4, 1), (0x1FC6, 0x1FCC, 1),
   (0x1FD0, 0x1FD3, 1), (0x1FD6, 0x1FDB, 1), (0x1FE0, 0x1FEC, 1), (0x1FF2, 0x1FF4, 1), (0x1FF6, 0x1FFC, 1), (0x2000, 0x2006, 22),
   (0x2008, 0x200A, 22), (0x200C, 0x200C, 9), (0x200D, 0x200D, 21), (0x200E, 0x200F, 2), (0x2018, 0x2019, 11), (0x2024, 0x2024, 11),
   (0x2027, 0x2027, 4), (0x2028, 0x2029, 12), (0x202A, 0x202E, 2), (0x202F, 0x202F, 7), (0x203F, 0x2040, 7), (0x2044, 0x2044, 5),
   (0x2054, 0x2054, 7), (0x205F, 0x205F, 22), (0x2060, 0x2064, 2), (0x2066, 0x206F, 2), (0x2071, 0x2071, 1), (0x207F, 0x207F, 1),
   (0x2090, 0x209C, 1), (0x20D0, 0x20F0, 9), (0x2102, 0x2102, 1), (0x2107, 0x2107, 1), (0x210A, 0x2113, 1), (0x2115, 0x2115, 1),
   (0x2119, 0x211D, 1), (0x2124, 0x2124, 1), (0x2126, 0x2126, 1), (0x2128, 0x2128, 1), (0x212A, 0x212D, 1), (0x212F, 0x2139, 1),
   (0x213C, 0x213F, 1), (0x2145, 0x2149, 1), (0x214E, 0x214E, 1), (0x2160, 0x2188, 1), (0x24B6, 0x24E9, 1), (0x2C00, 0x2C2E, 1),
   (0x2C30, 0x2C5E, 1), (0x2C60, 0x2CE4, 1), (0x2CEB, 0x2CEE, 1), (0x2CEF, 0x2CF1, 9), (0x2CF2, 0x2CF3, 1), (0x2D00, 0x2D25, 1),
   (0x2D27, 0x2D27, 1), (0x2D2D, 0x2D2D, 1), (0x2D30, 0x2D67, 1), (0x2D6F, 0x2D6F, 1), (0x2D7F, 0x2D7F, 9), (0x2D80, 0x2D96, 1),
   (0x2DA0, 0x2DA6, 1), (0x2DA8, 0x2DAE, 1), (0x2DB0, 0x2DB6, 1), (0x2DB8, 0x2DBE, 1), (0x2DC0, 0x2DC6, 1), (0x2DC8, 0x2DCE, 1),
   (0x2DD0, 0x2DD6, 1), (0x2DD8, 0x2DDE, 1), (0x2DE0, 0x2DFF, 9), (0x2E2F, 0x2E2F, 1), (0x3000, 0x3000, 22), (0x3005, 0x3005, 1),
   (0x302A, 0x302F, 9), (0x3031, 0x3035, 3), (0x303B, 0x303C, 1), (0x3099, 0x309A, 9), (0x309B, 0x309C, 3), (0x30A0, 0x30FA, 3),
   (0x30FC, 0x30FF, 3), (0x3105, 0x312F, 1), (0x3131, 0x318E, 1), (0x31A0, 0x31BF, 1), (0x31F0, 0x31FF, 3), (0x32D0, 0x32FE, 3),
   (0x3300, 0x3357, 3), (0xA000, 0xA48C, 1), (0xA4D0, 0xA4FD, 1), (0xA500, 0xA60C, 1), (0xA610, 0xA61F, 1), (0xA620, 0xA629, 6),
   (0xA62A, 0xA62B, 1), (0xA640, 0xA66E, 1), (0xA66F, 0xA672, 9), (0xA674, 0xA67D, 9), (0xA67F, 0xA69D, 1), (0xA69E, 0xA69F, 9),
   (0xA6A0, 0xA6EF, 1), (0xA6F0, 0xA6F1, 9), (0xA708, 0xA7BF, 1), (0xA7C2, 0xA7CA, 1), (0xA7F5, 0xA801, 1), (0xA802, 0xA802, 9),
   (0xA803, 0xA805, 1), (0xA806, 0xA806, 9), (0xA807, 0xA80A, 1), (0xA80B, 0xA80B, 9), (0xA80C, 0xA822, 1), (0xA823, 0xA827, 9),
   (0xA82C, 0xA82C, 9), (0xA840, 0xA873, 1), (0xA880, 0xA881, 9), (0xA882, 0xA8B3, 1), (0xA8B4, 0xA8C5, 9), (0xA8D0, 0xA8D9, 6),
   (0xA8E0, 0xA8F1, 9), (0xA8F2, 0xA8F7, 1), (0xA8FB, 0xA8FB, 1), (0xA8FD, 0xA8FE, 1), (0xA8FF, 0xA8FF, 9), (0xA900, 0xA909, 6),
   (0xA90A, 0xA925, 1), (0xA926, 0xA92D, 9), (0xA930, 0xA946, 1), (0xA947, 0xA953, 9), (0xA960, 0xA97C, 1), (0xA980, 0xA983, 9),
   (0xA984, 0xA9B2, 1), (0xA9B3, 0xA9C0, 9), (0xA9CF, 0xA9CF, 1), (0xA9D0, 0xA9D9, 6), (0xA9E5, 0xA9E5, 9), (0xA9F0, 0xA9F9, 6),
   (0xAA00, 0xAA28, 1), (0xAA29, 0xAA36, 9), (0xAA40, 0xAA42, 1), (0xAA43, 0xAA43, 9), (0xAA44, 0xAA4B, 1), (0xAA4C, 0xAA4D, 9),
   (0xAA50, 0xAA59, 6), (0xAA7B, 0xAA7D, 9), (0xAAB0, 0xAAB0, 9), (0xAAB2, 0xAAB4, 9), (0xAAB7, 0xAAB8, 9), (0xAABE, 0xAABF, 9),
   (0xAAC1, 0xAAC1, 9), (0xAAE0, 0xAAEA, 1), (0xAAEB, 0xAAEF, 9), (0xAAF2, 0xAAF4, 1), (0xAAF5, 0xAAF6, 9), (0xAB01, 0xAB06, 1),
   (0xAB09, 0xAB0E, 1), (0xAB11, 0xAB16, 1), (0xAB20, 0xAB26, 1), (0xAB28, 0xAB2E, 1), (0xAB30, 0xAB69, 1), (0xAB70, 0xABE2, 1),
   (0xABE3, 0xABEA, 9), (0xABEC, 0xABED, 9), (0xABF0, 0xABF9, 6), (0xAC00, 0xD7A3, 1), (0xD7B0, 0xD7C6, 1), (0xD7CB, 0xD7FB, 1),
   (0xFB00, 0xFB06, 1), (0xFB13, 0xFB17, 1), (0xFB1D, 0xFB1D, 14), (0xFB1E, 0xFB1E, 9), (0xFB1F, 0xFB28, 14), (0xFB2A, 0xFB36, 14),
   (0xFB38, 0xFB3C, 14), (0xFB3E, 0xFB3E, 14), (0xFB40, 0xFB41, 14), (0xFB43, 0xFB44, 14), (0xFB46, 0xFB4F, 14),
   (0xFB50, 0xFBB1, 1), (0xFBD3, 0xFD3D, 1), (0xFD50, 0xFD8F, 1), (0xFD92, 0xFDC7, 1), (0xFDF0, 0xFDFB, 1), (0xFE00, 0xFE0F, 9),
   (0xFE10, 0xFE10, 5), (0xFE13, 0xFE13, 4), (0xFE14, 0xFE14, 5), (0xFE20, 0xFE2F, 9), (0xFE33, 0xFE34, 7), (0xFE4D, 0xFE4F, 7),
   (0xFE50, 0xFE50, 5)]

/-- Word_Break. Part 3. -/
def wordRuns_3 : List (Nat × Nat × Nat) :=
  [
   (0xFE52, 0xFE52, 11), (0xFE54, 0xFE54, 5), (0xFE55, 0xFE55, 4), (0xFE70, 0xFE74, 1), (0xFE76, 0xFEFC, 1), (0xFEFF, 0xFEFF, 2),
   (0xFF07, 0xFF07, 11), (0xFF0C, 0xFF0C, 5), (0xFF0E, 0xFF0E, 11), (0xFF10, 0xFF19, 6), (0xFF1A, 0xFF1A, 4), (0xFF1B, 0xFF1B, 5),
   (0xFF21, 0xFF3A, 1), (0xFF3F, 0xFF3F, 7), (0xFF41, 0xFF5A, 1), (0xFF66, 0xFF9D, 3), (0xFF9E, 0xFF9F, 9), (0xFFA0, 0xFFBE, 1),
   (0xFFC2, 0xFFC7, 1), (0xFFCA, 0xFFCF, 1), (0xFFD2, 0xFFD7, 1), (0xFFDA, 0xFFDC, 1), (0xFFF9, 0xFFFB, 2), (0x10000, 0x1000B, 1),
   (0x1000D, 0x10026, 1), (0x10028, 0x1003A, 1), (0x1003C, 0x1003D, 1), (0x1003F, 0x1004D, 1), (0x10050, 0x1005D, 1),
   (0x10080, 0x100FA, 1), (0x10140, 0x10174, 1), (0x101FD, 0x101FD, 9), (0x10280, 0x1029C, 1), (0x102A0, 0x102D0, 1),
   (0x102E0, 0x102E0, 9), (0x10300, 0x1031F, 1), (0x1032D, 0x1034A, 1), (0x10350, 0x10375, 1), (0x10376, 0x1037A, 9),
   (0x10380, 0x1039D, 1), (0x103A0, 0x103C3, 1), (0x103C8, 0x103CF, 1), (0x103D1, 0x103D5, 1), (0x10400, 0x1049D, 1),
   (0x104A0, 0x104A9, 6), (0x104B0, 0x104D3, 1), (0x104D8, 0x104FB, 1), (0x10500, 0x10527, 1), (0x10530, 0x10563, 1),
   (0x10600, 0x10736, 1), (0x10740, 0x10755, 1), (0x10760, 0x10767, 1), (0x10800, 0x10805, 1), (0x10808, 0x10808, 1),
   (0x1080A, 0x10835, 1), (0x10837, 0x10838, 1), (0x1083C, 0x1083C, 1), (0x1083F, 0x10855, 1), (0x10860, 0x10876, 1),
   (0x10880, 0x1089E, 1), (0x108E0, 0x108F2, 1), (0x108F4, 0x108F5, 1), (0x10900, 0x10915, 1), (0x10920, 0x10939, 1),
   (0x10980, 0x109B7, 1), (0x109BE, 0x109BF, 1), (0x10A00, 0x10A00, 1), (0x10A01, 0x10A03, 9), (0x10A05, 0x10A06, 9),
   (0x10A0C, 0x10A0F, 9), (0x10A10, 0x10A13, 1), (0x10A15, 0x10A17, 1), (0x10A19, 0x10A35, 1), (0x10A38, 0x10A3A, 9),
   (0x10A3F, 0x10A3F, 9), (0x10A60, 0x10A7C, 1), (0x10A80, 0x10A9C, 1), (0x10AC0, 0x10AC7, 1), (0x10AC9, 0x10AE4, 1),
   (0x10AE5, 0x10AE6, 9), (0x10B00, 0x10B35, 1), (0x10B40, 0x10B55, 1), (0x10B60, 0x10B72, 1), (0x10B80, 0x10B91, 1),
   (0x10C00, 0x10C48, 1), (0x10C80, 0x10CB2, 1), (0x10CC0, 0x10CF2, 1), (0x10D00, 0x10D23, 1), (0x10D24, 0x10D27, 9),
   (0x10D30, 0x10D39, 6), (0x10E80, 0x10EA9, 1), (0x10EAB, 0x10EAC, 9), (0x10EB0, 0x10EB1, 1), (0x10F00, 0x10F1C, 1),
   (0x10F27, 0x10F27, 1), (0x10F30, 0x10F45, 1), (0x10F46, 0x10F50, 9), (0x10FB0, 0x10FC4, 1), (0x10FE0, 0x10FF6, 1),
   (0x11000, 0x11002, 9), (0x11003, 0x11037, 1), (0x11038, 0x11046, 9), (0x11066, 0x1106F, 6), (0x1107F, 0x11082, 9),
   (0x11083, 0x110AF, 1), (0x110B0, 0x110BA, 9), (0x110BD, 0x110BD, 2), (0x110CD, 0x110CD, 2), (0x110D0, 0x110E8, 1),
   (0x110F0, 0x110F9, 6), (0x11100, 0x11102, 9), (0x11103, 0x11126, 1), (0x11127, 0x11134, 9), (0x11136, 0x1113F, 6),
   (0x11144, 0x11144, 1), (0x11145, 0x11146, 9), (0x11147, 0x11147, 1), (0x11150, 0x11172, 1), (0x11173, 0x11173, 9),
   (0x11176, 0x11176, 1), (0x11180, 0x11182, 9), (0x11183, 0x111B2, 1), (0x111B3, 0x111C0, 9), (0x111C1, 0x111C4, 1),
   (0x111C9, 0x111CC, 9), (0x111CE, 0x111CF, 9), (0x111D0, 0x111D9, 6), (0x111DA, 0x111DA, 1), (0x111DC, 0x111DC, 1),
   (0x11200, 0x11211, 1), (0x11213, 0x1122B, 1), (0x1122C, 0x11237, 9), (0x1123E, 0x1123E, 9), (0x11280, 0x11286, 1),
   (0x11288, 0x11288, 1), (0x1128A, 0x1128D, 1), (0x1128F, 0x1129D, 1), (0x1129F, 0x112A8, 1), (0x112B0, 0x112DE, 1),
   (0x112DF, 0x112EA, 9), (0x112F0, 0x112F9, 6), (0x11300, 0x11303, 9), (0x11305, 0x1130C, 1), (0x1130F, 0x11310, 1),
   (0x11313, 0x11328, 1), (0x1132A, 0x11330, 1), (0x11332, 0x11333, 1), (0x11335, 0x11339, 1), (0x1133B, 0x1133C, 9),
   (0x1133D, 0x1133D, 1), (0x1133E, 0x11344, 9), (0x11347, 0x11348, 9), (0x1134B, 0x1134D, 9), (0x11350, 0x11350, 1),
   (0x11357, 0x11357, 9), (0x1135D, 0x11361, 1), (0x11362, 0x11363, 9), (0x11366, 0x1136C, 9), (0x11370, 0x11374, 9),
   (0x11400, 0x11434, 1), (0x11435, 0x11446, 9), (0x11447, 0x1144A, 1), (0x11450, 0x11459, 6), (0x1145E, 0x1145E, 9),
   (0x1145F, 0x11461, 1), (0x11480, 0x114AF, 1), (0x114B0, 0x114C3, 9), (0x114C4, 0x114C5, 1), (0x114C7, 0x114C7, 1),
   (0x114D0, 0x114D9, 6), (0x11580, 0x115AE, 1), (0x115AF, 0x115B5, 9), (0x115B8, 0x115C0, 9), (0x115D8, 0x115DB, 1),
   (0x115DC, 0x115DD, 9), (0x11600, 0x1162F, 1), (0x11630, 0x11640, 9), (0x11644, 0x11644, 1), (0x11650, 0x11659, 6),
   (0x11680, 0x116AA, 1), (0x116AB, 0x116B7, 9), (0x116B8, 0x116B8, 1), (0x116C0, 0x116C9, 6), (0x1171D, 0x1172B, 9),
   (0x11730, 0x11739, 6), (0x11800, 0x1182B, 1), (0x1182C, 0x1183A, 9), (0x118A0, 0x118DF, 1), (0x118E0, 0x118E9, 6),
   (0x118FF, 0x11906, 1), (0x11909, 0x11909, 1), (0x1190C, 0x11913, 1), (0x11915, 0x11916, 1), (0x11918, 0x1192F, 1),
   (0x11930, 0x11935, 9), (0x11937, 0x11938, 9), (0x1193B, 0x1193E, 9), (0x1193F, 0x1193F, 1), (0x11940, 0x11940, 9),
   (0x11941, 0x11941, 1), (0x11942, 0x11943, 9), (0x11950, 0x11959, 6), (0x119A0, 0x119A7, 1), (0x119AA, 0x119D0, 1),
   (0x119D1, 0x119D7, 9), (0x119DA, 0x119E0, 9), (0x119E1, 0x119E1, 1), (0x119E3, 0x119E3, 1), (0x119E4, 0x119E4, 9),
   (0x11A00, 0x11A00, 1), (0x11A01, 0x11A0A, 9), (0x11A0B, 0x11A32, 1), (0x11A33, 0x11A39, 9), (0x11A3A, 0x11A3A, 1),
   (0x11A3B, 0x11A3E, 9), (0x11A47, 0x11A47, 9), (0x11A50, 0x11A50, 1), (0x11A51, 0x11A5B, 9), (0x11A5C, 0x11A89, 1),
   (0x11A8A, 0x11A99, 9), (0x11A9D, 0x11A9D, 1), (0x11AC0, 0x11AF8, 1), (0x11C00, 0x11C08, 1), (0x11C0A, 0x11C2E, 1),
   (0x11C2F, 0x11C36, 9), (0x11C38, 0x11C3F, 9), (0x11C40, 0x11C40, 1), (0x11C50, 0x11C59, 6), (0x11C72, 0x11C8F, 1),
   (0x11C92, 0x11CA7, 9), (0x11CA9, 0x11CB6, 9), (0x11D00, 0x11D06, 1), (0x11D08, 0x11D09, 1), (0x11D0B, 0x11D30, 1),
   (0x11D31, 0x11D36, 9), (0x11D3A, 0x11D3A, 9), (0x11D3C, 0x11D3D, 9), (0x11D3F, 0x11D45, 9), (0x11D46, 0x11D46, 1),
   (0x11D47, 0x11D47, 9), (0x11D50, 0x11D59, 6), (0x11D60, 0x11D65, 1), (0x11D67, 0x11D68, 1), (0x11D6A, 0x11D89, 1),
   (0x11D8A, 0x11D8E, 9), (0x11D90, 0x11D91, 9), (0x11D93, 0x11D97, 9), (0x11D98, 0x11D98, 1), (0x11DA0, 0x11DA9, 6),
   (0x11EE0, 0x11EF2, 1), (0x11EF3, 0x11EF6, 9), (0x11FB0, 0x11FB0, 1), (0x12000, 0x12399, 1), (0x12400, 0x1246E, 1),
   (0x12480, 0x12543, 1), (0x13000, 0x1342E, 1), (0x13430, 0x13438, 2), (0x14400, 0x14646, 1), (0x16800, 0x16A38, 1),
   (0x16A40, 0x16A5E, 1), (0x16A60, 0x16A69, 6), (0x16AD0, 0x16AED, 1), (0x16AF0, 0x16AF4, 9), (0x16B00, 0x16B2F, 1),
   (0x16B30, 0x16B36, 9), (0x16B40, 0x16B43, 1), (0x16B50, 0x16B59, 6), (0x16B63, 0x16B77, 1), (0x16B7D, 0x16B8F, 1),
   (0x16E40, 0x16E7F, 1), (0x16F00, 0x16F4A, 1), (0x16F4F, 0x16F4F, 9), (0x16F50, 0x16F50, 1), (0x16F51, 0x16F87, 9),
   (0x16F8F, 0x16F92, 9), (0x16F93, 0x16F9F, 1), (0x16FE0, 0x16FE1, 1), (0x16FE3, 0x16FE3, 1), (0x16FE4, 0x16FE4, 9),
   (0x16FF0, 0x16FF1, 9), (0x1B000, 0x1B000, 3), (0x1B164, 0x1B167, 3), (0x1BC00, 0x1BC6A, 1), (0x1BC70, 0x1BC7C, 1),
   (0x1BC80, 0x1BC88, 1), (0x1BC90, 0x1BC99, 1), (0x1BC9D, 0x1BC9E, 9), (0x1BCA0, 0x1BCA3, 2), (0x1D165, 0x1D169, 9),
   (0x1D16D, 0x1D172, 9), (0x1D173, 0x1D17A, 2), (0x1D17B, 0x1D182, 9), (0x1D185, 0x1D18B, 9), (0x1D1AA, 0x1D1AD, 9),
   (0x1D242, 0x1D244, 9), (0x1D400, 0x1D454, 1), (0x1D456, 0x1D49C, 1), (0x1D49E, 0x1D49F, 1), (0x1D4A2, 0x1D4A2, 1),
   (0x1D4A5, 0x1D4A6, 1)]

/-- Word_Break. Part 4. -/
def wordRuns_4 : List (Nat × Nat × Nat) :=
  [
   (0x1D4A9, 0x1D4AC, 1), (0x1D4AE, 0x1D4B9, 1), (0x1D4BB, 0x1D4BB, 1), (0x1D4BD, 0x1D4C3, 1), (0x1D4C5, 0x1D505, 1),
   (0x1D507, 0x1D50A, 1), (0x1D50D, 0x1D514, 1), (0x1D516, 0x1D51C, 1), (0x1D51E, 0x1D539, 1), (0x1D53B, 0x1D53E, 1),
   (0x1D540, 0x1D544, 1), (0x1D546, 0x1D546, 1), (0x1D54A, 0x1D550, 1), (0x1D552, 0x1D6A5, 1), (0x1D6A8, 0x1D6C0, 1),
   (0x1D6C2, 0x1D6DA, 1), (0x1D6DC, 0x1D6FA, 1), (0x1D6FC, 0x1D714, 1), (0x1D716, 0x1D734, 1), (0x1D736, 0x1D74E, 1),
   (0x1D750, 0x1D76E, 1), (0x1D770, 0x1D788, 1), (0x1D78A, 0x1D7A8, 1), (0x1D7AA, 0x1D7C2, 1), (0x1D7C4, 0x1D7CB, 1),
   (0x1D7CE, 0x1D7FF, 6), (0x1DA00, 0x1DA36, 9), (0x1DA3B, 0x1DA6C, 9), (0x1DA75, 0x1DA75, 9), (0x1DA84, 0x1DA84, 9),
   (0x1DA9B, 0x1DA9F, 9), (0x1DAA1, 0x1DAAF, 9), (0x1E000, 0x1E006, 9), (0x1E008, 0x1E018, 9), (0x1E01B, 0x1E021, 9),
   (0x1E023, 0x1E024, 9), (0x1E026, 0x1E02A, 9), (0x1E100, 0x1E12C, 1), (0x1E130, 0x1E136, 9), (0x1E137, 0x1E13D, 1),
   (0x1E140, 0x1E149, 6), (0x1E14E, 0x1E14E, 1), (0x1E2C0, 0x1E2EB, 1), (0x1E2EC, 0x1E2EF, 9), (0x1E2F0, 0x1E2F9, 6),
   (0x1E800, 0x1E8C4, 1), (0x1E8D0, 0x1E8D6, 9), (0x1E900, 0x1E943, 1), (0x1E944, 0x1E94A, 9), (0x1E94B, 0x1E94B, 1),
   (0x1E950, 0x1E959, 6), (0x1EE00, 0x1EE03, 1), (0x1EE05, 0x1EE1F, 1), (0x1EE21, 0x1EE22, 1), (0x1EE24, 0x1EE24, 1),
   (0x1EE27, 0x1EE27, 1), (0x1EE29, 0x1EE32, 1), (0x1EE34, 0x1EE37, 1), (0x1EE39, 0x1EE39, 1), (0x1EE3B, 0x1EE3B, 1),
   (0x1EE42, 0x1EE42, 1), (0x1EE47, 0x1EE47, 1), (0x1EE49, 0x1EE49, 1), (0x1EE4B, 0x1EE4B, 1), (0x1EE4D, 0x1EE4F, 1),
   (0x1EE51, 0x1EE52, 1), (0x1EE54, 0x1EE54, 1), (0x1EE57, 0x1EE57, 1), (0x1EE59, 0x1EE59, 1), (0x1EE5B, 0x1EE5B, 1),
   (0x1EE5D, 0x1EE5D, 1), (0x1EE5F, 0x1EE5F, 1), (0x1EE61, 0x1EE62, 1), (0x1EE64, 0x1EE64, 1), (0x1EE67, 0x1EE6A, 1),
   (0x1EE6C, 0x1EE72, 1), (0x1EE74, 0x1EE77, 1), (0x1EE79, 0x1EE7C, 1), (0x1EE7E, 0x1EE7E, 1), (0x1EE80, 0x1EE89, 1),
   (0x1EE8B, 0x1EE9B, 1), (0x1EEA1, 0x1EEA3, 1), (0x1EEA5, 0x1EEA9, 1), (0x1EEAB, 0x1EEBB, 1), (0x1F130, 0x1F149, 1),
   (0x1F150, 0x1F169, 1), (0x1F170, 0x1F189, 1), (0x1F1E6, 0x1F1FF, 13), (0x1F3FB, 0x1F3FF, 9), (0x1FBF0, 0x1FBF9, 6),
   (0xE0001, 0xE0001, 2), (0xE0020, 0xE007F, 9), (0xE0100, 0xE01EF, 9)]

/-- Word_Break. -/
def wordRuns : List (Nat × Nat × Nat) :=
  wordRuns_1 ++ (wordRuns_2 ++ (wordRuns_3 ++ (wordRuns_4)))

end Verif.Spec
