import Verif.Spec.Ranges
/-!
# Break classes, widths and decomposition types of the Unicode standard, version 13.0

The lists are those of GraphemeBreakProperty.txt, WordBreakProperty.txt, SentenceBreakProperty.txt, LineBreak.txt,
EastAsianWidth.txt and UnicodeData.txt, for the values with few ranges. The names are the short ones of PropertyValueAliases.txt.
-/
namespace Verif.Spec

/-- Grapheme cluster break: names of values and the ranges of their code points. -/
def graphemeSets : List (String × List (Nat × Nat)) :=
  [("CN", [(0x0, 0x9), (0xB, 0xC), (0xE, 0x1F), (0x7F, 0x9F), (0xAD, 0xAD), (0x61C, 0x61C), (0x180E, 0x180E), (0x200B, 0x200B),
     (0x200E, 0x200F), (0x2028, 0x202E), (0x2060, 0x206F), (0xFEFF, 0xFEFF), (0xFFF0, 0xFFFB), (0x13430, 0x13438),
     (0x1BCA0, 0x1BCA3), (0x1D173, 0x1D17A), (0xE0000, 0xE001F), (0xE0080, 0xE00FF), (0xE01F0, 0xE0FFF)]),
   ("CR", [(0xD, 0xD)]),
   ("L", [(0x1100, 0x115F), (0xA960, 0xA97C)]),
   ("LF", [(0xA, 0xA)]),
   ("T", [(0x11A8, 0x11FF), (0xD7CB, 0xD7FB)]),
   ("V", [(0x1160, 0x11A7), (0xD7B0, 0xD7C6)]),
   ("PP", [(0x600, 0x605), (0x6DD, 0x6DD), (0x70F, 0x70F), (0x8E2, 0x8E2), (0xD4E, 0xD4E), (0x110BD, 0x110BD), (0x110CD, 0x110CD),
     (0x111C2, 0x111C3), (0x1193F, 0x1193F), (0x11941, 0x11941), (0x11A3A, 0x11A3A), (0x11A84, 0x11A89), (0x11D46, 0x11D46)]),
   ("RI", [(0x1F1E6, 0x1F1FF)]),
   ("ZWJ", [(0x200D, 0x200D)])]

/-- Word break: names of values and the ranges of their code points. -/
def wordSets : List (String × List (Nat × Nat)) :=
  [("FO", [(0xAD, 0xAD), (0x600, 0x605), (0x61C, 0x61C), (0x6DD, 0x6DD), (0x70F, 0x70F), (0x8E2, 0x8E2), (0x180E, 0x180E),
     (0x200E, 0x200F), (0x202A, 0x202E), (0x2060, 0x2064), (0x2066, 0x206F), (0xFEFF, 0xFEFF), (0xFFF9, 0xFFFB),
     (0x110BD, 0x110BD), (0x110CD, 0x110CD), (0x13430, 0x13438), (0x1BCA0, 0x1BCA3), (0x1D173, 0x1D17A), (0xE0001, 0xE0001)]),
   ("KA", [(0x3031, 0x3035), (0x309B, 0x309C), (0x30A0, 0x30FA), (0x30FC, 0x30FF), (0x31F0, 0x31FF), (0x32D0, 0x32FE), (0x3300, 0x3357),
     (0xFF66, 0xFF9D), (0x1B000, 0x1B000), (0x1B164, 0x1B167)]),
   ("ML", [(0x3A, 0x3A), (0xB7, 0xB7), (0x387, 0x387), (0x55F, 0x55F), (0x5F4, 0x5F4), (0x2027, 0x2027), (0xFE13, 0xFE13),
     (0xFE55, 0xFE55), (0xFF1A, 0xFF1A)]),
   ("MN", [(0x2C, 0x2C), (0x3B, 0x3B), (0x37E, 0x37E), (0x589, 0x589), (0x60C, 0x60D), (0x66C, 0x66C), (0x7F8, 0x7F8), (0x2044, 0x2044),
     (0xFE10, 0xFE10), (0xFE14, 0xFE14), (0xFE50, 0xFE50), (0xFE54, 0xFE54), (0xFF0C, 0xFF0C), (0xFF1B, 0xFF1B)]),
   ("EX", [(0x5F, 0x5F), (0x202F, 0x202F), (0x203F, 0x2040), (0x2054, 0x2054), (0xFE33, 0xFE34), (0xFE4D, 0xFE4F), (0xFF3F, 0xFF3F)]),
   ("CR", [(0xD, 0xD)]),
   ("LF", [(0xA, 0xA)]),
   ("MB", [(0x2E, 0x2E), (0x2018, 0x2019), (0x2024, 0x2024), (0xFE52, 0xFE52), (0xFF07, 0xFF07), (0xFF0E, 0xFF0E)]),
   ("NL", [(0xB, 0xC), (0x85, 0x85), (0x2028, 0x2029)]),
   ("RI", [(0x1F1E6, 0x1F1FF)]),
   ("HL", [(0x5D0, 0x5EA), (0x5EF, 0x5F2), (0xFB1D, 0xFB1D), (0xFB1F, 0xFB28), (0xFB2A, 0xFB36), (0xFB38, 0xFB3C), (0xFB3E, 0xFB3E),
     (0xFB40, 0xFB41), (0xFB43, 0xFB44), (0xFB46, 0xFB4F)]),
   ("SQ", [(0x27, 0x27)]),
   ("DQ", [(0x22, 0x22)]),
   ("ZWJ", [(0x200D, 0x200D)]),
   ("WSegSpace", [(0x20, 0x20), (0x1680, 0x1680), (0x2000, 0x2006), (0x2008, 0x200A), (0x205F, 0x205F), (0x3000, 0x3000)])]

/-- Sentence break: names of values and the ranges of their code points. -/
def sentenceSets : List (String × List (Nat × Nat)) :=
  [("AT", [(0x2E, 0x2E), (0x2024, 0x2024), (0xFE52, 0xFE52), (0xFF0E, 0xFF0E)]),
   ("FO", [(0xAD, 0xAD), (0x600, 0x605), (0x61C, 0x61C), (0x6DD, 0x6DD), (0x70F, 0x70F), (0x8E2, 0x8E2), (0x180E, 0x180E),
     (0x200B, 0x200B), (0x200E, 0x200F), (0x202A, 0x202E), (0x2060, 0x2064), (0x2066, 0x206F), (0xFEFF, 0xFEFF), (0xFFF9, 0xFFFB),
     (0x110BD, 0x110BD), (0x110CD, 0x110CD), (0x13430, 0x13438), (0x1BCA0, 0x1BCA3), (0x1D173, 0x1D17A), (0xE0001, 0xE0001)]),
   ("SE", [(0x85, 0x85), (0x2028, 0x2029)]),
   ("SP", [(0x9, 0x9), (0xB, 0xC), (0x20, 0x20), (0xA0, 0xA0), (0x1680, 0x1680), (0x2000, 0x200A), (0x202F, 0x202F), (0x205F, 0x205F),
     (0x3000, 0x3000)]),
   ("CR", [(0xD, 0xD)]),
   ("LF", [(0xA, 0xA)]),
   ("SC", [(0x2C, 0x2D), (0x3A, 0x3A), (0x55D, 0x55D), (0x60C, 0x60D), (0x7F8, 0x7F8), (0x1802, 0x1802), (0x1808, 0x1808),
     (0x2013, 0x2014), (0x3001, 0x3001), (0xFE10, 0xFE11), (0xFE13, 0xFE13), (0xFE31, 0xFE32), (0xFE50, 0xFE51), (0xFE55, 0xFE55),
     (0xFE58, 0xFE58), (0xFE63, 0xFE63), (0xFF0C, 0xFF0D), (0xFF1A, 0xFF1A), (0xFF64, 0xFF64)])]

/-- Line break: names of values and the ranges of their code points. -/
def lineSets : List (String × List (Nat × Nat)) :=
  [("B2", [(0x2014, 0x2014), (0x2E3A, 0x2E3B)]),
   ("BB", [(0xB4, 0xB4), (0x2C8, 0x2C8), (0x2CC, 0x2CC), (0x2DF, 0x2DF), (0xC77, 0xC77), (0xC84, 0xC84), (0xF01, 0xF04), (0xF06, 0xF07),
     (0xF09, 0xF0A), (0xFD0, 0xFD1), (0xFD3, 0xFD3), (0x1806, 0x1806), (0x1FFD, 0x1FFD), (0xA874, 0xA875), (0xA8FC, 0xA8FC),
     (0x11175, 0x11175), (0x111DB, 0x111DB), (0x115C1, 0x115C1), (0x11660, 0x1166C), (0x119E2, 0x119E2), (0x11A3F, 0x11A3F),
     (0x11A45, 0x11A45), (0x11A9E, 0x11AA0), (0x11C70, 0x11C70)]),
   ("BK", [(0xB, 0xC), (0x2028, 0x2029)]),
   ("CB", [(0xFFFC, 0xFFFC)]),
   ("CR", [(0xD, 0xD)]),
   ("EX", [(0x21, 0x21), (0x3F, 0x3F), (0x5C6, 0x5C6), (0x61B, 0x61B), (0x61E, 0x61F), (0x6D4, 0x6D4), (0x7F9, 0x7F9), (0xF0D, 0xF11),
     (0xF14, 0xF14), (0x1802, 0x1803), (0x1808, 0x1809), (0x1944, 0x1945), (0x2762, 0x2763), (0x2CF9, 0x2CF9), (0x2CFE, 0x2CFE),
     (0x2E2E, 0x2E2E), (0xA60E, 0xA60E), (0xA876, 0xA877), (0xFE15, 0xFE16), (0xFE56, 0xFE57), (0xFF01, 0xFF01), (0xFF1F, 0xFF1F),
     (0x115C4, 0x115C5), (0x11C71, 0x11C71)]),
   ("GL", [(0xA0, 0xA0), (0x34F, 0x34F), (0x35C, 0x362), (0xF08, 0xF08), (0xF0C, 0xF0C), (0xF12, 0xF12), (0xFD9, 0xFDA),
     (0x180E, 0x180E), (0x2007, 0x2007), (0x2011, 0x2011), (0x202F, 0x202F), (0x13430, 0x13436), (0x16FE4, 0x16FE4)]),
   ("HY", [(0x2D, 0x2D)]),
   ("IN", [(0x2024, 0x2026), (0x22EF, 0x22EF), (0xFE19, 0xFE19), (0x10AF6, 0x10AF6)]),
   ("IS", [(0x2C, 0x2C), (0x2E, 0x2E), (0x3A, 0x3B), (0x37E, 0x37E), (0x589, 0x589), (0x60C, 0x60D), (0x7F8, 0x7F8), (0x2044, 0x2044),
     (0xFE10, 0xFE10), (0xFE13, 0xFE14)]),
   ("LF", [(0xA, 0xA)]),
   ("NS", [(0x17D6, 0x17D6), (0x203C, 0x203D), (0x2047, 0x2049), (0x3005, 0x3005), (0x301C, 0x301C), (0x303B, 0x303C), (0x309B, 0x309E),
     (0x30A0, 0x30A0), (0x30FB, 0x30FB), (0x30FD, 0x30FE), (0xA015, 0xA015), (0xFE54, 0xFE55), (0xFF1A, 0xFF1B), (0xFF65, 0xFF65),
     (0xFF9E, 0xFF9F), (0x16FE0, 0x16FE3), (0x1F679, 0x1F67B)]),
   ("PO", [(0x25, 0x25), (0xA2, 0xA2), (0xB0, 0xB0), (0x609, 0x60B), (0x66A, 0x66A), (0x9F2, 0x9F3), (0x9F9, 0x9F9), (0xD79, 0xD79),
     (0x2030, 0x2037), (0x20A7, 0x20A7), (0x20B6, 0x20B6), (0x20BB, 0x20BB), (0x20BE, 0x20BE), (0x2103, 0x2103), (0x2109, 0x2109),
     (0xA838, 0xA838), (0xFDFC, 0xFDFC), (0xFE6A, 0xFE6A), (0xFF05, 0xFF05), (0xFFE0, 0xFFE0), (0x11FDD, 0x11FE0),
     (0x1ECAC, 0x1ECAC), (0x1ECB0, 0x1ECB0)]),
   ("PR", [(0x24, 0x24), (0x2B, 0x2B), (0x5C, 0x5C), (0xA3, 0xA5), (0xB1, 0xB1), (0x58F, 0x58F), (0x7FE, 0x7FF), (0x9FB, 0x9FB),
     (0xAF1, 0xAF1), (0xBF9, 0xBF9), (0xE3F, 0xE3F), (0x17DB, 0x17DB), (0x20A0, 0x20A6), (0x20A8, 0x20B5), (0x20B7, 0x20BA),
     (0x20BC, 0x20BD), (0x20BF, 0x20CF), (0x2116, 0x2116), (0x2212, 0x2213), (0xFE69, 0xFE69), (0xFF04, 0xFF04), (0xFFE1, 0xFFE1),
     (0xFFE5, 0xFFE6), (0x1E2FF, 0x1E2FF)]),
   ("QU", [(0x22, 0x22), (0x27, 0x27), (0xAB, 0xAB), (0xBB, 0xBB), (0x2018, 0x2019), (0x201B, 0x201D), (0x201F, 0x201F),
     (0x2039, 0x203A), (0x275B, 0x2760), (0x2E00, 0x2E0D), (0x2E1C, 0x2E1D), (0x2E20, 0x2E21), (0x1F676, 0x1F678)]),
   ("SG", [(0xD800, 0xDFFF)]),
   ("SP", [(0x20, 0x20)]),
   ("SY", [(0x2F, 0x2F)]),
   ("ZW", [(0x200B, 0x200B)]),
   ("NL", [(0x85, 0x85)]),
   ("WJ", [(0x2060, 0x2060), (0xFEFF, 0xFEFF)]),
   ("JL", [(0x1100, 0x115F), (0xA960, 0xA97C)]),
   ("JT", [(0x11A8, 0x11FF), (0xD7CB, 0xD7FB)]),
   ("JV", [(0x1160, 0x11A7), (0xD7B0, 0xD7C6)]),
   ("CP", [(0x29, 0x29), (0x5D, 0x5D)]),
   ("HL", [(0x5D0, 0x5EA), (0x5EF, 0x5F2), (0xFB1D, 0xFB1D), (0xFB1F, 0xFB28), (0xFB2A, 0xFB36), (0xFB38, 0xFB3C), (0xFB3E, 0xFB3E),
     (0xFB40, 0xFB41), (0xFB43, 0xFB44), (0xFB46, 0xFB4F)]),
   ("RI", [(0x1F1E6, 0x1F1FF)]),
   ("EM", [(0x1F3FB, 0x1F3FF)]),
   ("ZWJ", [(0x200D, 0x200D)])]

/-- East Asian width: names of values and the ranges of their code points. -/
def widthSets : List (String × List (Nat × Nat)) :=
  [("H", [(0x20A9, 0x20A9), (0xFF61, 0xFFBE), (0xFFC2, 0xFFC7), (0xFFCA, 0xFFCF), (0xFFD2, 0xFFD7), (0xFFDA, 0xFFDC), (0xFFE8, 0xFFEE)]),
   ("F", [(0x3000, 0x3000), (0xFF01, 0xFF60), (0xFFE0, 0xFFE6)]),
   ("Na", [(0x20, 0x7E), (0xA2, 0xA3), (0xA5, 0xA6), (0xAC, 0xAC), (0xAF, 0xAF), (0x27E6, 0x27ED), (0x2985, 0x2986)])]

/-- Decomposition type: names of values and the ranges of their code points. -/
def decompositionSets : List (String × List (Nat × Nat)) :=
  [("enc", [(0x2460, 0x2473), (0x24B6, 0x24EA), (0x3244, 0x3247), (0x3251, 0x327E), (0x3280, 0x32BF), (0x32D0, 0x32FE),
     (0x1F12B, 0x1F12E), (0x1F250, 0x1F251)]),
   ("fra", [(0xBC, 0xBE), (0x2150, 0x215F), (0x2189, 0x2189)]),
   ("nar", [(0xFF61, 0xFFBE), (0xFFC2, 0xFFC7), (0xFFCA, 0xFFCF), (0xFFD2, 0xFFD7), (0xFFDA, 0xFFDC), (0xFFE8, 0xFFEE)]),
   ("nb", [(0xA0, 0xA0), (0xF0C, 0xF0C), (0x2007, 0x2007), (0x2011, 0x2011), (0x202F, 0x202F)]),
   ("sml", [(0xFE50, 0xFE52), (0xFE54, 0xFE66), (0xFE68, 0xFE6B)]),
   ("sqr", [(0x3250, 0x3250), (0x32CC, 0x32CF), (0x32FF, 0x3357), (0x3371, 0x33DF), (0x33FF, 0x33FF), (0x1F130, 0x1F14F),
     (0x1F190, 0x1F190), (0x1F200, 0x1F202), (0x1F210, 0x1F23B)]),
   ("sub", [(0x1D62, 0x1D6A), (0x2080, 0x208E), (0x2090, 0x209C), (0x2C7C, 0x2C7C)]),
   ("sup", [(0xAA, 0xAA), (0xB2, 0xB3), (0xB9, 0xBA), (0x2B0, 0x2B8), (0x2E0, 0x2E4), (0x10FC, 0x10FC), (0x1D2C, 0x1D2E),
     (0x1D30, 0x1D3A), (0x1D3C, 0x1D4D), (0x1D4F, 0x1D61), (0x1D78, 0x1D78), (0x1D9B, 0x1DBF), (0x2070, 0x2071), (0x2074, 0x207F),
     (0x2120, 0x2120), (0x2122, 0x2122), (0x2C7D, 0x2C7D), (0x2D6F, 0x2D6F), (0x3192, 0x319F), (0xA69C, 0xA69D), (0xA770, 0xA770),
     (0xA7F8, 0xA7F9), (0xAB5C, 0xAB5F), (0xAB69, 0xAB69), (0x1F16A, 0x1F16C)]),
   ("vert", [(0x309F, 0x309F), (0x30FF, 0x30FF), (0xFE10, 0xFE19), (0xFE30, 0xFE44), (0xFE47, 0xFE48)]),
   ("wide", [(0x3000, 0x3000), (0xFF01, 0xFF60), (0xFFE0, 0xFFE6)])]

end Verif.Spec
