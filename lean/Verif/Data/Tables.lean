import Verif.Model.Dictionary
/-!
# The hand-written name dictionaries and constants

Generated by tools/gen_tables.py from the text of /repo.
-/
namespace Verif.Data.Hand

/-- UnicodeData/Blocks.py:788-1098 `blockNames`. -/
def blockNames : List (Key × String) :=
 [(.int 0, "No Block"),
  (.int 1, "ASCII"),
  (.int 2, "Latin 1 Sup"),
  (.int 3, "Latin Ext A"),
  (.int 4, "Latin Ext B"),
  (.int 5, "IPA Ext"),
  (.int 6, "Modifier Letters"),
  (.int 7, "Diacriticals"),
  (.int 8, "Greek"),
  (.int 9, "Cyrillic"),
  (.int 10, "Armenian"),
  (.int 11, "Hebrew"),
  (.int 12, "Arabic"),
  (.int 13, "Syriac"),
  (.int 14, "Thaana"),
  (.int 15, "Devanagari"),
  (.int 16, "Bengali"),
  (.int 17, "Gurmukhi"),
  (.int 18, "Gujarati"),
  (.int 19, "Oriya"),
  (.int 20, "Tamil"),
  (.int 21, "Telugu"),
  (.int 22, "Kannada"),
  (.int 23, "Malayalam"),
  (.int 24, "Sinhala"),
  (.int 25, "Thai"),
  (.int 26, "Lao"),
  (.int 27, "Tibetan"),
  (.int 28, "Myanmar"),
  (.int 29, "Georgian"),
  (.int 30, "Jamo"),
  (.int 31, "Ethiopic"),
  (.int 32, "Cherokee"),
  (.int 33, "UCAS"),
  (.int 34, "Ogham"),
  (.int 35, "Runic"),
  (.int 36, "Khmer"),
  (.int 37, "Mongolian"),
  (.int 38, "Latin Ext Additional"),
  (.int 39, "Greek Ext"),
  (.int 40, "Punctuation"),
  (.int 41, "Super And Sub"),
  (.int 42, "Currency Symbols"),
  (.int 43, "Diacriticals For Symbols"),
  (.int 44, "Letterlike Symbols"),
  (.int 45, "Number Forms"),
  (.int 46, "Arrows"),
  (.int 47, "Math Operators"),
  (.int 48, "Misc Technical"),
  (.int 49, "Control Pictures"),
  (.int 50, "OCR"),
  (.int 51, "Enclosed Alphanum"),
  (.int 52, "Box Drawing"),
  (.int 53, "Block Elements"),
  (.int 54, "Geometric Shapes"),
  (.int 55, "Misc Symbols"),
  (.int 56, "Dingbats"),
  (.int 57, "Braille"),
  (.int 58, "CJK Radicals Sup"),
  (.int 59, "Kangxi"),
  (.int 60, "IDC"),
  (.int 61, "CJK Symbols"),
  (.int 62, "Hiragana"),
  (.int 63, "Katakana"),
  (.int 64, "Bopomofo"),
  (.int 65, "Compat Jamo"),
  (.int 66, "Kanbun"),
  (.int 67, "Bopomofo Ext"),
  (.int 68, "Enclosed CJK"),
  (.int 69, "CJK Compat"),
  (.int 70, "CJK Ext A"),
  (.int 71, "CJK"),
  (.int 72, "Yi Syllables"),
  (.int 73, "Yi Radicals"),
  (.int 74, "Hangul"),
  (.int 75, "High Surrogates"),
  (.int 76, "High Private Use Surrogates"),
  (.int 77, "Low Surrogates"),
  (.int 78, "Private Use Area"),
  (.int 79, "CJK Compat Ideographs"),
  (.int 80, "Alphabetic PF"),
  (.int 81, "Arabic PF A"),
  (.int 82, "Half Marks"),
  (.int 83, "CJK Compat Forms"),
  (.int 84, "Small Forms"),
  (.int 85, "Arabic PF B"),
  (.int 86, "Specials"),
  (.int 87, "Half And Full Forms"),
  (.int 88, "Old Italic"),
  (.int 89, "Gothic"),
  (.int 90, "Deseret"),
  (.int 91, "Byzantine Music"),
  (.int 92, "Music"),
  (.int 93, "Math Alphanum"),
  (.int 94, "CJK Ext B"),
  (.int 95, "CJK Compat Ideographs Sup"),
  (.int 96, "Tags"),
  (.int 97, "Cyrillic Sup"),
  (.int 98, "Tagalog"),
  (.int 99, "Hanunoo"),
  (.int 100, "Buhid"),
  (.int 101, "Tagbanwa"),
  (.int 102, "Misc Math Symbols A"),
  (.int 103, "Sup Arrows A"),
  (.int 104, "Sup Arrows B"),
  (.int 105, "Misc Math Symbols B"),
  (.int 106, "Sup Math Operators"),
  (.int 107, "Katakana Ext"),
  (.int 108, "VS"),
  (.int 109, "Supary Private Use Area A"),
  (.int 110, "Supary Private Use Area B"),
  (.int 111, "Limbu"),
  (.int 112, "Tai Le"),
  (.int 113, "Khmer Symbols"),
  (.int 114, "Phonetic Ext"),
  (.int 115, "Misc Arrows"),
  (.int 116, "Yijing"),
  (.int 117, "Linear B Syllabary"),
  (.int 118, "Linear B Ideograms"),
  (.int 119, "Aegean Numbers"),
  (.int 120, "Ugaritic"),
  (.int 121, "Shavian"),
  (.int 122, "Osmanya"),
  (.int 123, "Cypriot Syllabary"),
  (.int 124, "Tai Xuan Jing"),
  (.int 125, "VS Sup"),
  (.int 126, "Ancient Greek Music"),
  (.int 127, "Ancient Greek Numbers"),
  (.int 128, "Arabic Sup"),
  (.int 129, "Buginese"),
  (.int 130, "CJK Strokes"),
  (.int 131, "Diacriticals Sup"),
  (.int 132, "Coptic"),
  (.int 133, "Ethiopic Ext"),
  (.int 134, "Ethiopic Sup"),
  (.int 135, "Georgian Sup"),
  (.int 136, "Glagolitic"),
  (.int 137, "Kharoshthi"),
  (.int 138, "Modifier Tone Letters"),
  (.int 139, "New Tai Lue"),
  (.int 140, "Old Persian"),
  (.int 141, "Phonetic Ext Sup"),
  (.int 142, "Sup Punctuation"),
  (.int 143, "Syloti Nagri"),
  (.int 144, "Tifinagh"),
  (.int 145, "Vertical Forms"),
  (.int 146, "NKo"),
  (.int 147, "Balinese"),
  (.int 148, "Latin Ext C"),
  (.int 149, "Latin Ext D"),
  (.int 150, "Phags Pa"),
  (.int 151, "Phoenician"),
  (.int 152, "Cuneiform"),
  (.int 153, "Cuneiform Numbers"),
  (.int 154, "Counting Rod"),
  (.int 155, "Sundanese"),
  (.int 156, "Lepcha"),
  (.int 157, "Ol Chiki"),
  (.int 158, "Cyrillic Ext A"),
  (.int 159, "Vai"),
  (.int 160, "Cyrillic Ext B"),
  (.int 161, "Saurashtra"),
  (.int 162, "Kayah Li"),
  (.int 163, "Rejang"),
  (.int 164, "Cham"),
  (.int 165, "Ancient Symbols"),
  (.int 166, "Phaistos"),
  (.int 167, "Lycian"),
  (.int 168, "Carian"),
  (.int 169, "Lydian"),
  (.int 170, "Mahjong"),
  (.int 171, "Domino"),
  (.int 172, "Samaritan"),
  (.int 173, "UCAS Ext"),
  (.int 174, "Tai Tham"),
  (.int 175, "Vedic Ext"),
  (.int 176, "Lisu"),
  (.int 177, "Bamum"),
  (.int 178, "Indic Number Forms"),
  (.int 179, "Devanagari Ext"),
  (.int 180, "Jamo Ext A"),
  (.int 181, "Javanese"),
  (.int 182, "Myanmar Ext A"),
  (.int 183, "Tai Viet"),
  (.int 184, "Meetei Mayek"),
  (.int 185, "Jamo Ext B"),
  (.int 186, "Imperial Aramaic"),
  (.int 187, "Old South Arabian"),
  (.int 188, "Avestan"),
  (.int 189, "Inscriptional Parthian"),
  (.int 190, "Inscriptional Pahlavi"),
  (.int 191, "Old Turkic"),
  (.int 192, "Rumi"),
  (.int 193, "Kaithi"),
  (.int 194, "Egyptian Hieroglyphs"),
  (.int 195, "Enclosed Alphanum Sup"),
  (.int 196, "Enclosed Ideographic Sup"),
  (.int 197, "CJK Ext C"),
  (.int 198, "Mandaic"),
  (.int 199, "Batak"),
  (.int 200, "Ethiopic Ext A"),
  (.int 201, "Brahmi"),
  (.int 202, "Bamum Sup"),
  (.int 203, "Kana Sup"),
  (.int 204, "Playing Cards"),
  (.int 205, "Misc Pictographs"),
  (.int 206, "Emoticons"),
  (.int 207, "Transport And Map"),
  (.int 208, "Alchemical"),
  (.int 209, "CJK Ext D"),
  (.int 210, "Arabic Ext A"),
  (.int 211, "Arabic Math"),
  (.int 212, "Chakma"),
  (.int 213, "Meetei Mayek Ext"),
  (.int 214, "Meroitic Cursive"),
  (.int 215, "Meroitic Hieroglyphs"),
  (.int 216, "Miao"),
  (.int 217, "Sharada"),
  (.int 218, "Sora Sompeng"),
  (.int 219, "Sundanese Sup"),
  (.int 220, "Takri"),
  (.int 221, "Bassa Vah"),
  (.int 222, "Caucasian Albanian"),
  (.int 223, "Coptic Epact Numbers"),
  (.int 224, "Diacriticals Ext"),
  (.int 225, "Duployan"),
  (.int 226, "Elbasan"),
  (.int 227, "Geometric Shapes Ext"),
  (.int 228, "Grantha"),
  (.int 229, "Khojki"),
  (.int 230, "Khudawadi"),
  (.int 231, "Latin Ext E"),
  (.int 232, "Linear A"),
  (.int 233, "Mahajani"),
  (.int 234, "Manichaean"),
  (.int 235, "Mende Kikakui"),
  (.int 236, "Modi"),
  (.int 237, "Mro"),
  (.int 238, "Myanmar Ext B"),
  (.int 239, "Nabataean"),
  (.int 240, "Old North Arabian"),
  (.int 241, "Old Permic"),
  (.int 242, "Ornamental Dingbats"),
  (.int 243, "Pahawh Hmong"),
  (.int 244, "Palmyrene"),
  (.int 245, "Pau Cin Hau"),
  (.int 246, "Psalter Pahlavi"),
  (.int 247, "Shorthand Format Controls"),
  (.int 248, "Siddham"),
  (.int 249, "Sinhala Archaic Numbers"),
  (.int 250, "Sup Arrows C"),
  (.int 251, "Tirhuta"),
  (.int 252, "Warang Citi"),
  (.int 253, "Ahom"),
  (.int 254, "Anatolian Hieroglyphs"),
  (.int 255, "Cherokee Sup"),
  (.int 256, "CJK Ext E"),
  (.int 257, "Early Dynastic Cuneiform"),
  (.int 258, "Hatran"),
  (.int 259, "Multani"),
  (.int 260, "Old Hungarian"),
  (.int 261, "Sup Symbols And Pictographs"),
  (.int 262, "Sutton SignWriting"),
  (.int 263, "Adlam"),
  (.int 264, "Bhaiksuki"),
  (.int 265, "Cyrillic Ext C"),
  (.int 266, "Glagolitic Sup"),
  (.int 267, "Ideographic Symbols"),
  (.int 268, "Marchen"),
  (.int 269, "Mongolian Sup"),
  (.int 270, "Newa"),
  (.int 271, "Osage"),
  (.int 272, "Tangut"),
  (.int 273, "Tangut Components"),
  (.int 274, "CJK Ext F"),
  (.int 275, "Kana Ext A"),
  (.int 276, "Masaram Gondi"),
  (.int 277, "Nushu"),
  (.int 278, "Soyombo"),
  (.int 279, "Syriac Sup"),
  (.int 280, "Zanabazar Square"),
  (.int 281, "Chess Symbols"),
  (.int 282, "Dogra"),
  (.int 283, "Georgian Ext"),
  (.int 284, "Gunjala Gondi"),
  (.int 285, "Hanifi Rohingya"),
  (.int 286, "Indic Siyaq Numbers"),
  (.int 287, "Makasar"),
  (.int 288, "Mayan Numerals"),
  (.int 289, "Medefaidrin"),
  (.int 290, "Old Sogdian"),
  (.int 291, "Sogdian"),
  (.int 292, "Egyptian Hieroglyph Format Controls"),
  (.int 293, "Elymaic"),
  (.int 294, "Nandinagari"),
  (.int 295, "Nyiakeng Puachue Hmong"),
  (.int 296, "Ottoman Siyaq Numbers"),
  (.int 297, "Small Kana Ext"),
  (.int 298, "Symbols And Pictographs Ext A"),
  (.int 299, "Tamil Sup"),
  (.int 300, "Wancho"),
  (.int 301, "Chorasmian"),
  (.int 302, "CJK Ext G"),
  (.int 303, "Dives Akuru"),
  (.int 304, "Khitan Small Script"),
  (.int 305, "Lisu Sup"),
  (.int 306, "Symbols For Legacy Computing"),
  (.int 307, "Tangut Sup"),
  (.int 308, "Yezidi")]

/-- UnicodeData/Boundaries.py:153-172 `graphemeClusterBreakNames`. -/
def graphemeClusterBreakNames : List (Key × String) :=
 [(.int 0, "XX"),
  (.int 1, "CN"),
  (.int 2, "CR"),
  (.int 3, "EX"),
  (.int 4, "L"),
  (.int 5, "LF"),
  (.int 6, "LV"),
  (.int 7, "LVT"),
  (.int 8, "T"),
  (.int 9, "V"),
  (.int 10, "SM"),
  (.int 11, "PP"),
  (.int 12, "RI"),
  (.int 13, "EB"),
  (.int 14, "EBG"),
  (.int 15, "EM"),
  (.int 16, "GAZ"),
  (.int 17, "ZWJ")]

/-- UnicodeData/Boundaries.py:174-198 `wordBreakNames`. -/
def wordBreakNames : List (Key × String) :=
 [(.int 0, "XX"),
  (.int 1, "LE"),
  (.int 2, "FO"),
  (.int 3, "KA"),
  (.int 4, "ML"),
  (.int 5, "MN"),
  (.int 6, "NU"),
  (.int 7, "EX"),
  (.int 8, "CR"),
  (.int 9, "Extend"),
  (.int 10, "LF"),
  (.int 11, "MB"),
  (.int 12, "NL"),
  (.int 13, "RI"),
  (.int 14, "HL"),
  (.int 15, "SQ"),
  (.int 16, "DQ"),
  (.int 17, "EB"),
  (.int 18, "EBG"),
  (.int 19, "EM"),
  (.int 20, "GAZ"),
  (.int 21, "ZWJ"),
  (.int 22, "WSEGSPACE")]

/-- UnicodeData/Boundaries.py:200-216 `sentenceBreakNames`. -/
def sentenceBreakNames : List (Key × String) :=
 [(.int 0, "XX"),
  (.int 1, "AT"),
  (.int 2, "CL"),
  (.int 3, "FO"),
  (.int 4, "LO"),
  (.int 5, "NU"),
  (.int 6, "LE"),
  (.int 7, "SE"),
  (.int 8, "SP"),
  (.int 9, "ST"),
  (.int 10, "UP"),
  (.int 11, "CR"),
  (.int 12, "EX"),
  (.int 13, "LF"),
  (.int 14, "SC")]

/-- UnicodeData/Boundaries.py:218-262 `lineBreakNames`. -/
def lineBreakNames : List (Key × String) :=
 [(.int 0, "XX"),
  (.int 1, "AI"),
  (.int 2, "AL"),
  (.int 3, "B2"),
  (.int 4, "BA"),
  (.int 5, "BB"),
  (.int 6, "BK"),
  (.int 7, "CB"),
  (.int 8, "CL"),
  (.int 9, "CM"),
  (.int 10, "CR"),
  (.int 11, "EX"),
  (.int 12, "GL"),
  (.int 13, "HY"),
  (.int 14, "ID"),
  (.int 15, "IN"),
  (.int 16, "IS"),
  (.int 17, "LF"),
  (.int 18, "NS"),
  (.int 19, "NU"),
  (.int 20, "OP"),
  (.int 21, "PO"),
  (.int 22, "PR"),
  (.int 23, "QU"),
  (.int 24, "SA"),
  (.int 25, "SG"),
  (.int 26, "SP"),
  (.int 27, "SY"),
  (.int 28, "ZW"),
  (.int 29, "NL"),
  (.int 30, "WJ"),
  (.int 31, "H2"),
  (.int 32, "H3"),
  (.int 33, "JL"),
  (.int 34, "JT"),
  (.int 35, "JV"),
  (.int 36, "CP"),
  (.int 37, "CJ"),
  (.int 38, "HL"),
  (.int 39, "RI"),
  (.int 40, "EB"),
  (.int 41, "EM"),
  (.int 42, "ZWJ")]

/-- UnicodeData/CharDirection.py:56-103 `bidiClassNames`. -/
def bidiClassNames : List (Key × String) :=
 [(.int 0, "L"),
  (.int 1, "R"),
  (.int 2, "EN"),
  (.int 3, "ES"),
  (.int 4, "ET"),
  (.int 5, "AN"),
  (.int 6, "CS"),
  (.int 7, "B"),
  (.int 8, "S"),
  (.int 9, "WS"),
  (.int 10, "ON"),
  (.int 11, "LRE"),
  (.int 12, "LRO"),
  (.int 13, "AL"),
  (.int 14, "RLE"),
  (.int 15, "RLO"),
  (.int 16, "PDF"),
  (.int 17, "NSM"),
  (.int 18, "BN"),
  (.int 19, "FSI"),
  (.int 20, "LRI"),
  (.int 21, "RLI"),
  (.int 22, "PDI")]

/-- UnicodeData/DecompositionType.py:28-47 `decompositionTypeNames`. -/
def decompositionTypeNames : List (Key × String) :=
 [(.int 0, "none"),
  (.int 1, "can"),
  (.int 2, "com"),
  (.int 3, "enc"),
  (.int 4, "fin"),
  (.int 5, "font"),
  (.int 6, "fra"),
  (.int 7, "init"),
  (.int 8, "iso"),
  (.int 9, "med"),
  (.int 10, "nar"),
  (.int 11, "nb"),
  (.int 12, "sml"),
  (.int 13, "sqr"),
  (.int 14, "sub"),
  (.int 15, "sup"),
  (.int 16, "vert"),
  (.int 17, "wide")]

/-- UnicodeData/EastAsianWidth.py:16-23 `eastAsianWidthNames`. -/
def eastAsianWidthNames : List (Key × String) :=
 [(.int 0, "N"),
  (.int 1, "A"),
  (.int 2, "H"),
  (.int 3, "F"),
  (.int 4, "Na"),
  (.int 5, "W")]

/-- UnicodeData/GeneralCategories.py:175-206 `generalCategories`. -/
def generalCategories : List (Key × String) :=
 [(.int 0, "Cn"),
  (.int 1, "Lu"),
  (.int 2, "Ll"),
  (.int 3, "Lt"),
  (.int 4, "Lm"),
  (.int 5, "Lo"),
  (.int 6, "Mn"),
  (.int 7, "Me"),
  (.int 8, "Mc"),
  (.int 9, "Nd"),
  (.int 10, "Nl"),
  (.int 11, "No"),
  (.int 12, "Zs"),
  (.int 13, "Zl"),
  (.int 14, "Zp"),
  (.int 15, "Cc"),
  (.int 16, "Cf"),
  (.int 17, "Co"),
  (.int 18, "Cs"),
  (.int 19, "Pd"),
  (.int 20, "Ps"),
  (.int 21, "Pe"),
  (.int 22, "Pc"),
  (.int 23, "Po"),
  (.int 24, "Sm"),
  (.int 25, "Sc"),
  (.int 26, "Sk"),
  (.int 27, "So"),
  (.int 28, "Pi"),
  (.int 29, "Pf")]

/-- UnicodeData/JoiningTypesAndGroups.py:16-23 `joiningTypes`. -/
def joiningTypes : List (Key × String) :=
 [(.int 0, "U"),
  (.int 1, "C"),
  (.int 2, "D"),
  (.int 3, "L"),
  (.int 4, "R"),
  (.int 5, "T")]

/-- UnicodeData/JoiningTypesAndGroups.py:129-232 `joiningGroups`. -/
def joiningGroups : List (Key × String) :=
 [(.int 0, "No Joining Group"),
  (.int 1, "Ain"),
  (.int 2, "Alaph"),
  (.int 3, "Alef"),
  (.int 4, "Beh"),
  (.int 5, "Beth"),
  (.int 6, "Dal"),
  (.int 7, "Dalath Rish"),
  (.int 8, "E"),
  (.int 9, "Feh"),
  (.int 10, "Final Semkath"),
  (.int 11, "Gaf"),
  (.int 12, "Gamal"),
  (.int 13, "Hah"),
  (.int 14, "Teh Marbuta Goal"),
  (.int 15, "He"),
  (.int 16, "Heh"),
  (.int 17, "Heh Goal"),
  (.int 18, "Heth"),
  (.int 19, "Kaf"),
  (.int 20, "Kaph"),
  (.int 21, "Knotted Heh"),
  (.int 22, "Lam"),
  (.int 23, "Lamadh"),
  (.int 24, "Meem"),
  (.int 25, "Mim"),
  (.int 26, "Noon"),
  (.int 27, "Nun"),
  (.int 28, "Pe"),
  (.int 29, "Qaf"),
  (.int 30, "Qaph"),
  (.int 31, "Reh"),
  (.int 32, "Reversed Pe"),
  (.int 33, "Sad"),
  (.int 34, "Sadhe"),
  (.int 35, "Seen"),
  (.int 36, "Semkath"),
  (.int 37, "Shin"),
  (.int 38, "Swash Kaf"),
  (.int 39, "Syriac Waw"),
  (.int 40, "Tah"),
  (.int 41, "Taw"),
  (.int 42, "Teh Marbuta"),
  (.int 43, "Teth"),
  (.int 44, "Waw"),
  (.int 45, "Yeh"),
  (.int 46, "Yeh Barree"),
  (.int 47, "Yeh With Tail"),
  (.int 48, "Yudh"),
  (.int 49, "Yudh He"),
  (.int 50, "Zain"),
  (.int 51, "Fe"),
  (.int 52, "Khaph"),
  (.int 53, "Zhain"),
  (.int 54, "Burushaski Yeh Barree"),
  (.int 55, "Farsi Yeh"),
  (.int 56, "Nya"),
  (.int 57, "Rohingya Yeh"),
  (.int 58, "Manichaean Aleph"),
  (.int 59, "Manichaean Ayin"),
  (.int 60, "Manichaean Beth"),
  (.int 61, "Manichaean Daleth"),
  (.int 62, "Manichaean Dhamedh"),
  (.int 63, "Manichaean Five"),
  (.int 64, "Manichaean Gimel"),
  (.int 65, "Manichaean Heth"),
  (.int 66, "Manichaean Hundred"),
  (.int 67, "Manichaean Kaph"),
  (.int 68, "Manichaean Lamedh"),
  (.int 69, "Manichaean Mem"),
  (.int 70, "Manichaean Nun"),
  (.int 71, "Manichaean One"),
  (.int 72, "Manichaean Pe"),
  (.int 73, "Manichaean Qoph"),
  (.int 74, "Manichaean Resh"),
  (.int 75, "Manichaean Sadhe"),
  (.int 76, "Manichaean Samekh"),
  (.int 77, "Manichaean Taw"),
  (.int 78, "Manichaean Ten"),
  (.int 79, "Manichaean Teth"),
  (.int 80, "Manichaean Thamedh"),
  (.int 81, "Manichaean Twenty"),
  (.int 82, "Manichaean Waw"),
  (.int 83, "Manichaean Yodh"),
  (.int 84, "Manichaean Zayin"),
  (.int 85, "Straight Waw"),
  (.int 86, "African Feh"),
  (.int 87, "African Noon"),
  (.int 88, "African Qaf"),
  (.int 89, "Malayalam Bha"),
  (.int 90, "Malayalam Ja"),
  (.int 91, "Malayalam Lla"),
  (.int 92, "Malayalam Llla"),
  (.int 93, "Malayalam Nga"),
  (.int 94, "Malayalam Nna"),
  (.int 95, "Malayalam Nnna"),
  (.int 96, "Malayalam Nya"),
  (.int 97, "Malayalam Ra"),
  (.int 98, "Malayalam Ssa"),
  (.int 99, "Malayalam Tta"),
  (.int 100, "Hanifi Rohingya Kinna Ya"),
  (.int 101, "Hanifi Rohingya Pa")]

/-- UnicodeData/LayoutTypes.py:71-88 `inpcNames`. -/
def inpcNames : List (Key × String) :=
 [(.int 0, "NA"),
  (.int 1, "Bottom"),
  (.int 2, "Bottom_And_Left"),
  (.int 3, "Bottom_And_Right"),
  (.int 4, "Left"),
  (.int 5, "Left_And_Right"),
  (.int 6, "Overstruck"),
  (.int 7, "Right"),
  (.int 8, "Top"),
  (.int 9, "Top_And_Bottom"),
  (.int 10, "Top_And_Bottom_And_Right"),
  (.int 11, "Top_And_Left"),
  (.int 12, "Top_And_Left_And_Right"),
  (.int 13, "Top_And_Right"),
  (.int 14, "Visual_Order_Left"),
  (.int 15, "Top_And_Bottom_And_Left")]

/-- UnicodeData/LayoutTypes.py:90-127 `inscNames`. -/
def inscNames : List (Key × String) :=
 [(.int 0, "Other"),
  (.int 1, "Avagraha"),
  (.int 2, "Bindu"),
  (.int 3, "Brahmi_Joining_Number"),
  (.int 4, "Cantillation_Mark"),
  (.int 5, "Consonant"),
  (.int 6, "Consonant_Dead"),
  (.int 7, "Consonant_Final"),
  (.int 8, "Consonant_Head_Letter"),
  (.int 9, "Consonant_Initial_Postfixed"),
  (.int 10, "Consonant_Killer"),
  (.int 11, "Consonant_Medial"),
  (.int 12, "Consonant_Placeholder"),
  (.int 13, "Consonant_Preceding_Repha"),
  (.int 14, "Consonant_Prefixed"),
  (.int 15, "Consonant_Subjoined"),
  (.int 16, "Consonant_Succeeding_Repha"),
  (.int 17, "Consonant_With_Stacker"),
  (.int 18, "Gemination_Mark"),
  (.int 19, "Invisible_Stacker"),
  (.int 20, "Joiner"),
  (.int 21, "Modifying_Letter"),
  (.int 22, "Non_Joiner"),
  (.int 23, "Nukta"),
  (.int 24, "Number"),
  (.int 25, "Number_Joiner"),
  (.int 26, "Pure_Killer"),
  (.int 27, "Register_Shifter"),
  (.int 28, "Syllable_Modifier"),
  (.int 29, "Tone_Letter"),
  (.int 30, "Tone_Mark"),
  (.int 31, "Virama"),
  (.int 32, "Visarga"),
  (.int 33, "Vowel"),
  (.int 34, "Vowel_Dependent"),
  (.int 35, "Vowel_Independent")]

/-- UnicodeData/LayoutTypes.py:129-134 `voNames`. -/
def voNames : List (Key × String) :=
 [(.int 0, "R"),
  (.int 1, "Tr"),
  (.int 2, "Tu"),
  (.int 3, "U")]

/-- UnicodeData/Scripts.py:221-430 `scriptCodes`. -/
def scriptCodes : List (Key × String) :=
 [(.int 0, "Zyyy"),
  (.int 1, "Zinh"),
  (.int 2, "Arab"),
  (.int 3, "Armn"),
  (.int 4, "Beng"),
  (.int 5, "Bopo"),
  (.int 6, "Cher"),
  (.int 7, "Copt"),
  (.int 8, "Cyrl"),
  (.int 9, "Dsrt"),
  (.int 10, "Deva"),
  (.int 11, "Ethi"),
  (.int 12, "Geor"),
  (.int 13, "Goth"),
  (.int 14, "Grek"),
  (.int 15, "Gujr"),
  (.int 16, "Guru"),
  (.int 17, "Hani"),
  (.int 18, "Hang"),
  (.int 19, "Hebr"),
  (.int 20, "Hira"),
  (.int 21, "Knda"),
  (.int 22, "Kana"),
  (.int 23, "Khmr"),
  (.int 24, "Laoo"),
  (.int 25, "Latn"),
  (.int 26, "Mlym"),
  (.int 27, "Mong"),
  (.int 28, "Mymr"),
  (.int 29, "Ogam"),
  (.int 30, "Ital"),
  (.int 31, "Orya"),
  (.int 32, "Runr"),
  (.int 33, "Sinh"),
  (.int 34, "Syrc"),
  (.int 35, "Taml"),
  (.int 36, "Telu"),
  (.int 37, "Thaa"),
  (.int 38, "Thai"),
  (.int 39, "Tibt"),
  (.int 40, "Cans"),
  (.tuple 40, "Cans"),
  (.int 41, "Yiii"),
  (.int 42, "Tglg"),
  (.int 43, "Hano"),
  (.int 44, "Buhd"),
  (.int 45, "Tagb"),
  (.int 46, "Brai"),
  (.int 47, "Cprt"),
  (.int 48, "Limb"),
  (.int 49, "Linb"),
  (.int 50, "Osma"),
  (.int 51, "Shaw"),
  (.int 52, "Tale"),
  (.int 53, "Ugar"),
  (.int 54, "Hrkt"),
  (.int 55, "Bugi"),
  (.int 56, "Glag"),
  (.int 57, "Khar"),
  (.int 58, "Sylo"),
  (.int 59, "Talu"),
  (.int 60, "Tfng"),
  (.int 61, "Xpeo"),
  (.int 62, "Bali"),
  (.int 63, "Batk"),
  (.int 64, "Blis"),
  (.int 65, "Brah"),
  (.int 66, "Cham"),
  (.int 67, "Cirt"),
  (.int 68, "Cyrs"),
  (.int 69, "Egyd"),
  (.int 70, "Egyh"),
  (.int 71, "Egyp"),
  (.int 72, "Geok"),
  (.int 73, "Hans"),
  (.int 74, "Hant"),
  (.int 75, "Hmng"),
  (.int 76, "Hung"),
  (.int 77, "Inds"),
  (.int 78, "Java"),
  (.int 79, "Kali"),
  (.int 80, "Latf"),
  (.int 81, "Latg"),
  (.int 82, "Lepc"),
  (.int 83, "Lina"),
  (.int 84, "Mand"),
  (.tuple 84, "Mand"),
  (.int 85, "Maya"),
  (.int 86, "Mero"),
  (.tuple 86, "Mero"),
  (.int 87, "Nkoo"),
  (.int 88, "Orkh"),
  (.int 89, "Perm"),
  (.int 90, "Phag"),
  (.int 91, "Phnx"),
  (.int 92, "Plrd"),
  (.tuple 92, "Plrd"),
  (.int 93, "Roro"),
  (.int 94, "Sara"),
  (.int 95, "Syre"),
  (.int 96, "Syrj"),
  (.int 97, "Syrn"),
  (.int 98, "Teng"),
  (.int 99, "Vaii"),
  (.int 100, "Visp"),
  (.int 101, "Xsux"),
  (.int 102, "Zxxx"),
  (.int 103, "Zzzz"),
  (.int 104, "Cari"),
  (.int 105, "Jpan"),
  (.int 106, "Lana"),
  (.int 107, "Lyci"),
  (.int 108, "Lydi"),
  (.int 109, "Olck"),
  (.int 110, "Rjng"),
  (.int 111, "Saur"),
  (.int 112, "Sgnw"),
  (.int 113, "Sund"),
  (.int 114, "Moon"),
  (.int 115, "Mtei"),
  (.int 116, "Armi"),
  (.int 117, "Avst"),
  (.int 118, "Cakm"),
  (.int 119, "Kore"),
  (.int 120, "Kthi"),
  (.int 121, "Mani"),
  (.int 122, "Phli"),
  (.int 123, "Phlp"),
  (.int 124, "Phlv"),
  (.int 125, "Prti"),
  (.int 126, "Samr"),
  (.int 127, "Tavt"),
  (.int 128, "Zmth"),
  (.int 129, "Zsym"),
  (.int 130, "Bamu"),
  (.int 131, "Lisu"),
  (.int 132, "Nkgb"),
  (.int 133, "Sarb"),
  (.int 134, "Bass"),
  (.int 135, "Dupl"),
  (.int 136, "Elba"),
  (.int 137, "Gran"),
  (.int 138, "Kpel"),
  (.int 139, "Loma"),
  (.int 140, "Mend"),
  (.int 141, "Merc"),
  (.int 142, "Narb"),
  (.int 143, "Nbat"),
  (.int 144, "Palm"),
  (.int 145, "Sind"),
  (.tuple 145, "Sind"),
  (.int 146, "Wara"),
  (.int 147, "Afak"),
  (.int 148, "Jurc"),
  (.int 149, "Mroo"),
  (.int 150, "Nshu"),
  (.int 151, "Shrd"),
  (.int 152, "Sora"),
  (.int 153, "Takr"),
  (.int 154, "Tang"),
  (.int 155, "Wole"),
  (.int 156, "Hluw"),
  (.int 157, "Khoj"),
  (.int 158, "Tirh"),
  (.int 159, "Aghb"),
  (.int 160, "Mahj"),
  (.int 161, "Ahom"),
  (.int 162, "Hatr"),
  (.int 163, "Modi"),
  (.int 164, "Mult"),
  (.int 165, "Pauc"),
  (.int 166, "Sidd"),
  (.int 167, "Adlm"),
  (.int 168, "Bhks"),
  (.int 169, "Marc"),
  (.int 170, "Newa"),
  (.int 171, "Osge"),
  (.int 172, "Hanb"),
  (.int 173, "Jamo"),
  (.int 174, "Zsye"),
  (.int 175, "Gonm"),
  (.int 176, "Soyo"),
  (.int 177, "Zanb"),
  (.int 178, "Dogr"),
  (.int 179, "Gong"),
  (.int 180, "Maka"),
  (.int 181, "Medf"),
  (.int 182, "Rohg"),
  (.int 183, "Sogd"),
  (.int 184, "Sogo"),
  (.int 185, "Elym"),
  (.int 186, "Hmnp"),
  (.int 187, "Nand"),
  (.int 188, "Wcho"),
  (.int 189, "Chrs"),
  (.int 190, "Diak"),
  (.int 191, "Kits"),
  (.int 192, "Yezi")]

/-- Constants of the hand-written modules with their values there and in uchar_h.py or uscript_h.py, part 0. -/
def constants0 : List (String × Key × Key) :=
 [("UBLOCK_NO_BLOCK", .int 0, .int 0),
  ("UBLOCK_BASIC_LATIN", .int 1, .int 1),
  ("UBLOCK_LATIN_1_SUPPLEMENT", .int 2, .int 2),
  ("UBLOCK_LATIN_EXTENDED_A", .int 3, .int 3),
  ("UBLOCK_LATIN_EXTENDED_B", .int 4, .int 4),
  ("UBLOCK_IPA_EXTENSIONS", .int 5, .int 5),
  ("UBLOCK_SPACING_MODIFIER_LETTERS", .int 6, .int 6),
  ("UBLOCK_COMBINING_DIACRITICAL_MARKS", .int 7, .int 7),
  ("UBLOCK_GREEK", .int 8, .int 8),
  ("UBLOCK_CYRILLIC", .int 9, .int 9),
  ("UBLOCK_ARMENIAN", .int 10, .int 10),
  ("UBLOCK_HEBREW", .int 11, .int 11),
  ("UBLOCK_ARABIC", .int 12, .int 12),
  ("UBLOCK_SYRIAC", .int 13, .int 13),
  ("UBLOCK_THAANA", .int 14, .int 14),
  ("UBLOCK_DEVANAGARI", .int 15, .int 15),
  ("UBLOCK_BENGALI", .int 16, .int 16),
  ("UBLOCK_GURMUKHI", .int 17, .int 17),
  ("UBLOCK_GUJARATI", .int 18, .int 18),
  ("UBLOCK_ORIYA", .int 19, .int 19),
  ("UBLOCK_TAMIL", .int 20, .int 20),
  ("UBLOCK_TELUGU", .int 21, .int 21),
  ("UBLOCK_KANNADA", .int 22, .int 22),
  ("UBLOCK_MALAYALAM", .int 23, .int 23),
  ("UBLOCK_SINHALA", .int 24, .int 24),
  ("UBLOCK_THAI", .int 25, .int 25),
  ("UBLOCK_LAO", .int 26, .int 26),
  ("UBLOCK_TIBETAN", .int 27, .int 27),
  ("UBLOCK_MYANMAR", .int 28, .int 28),
  ("UBLOCK_GEORGIAN", .int 29, .int 29),
  ("UBLOCK_HANGUL_JAMO", .int 30, .int 30),
  ("UBLOCK_ETHIOPIC", .int 31, .int 31),
  ("UBLOCK_CHEROKEE", .int 32, .int 32),
  ("UBLOCK_UNIFIED_CANADIAN_ABORIGINAL_SYLLABICS", .int 33, .int 33),
  ("UBLOCK_OGHAM", .int 34, .int 34),
  ("UBLOCK_RUNIC", .int 35, .int 35),
  ("UBLOCK_KHMER", .int 36, .int 36),
  ("UBLOCK_MONGOLIAN", .int 37, .int 37),
  ("UBLOCK_LATIN_EXTENDED_ADDITIONAL", .int 38, .int 38),
  ("UBLOCK_GREEK_EXTENDED", .int 39, .int 39),
  ("UBLOCK_GENERAL_PUNCTUATION", .int 40, .int 40),
  ("UBLOCK_SUPERSCRIPTS_AND_SUBSCRIPTS", .int 41, .int 41),
  ("UBLOCK_CURRENCY_SYMBOLS", .int 42, .int 42),
  ("UBLOCK_COMBINING_MARKS_FOR_SYMBOLS", .int 43, .int 43),
  ("UBLOCK_LETTERLIKE_SYMBOLS", .int 44, .int 44),
  ("UBLOCK_NUMBER_FORMS", .int 45, .int 45),
  ("UBLOCK_ARROWS", .int 46, .int 46),
  ("UBLOCK_MATHEMATICAL_OPERATORS", .int 47, .int 47),
  ("UBLOCK_MISCELLANEOUS_TECHNICAL", .int 48, .int 48),
  ("UBLOCK_CONTROL_PICTURES", .int 49, .int 49),
  ("UBLOCK_OPTICAL_CHARACTER_RECOGNITION", .int 50, .int 50),
  ("UBLOCK_ENCLOSED_ALPHANUMERICS", .int 51, .int 51),
  ("UBLOCK_BOX_DRAWING", .int 52, .int 52),
  ("UBLOCK_BLOCK_ELEMENTS", .int 53, .int 53),
  ("UBLOCK_GEOMETRIC_SHAPES", .int 54, .int 54),
  ("UBLOCK_MISCELLANEOUS_SYMBOLS", .int 55, .int 55),
  ("UBLOCK_DINGBATS", .int 56, .int 56),
  ("UBLOCK_BRAILLE_PATTERNS", .int 57, .int 57),
  ("UBLOCK_CJK_RADICALS_SUPPLEMENT", .int 58, .int 58),
  ("UBLOCK_KANGXI_RADICALS", .int 59, .int 59),
  ("UBLOCK_IDEOGRAPHIC_DESCRIPTION_CHARACTERS", .int 60, .int 60),
  ("UBLOCK_CJK_SYMBOLS_AND_PUNCTUATION", .int 61, .int 61),
  ("UBLOCK_HIRAGANA", .int 62, .int 62),
  ("UBLOCK_KATAKANA", .int 63, .int 63)]

/-- Constants of the hand-written modules with their values there and in uchar_h.py or uscript_h.py, part 1. -/
def constants1 : List (String × Key × Key) :=
 [("UBLOCK_BOPOMOFO", .int 64, .int 64),
  ("UBLOCK_HANGUL_COMPATIBILITY_JAMO", .int 65, .int 65),
  ("UBLOCK_KANBUN", .int 66, .int 66),
  ("UBLOCK_BOPOMOFO_EXTENDED", .int 67, .int 67),
  ("UBLOCK_ENCLOSED_CJK_LETTERS_AND_MONTHS", .int 68, .int 68),
  ("UBLOCK_CJK_COMPATIBILITY", .int 69, .int 69),
  ("UBLOCK_CJK_UNIFIED_IDEOGRAPHS_EXTENSION_A", .int 70, .int 70),
  ("UBLOCK_CJK_UNIFIED_IDEOGRAPHS", .int 71, .int 71),
  ("UBLOCK_YI_SYLLABLES", .int 72, .int 72),
  ("UBLOCK_YI_RADICALS", .int 73, .int 73),
  ("UBLOCK_HANGUL_SYLLABLES", .int 74, .int 74),
  ("UBLOCK_HIGH_SURROGATES", .int 75, .int 75),
  ("UBLOCK_HIGH_PRIVATE_USE_SURROGATES", .int 76, .int 76),
  ("UBLOCK_LOW_SURROGATES", .int 77, .int 77),
  ("UBLOCK_PRIVATE_USE_AREA", .int 78, .int 78),
  ("UBLOCK_PRIVATE_USE", .tuple 78, .int 78),
  ("UBLOCK_CJK_COMPATIBILITY_IDEOGRAPHS", .int 79, .int 79),
  ("UBLOCK_ALPHABETIC_PRESENTATION_FORMS", .int 80, .int 80),
  ("UBLOCK_ARABIC_PRESENTATION_FORMS_A", .int 81, .int 81),
  ("UBLOCK_COMBINING_HALF_MARKS", .int 82, .int 82),
  ("UBLOCK_CJK_COMPATIBILITY_FORMS", .int 83, .int 83),
  ("UBLOCK_SMALL_FORM_VARIANTS", .int 84, .int 84),
  ("UBLOCK_ARABIC_PRESENTATION_FORMS_B", .int 85, .int 85),
  ("UBLOCK_SPECIALS", .int 86, .int 86),
  ("UBLOCK_HALFWIDTH_AND_FULLWIDTH_FORMS", .int 87, .int 87),
  ("UBLOCK_OLD_ITALIC", .int 88, .int 88),
  ("UBLOCK_GOTHIC", .int 89, .int 89),
  ("UBLOCK_DESERET", .int 90, .int 90),
  ("UBLOCK_BYZANTINE_MUSICAL_SYMBOLS", .int 91, .int 91),
  ("UBLOCK_MUSICAL_SYMBOLS", .int 92, .int 92),
  ("UBLOCK_MATHEMATICAL_ALPHANUMERIC_SYMBOLS", .int 93, .int 93),
  ("UBLOCK_CJK_UNIFIED_IDEOGRAPHS_EXTENSION_B", .int 94, .int 94),
  ("UBLOCK_CJK_COMPATIBILITY_IDEOGRAPHS_SUPPLEMENT", .int 95, .int 95),
  ("UBLOCK_TAGS", .int 96, .int 96),
  ("UBLOCK_CYRILLIC_SUPPLEMENT", .int 97, .int 97),
  ("UBLOCK_CYRILLIC_SUPPLEMENTARY", .tuple 97, .int 97),
  ("UBLOCK_TAGALOG", .int 98, .int 98),
  ("UBLOCK_HANUNOO", .int 99, .int 99),
  ("UBLOCK_BUHID", .int 100, .int 100),
  ("UBLOCK_TAGBANWA", .int 101, .int 101),
  ("UBLOCK_MISCELLANEOUS_MATHEMATICAL_SYMBOLS_A", .int 102, .int 102),
  ("UBLOCK_SUPPLEMENTAL_ARROWS_A", .int 103, .int 103),
  ("UBLOCK_SUPPLEMENTAL_ARROWS_B", .int 104, .int 104),
  ("UBLOCK_MISCELLANEOUS_MATHEMATICAL_SYMBOLS_B", .int 105, .int 105),
  ("UBLOCK_SUPPLEMENTAL_MATHEMATICAL_OPERATORS", .int 106, .int 106),
  ("UBLOCK_KATAKANA_PHONETIC_EXTENSIONS", .int 107, .int 107),
  ("UBLOCK_VARIATION_SELECTORS", .int 108, .int 108),
  ("UBLOCK_SUPPLEMENTARY_PRIVATE_USE_AREA_A", .int 109, .int 109),
  ("UBLOCK_SUPPLEMENTARY_PRIVATE_USE_AREA_B", .int 110, .int 110),
  ("UBLOCK_LIMBU", .int 111, .int 111),
  ("UBLOCK_TAI_LE", .int 112, .int 112),
  ("UBLOCK_KHMER_SYMBOLS", .int 113, .int 113),
  ("UBLOCK_PHONETIC_EXTENSIONS", .int 114, .int 114),
  ("UBLOCK_MISCELLANEOUS_SYMBOLS_AND_ARROWS", .int 115, .int 115),
  ("UBLOCK_YIJING_HEXAGRAM_SYMBOLS", .int 116, .int 116),
  ("UBLOCK_LINEAR_B_SYLLABARY", .int 117, .int 117),
  ("UBLOCK_LINEAR_B_IDEOGRAMS", .int 118, .int 118),
  ("UBLOCK_AEGEAN_NUMBERS", .int 119, .int 119),
  ("UBLOCK_UGARITIC", .int 120, .int 120),
  ("UBLOCK_SHAVIAN", .int 121, .int 121),
  ("UBLOCK_OSMANYA", .int 122, .int 122),
  ("UBLOCK_CYPRIOT_SYLLABARY", .int 123, .int 123),
  ("UBLOCK_TAI_XUAN_JING_SYMBOLS", .int 124, .int 124),
  ("UBLOCK_VARIATION_SELECTORS_SUPPLEMENT", .int 125, .int 125)]

/-- Constants of the hand-written modules with their values there and in uchar_h.py or uscript_h.py, part 2. -/
def constants2 : List (String × Key × Key) :=
 [("UBLOCK_ANCIENT_GREEK_MUSICAL_NOTATION", .int 126, .int 126),
  ("UBLOCK_ANCIENT_GREEK_NUMBERS", .int 127, .int 127),
  ("UBLOCK_ARABIC_SUPPLEMENT", .int 128, .int 128),
  ("UBLOCK_BUGINESE", .int 129, .int 129),
  ("UBLOCK_CJK_STROKES", .int 130, .int 130),
  ("UBLOCK_COMBINING_DIACRITICAL_MARKS_SUPPLEMENT", .int 131, .int 131),
  ("UBLOCK_COPTIC", .int 132, .int 132),
  ("UBLOCK_ETHIOPIC_EXTENDED", .int 133, .int 133),
  ("UBLOCK_ETHIOPIC_SUPPLEMENT", .int 134, .int 134),
  ("UBLOCK_GEORGIAN_SUPPLEMENT", .int 135, .int 135),
  ("UBLOCK_GLAGOLITIC", .int 136, .int 136),
  ("UBLOCK_KHAROSHTHI", .int 137, .int 137),
  ("UBLOCK_MODIFIER_TONE_LETTERS", .int 138, .int 138),
  ("UBLOCK_NEW_TAI_LUE", .int 139, .int 139),
  ("UBLOCK_OLD_PERSIAN", .int 140, .int 140),
  ("UBLOCK_PHONETIC_EXTENSIONS_SUPPLEMENT", .int 141, .int 141),
  ("UBLOCK_SUPPLEMENTAL_PUNCTUATION", .int 142, .int 142),
  ("UBLOCK_SYLOTI_NAGRI", .int 143, .int 143),
  ("UBLOCK_TIFINAGH", .int 144, .int 144),
  ("UBLOCK_VERTICAL_FORMS", .int 145, .int 145),
  ("UBLOCK_NKO", .int 146, .int 146),
  ("UBLOCK_BALINESE", .int 147, .int 147),
  ("UBLOCK_LATIN_EXTENDED_C", .int 148, .int 148),
  ("UBLOCK_LATIN_EXTENDED_D", .int 149, .int 149),
  ("UBLOCK_PHAGS_PA", .int 150, .int 150),
  ("UBLOCK_PHOENICIAN", .int 151, .int 151),
  ("UBLOCK_CUNEIFORM", .int 152, .int 152),
  ("UBLOCK_CUNEIFORM_NUMBERS_AND_PUNCTUATION", .int 153, .int 153),
  ("UBLOCK_COUNTING_ROD_NUMERALS", .int 154, .int 154),
  ("UBLOCK_SUNDANESE", .int 155, .int 155),
  ("UBLOCK_LEPCHA", .int 156, .int 156),
  ("UBLOCK_OL_CHIKI", .int 157, .int 157),
  ("UBLOCK_CYRILLIC_EXTENDED_A", .int 158, .int 158),
  ("UBLOCK_VAI", .int 159, .int 159),
  ("UBLOCK_CYRILLIC_EXTENDED_B", .int 160, .int 160),
  ("UBLOCK_SAURASHTRA", .int 161, .int 161),
  ("UBLOCK_KAYAH_LI", .int 162, .int 162),
  ("UBLOCK_REJANG", .int 163, .int 163),
  ("UBLOCK_CHAM", .int 164, .int 164),
  ("UBLOCK_ANCIENT_SYMBOLS", .int 165, .int 165),
  ("UBLOCK_PHAISTOS_DISC", .int 166, .int 166),
  ("UBLOCK_LYCIAN", .int 167, .int 167),
  ("UBLOCK_CARIAN", .int 168, .int 168),
  ("UBLOCK_LYDIAN", .int 169, .int 169),
  ("UBLOCK_MAHJONG_TILES", .int 170, .int 170),
  ("UBLOCK_DOMINO_TILES", .int 171, .int 171),
  ("UBLOCK_SAMARITAN", .int 172, .int 172),
  ("UBLOCK_UNIFIED_CANADIAN_ABORIGINAL_SYLLABICS_EXTENDED", .int 173, .int 173),
  ("UBLOCK_TAI_THAM", .int 174, .int 174),
  ("UBLOCK_VEDIC_EXTENSIONS", .int 175, .int 175),
  ("UBLOCK_LISU", .int 176, .int 176),
  ("UBLOCK_BAMUM", .int 177, .int 177),
  ("UBLOCK_COMMON_INDIC_NUMBER_FORMS", .int 178, .int 178),
  ("UBLOCK_DEVANAGARI_EXTENDED", .int 179, .int 179),
  ("UBLOCK_HANGUL_JAMO_EXTENDED_A", .int 180, .int 180),
  ("UBLOCK_JAVANESE", .int 181, .int 181),
  ("UBLOCK_MYANMAR_EXTENDED_A", .int 182, .int 182),
  ("UBLOCK_TAI_VIET", .int 183, .int 183),
  ("UBLOCK_MEETEI_MAYEK", .int 184, .int 184),
  ("UBLOCK_HANGUL_JAMO_EXTENDED_B", .int 185, .int 185),
  ("UBLOCK_IMPERIAL_ARAMAIC", .int 186, .int 186),
  ("UBLOCK_OLD_SOUTH_ARABIAN", .int 187, .int 187),
  ("UBLOCK_AVESTAN", .int 188, .int 188),
  ("UBLOCK_INSCRIPTIONAL_PARTHIAN", .int 189, .int 189)]

/-- Constants of the hand-written modules with their values there and in uchar_h.py or uscript_h.py, part 3. -/
def constants3 : List (String × Key × Key) :=
 [("UBLOCK_INSCRIPTIONAL_PAHLAVI", .int 190, .int 190),
  ("UBLOCK_OLD_TURKIC", .int 191, .int 191),
  ("UBLOCK_RUMI_NUMERAL_SYMBOLS", .int 192, .int 192),
  ("UBLOCK_KAITHI", .int 193, .int 193),
  ("UBLOCK_EGYPTIAN_HIEROGLYPHS", .int 194, .int 194),
  ("UBLOCK_ENCLOSED_ALPHANUMERIC_SUPPLEMENT", .int 195, .int 195),
  ("UBLOCK_ENCLOSED_IDEOGRAPHIC_SUPPLEMENT", .int 196, .int 196),
  ("UBLOCK_CJK_UNIFIED_IDEOGRAPHS_EXTENSION_C", .int 197, .int 197),
  ("UBLOCK_MANDAIC", .int 198, .int 198),
  ("UBLOCK_BATAK", .int 199, .int 199),
  ("UBLOCK_ETHIOPIC_EXTENDED_A", .int 200, .int 200),
  ("UBLOCK_BRAHMI", .int 201, .int 201),
  ("UBLOCK_BAMUM_SUPPLEMENT", .int 202, .int 202),
  ("UBLOCK_KANA_SUPPLEMENT", .int 203, .int 203),
  ("UBLOCK_PLAYING_CARDS", .int 204, .int 204),
  ("UBLOCK_MISCELLANEOUS_SYMBOLS_AND_PICTOGRAPHS", .int 205, .int 205),
  ("UBLOCK_EMOTICONS", .int 206, .int 206),
  ("UBLOCK_TRANSPORT_AND_MAP_SYMBOLS", .int 207, .int 207),
  ("UBLOCK_ALCHEMICAL_SYMBOLS", .int 208, .int 208),
  ("UBLOCK_CJK_UNIFIED_IDEOGRAPHS_EXTENSION_D", .int 209, .int 209),
  ("UBLOCK_ARABIC_EXTENDED_A", .int 210, .int 210),
  ("UBLOCK_ARABIC_MATHEMATICAL_ALPHABETIC_SYMBOLS", .int 211, .int 211),
  ("UBLOCK_CHAKMA", .int 212, .int 212),
  ("UBLOCK_MEETEI_MAYEK_EXTENSIONS", .int 213, .int 213),
  ("UBLOCK_MEROITIC_CURSIVE", .int 214, .int 214),
  ("UBLOCK_MEROITIC_HIEROGLYPHS", .int 215, .int 215),
  ("UBLOCK_MIAO", .int 216, .int 216),
  ("UBLOCK_SHARADA", .int 217, .int 217),
  ("UBLOCK_SORA_SOMPENG", .int 218, .int 218),
  ("UBLOCK_SUNDANESE_SUPPLEMENT", .int 219, .int 219),
  ("UBLOCK_TAKRI", .int 220, .int 220),
  ("UBLOCK_BASSA_VAH", .int 221, .int 221),
  ("UBLOCK_CAUCASIAN_ALBANIAN", .int 222, .int 222),
  ("UBLOCK_COPTIC_EPACT_NUMBERS", .int 223, .int 223),
  ("UBLOCK_COMBINING_DIACRITICAL_MARKS_EXTENDED", .int 224, .int 224),
  ("UBLOCK_DUPLOYAN", .int 225, .int 225),
  ("UBLOCK_ELBASAN", .int 226, .int 226),
  ("UBLOCK_GEOMETRIC_SHAPES_EXTENDED", .int 227, .int 227),
  ("UBLOCK_GRANTHA", .int 228, .int 228),
  ("UBLOCK_KHOJKI", .int 229, .int 229),
  ("UBLOCK_KHUDAWADI", .int 230, .int 230),
  ("UBLOCK_LATIN_EXTENDED_E", .int 231, .int 231),
  ("UBLOCK_LINEAR_A", .int 232, .int 232),
  ("UBLOCK_MAHAJANI", .int 233, .int 233),
  ("UBLOCK_MANICHAEAN", .int 234, .int 234),
  ("UBLOCK_MENDE_KIKAKUI", .int 235, .int 235),
  ("UBLOCK_MODI", .int 236, .int 236),
  ("UBLOCK_MRO", .int 237, .int 237),
  ("UBLOCK_MYANMAR_EXTENDED_B", .int 238, .int 238),
  ("UBLOCK_NABATAEAN", .int 239, .int 239),
  ("UBLOCK_OLD_NORTH_ARABIAN", .int 240, .int 240),
  ("UBLOCK_OLD_PERMIC", .int 241, .int 241),
  ("UBLOCK_ORNAMENTAL_DINGBATS", .int 242, .int 242),
  ("UBLOCK_PAHAWH_HMONG", .int 243, .int 243),
  ("UBLOCK_PALMYRENE", .int 244, .int 244),
  ("UBLOCK_PAU_CIN_HAU", .int 245, .int 245),
  ("UBLOCK_PSALTER_PAHLAVI", .int 246, .int 246),
  ("UBLOCK_SHORTHAND_FORMAT_CONTROLS", .int 247, .int 247),
  ("UBLOCK_SIDDHAM", .int 248, .int 248),
  ("UBLOCK_SINHALA_ARCHAIC_NUMBERS", .int 249, .int 249),
  ("UBLOCK_SUPPLEMENTAL_ARROWS_C", .int 250, .int 250),
  ("UBLOCK_TIRHUTA", .int 251, .int 251),
  ("UBLOCK_WARANG_CITI", .int 252, .int 252),
  ("UBLOCK_AHOM", .int 253, .int 253)]

/-- Constants of the hand-written modules with their values there and in uchar_h.py or uscript_h.py, part 4. -/
def constants4 : List (String × Key × Key) :=
 [("UBLOCK_ANATOLIAN_HIEROGLYPHS", .int 254, .int 254),
  ("UBLOCK_CHEROKEE_SUPPLEMENT", .int 255, .int 255),
  ("UBLOCK_CJK_UNIFIED_IDEOGRAPHS_EXTENSION_E", .int 256, .int 256),
  ("UBLOCK_EARLY_DYNASTIC_CUNEIFORM", .int 257, .int 257),
  ("UBLOCK_HATRAN", .int 258, .int 258),
  ("UBLOCK_MULTANI", .int 259, .int 259),
  ("UBLOCK_OLD_HUNGARIAN", .int 260, .int 260),
  ("UBLOCK_SUPPLEMENTAL_SYMBOLS_AND_PICTOGRAPHS", .int 261, .int 261),
  ("UBLOCK_SUTTON_SIGNWRITING", .int 262, .int 262),
  ("UBLOCK_ADLAM", .int 263, .int 263),
  ("UBLOCK_BHAIKSUKI", .int 264, .int 264),
  ("UBLOCK_CYRILLIC_EXTENDED_C", .int 265, .int 265),
  ("UBLOCK_GLAGOLITIC_SUPPLEMENT", .int 266, .int 266),
  ("UBLOCK_IDEOGRAPHIC_SYMBOLS_AND_PUNCTUATION", .int 267, .int 267),
  ("UBLOCK_MARCHEN", .int 268, .int 268),
  ("UBLOCK_MONGOLIAN_SUPPLEMENT", .int 269, .int 269),
  ("UBLOCK_NEWA", .int 270, .int 270),
  ("UBLOCK_OSAGE", .int 271, .int 271),
  ("UBLOCK_TANGUT", .int 272, .int 272),
  ("UBLOCK_TANGUT_COMPONENTS", .int 273, .int 273),
  ("UBLOCK_CJK_UNIFIED_IDEOGRAPHS_EXTENSION_F", .int 274, .int 274),
  ("UBLOCK_KANA_EXTENDED_A", .int 275, .int 275),
  ("UBLOCK_MASARAM_GONDI", .int 276, .int 276),
  ("UBLOCK_NUSHU", .int 277, .int 277),
  ("UBLOCK_SOYOMBO", .int 278, .int 278),
  ("UBLOCK_SYRIAC_SUPPLEMENT", .int 279, .int 279),
  ("UBLOCK_ZANABAZAR_SQUARE", .int 280, .int 280),
  ("UBLOCK_CHESS_SYMBOLS", .int 281, .int 281),
  ("UBLOCK_DOGRA", .int 282, .int 282),
  ("UBLOCK_GEORGIAN_EXTENDED", .int 283, .int 283),
  ("UBLOCK_GUNJALA_GONDI", .int 284, .int 284),
  ("UBLOCK_HANIFI_ROHINGYA", .int 285, .int 285),
  ("UBLOCK_INDIC_SIYAQ_NUMBERS", .int 286, .int 286),
  ("UBLOCK_MAKASAR", .int 287, .int 287),
  ("UBLOCK_MAYAN_NUMERALS", .int 288, .int 288),
  ("UBLOCK_MEDEFAIDRIN", .int 289, .int 289),
  ("UBLOCK_OLD_SOGDIAN", .int 290, .int 290),
  ("UBLOCK_SOGDIAN", .int 291, .int 291),
  ("UBLOCK_EGYPTIAN_HIEROGLYPH_FORMAT_CONTROLS", .int 292, .int 292),
  ("UBLOCK_ELYMAIC", .int 293, .int 293),
  ("UBLOCK_NANDINAGARI", .int 294, .int 294),
  ("UBLOCK_NYIAKENG_PUACHUE_HMONG", .int 295, .int 295),
  ("UBLOCK_OTTOMAN_SIYAQ_NUMBERS", .int 296, .int 296),
  ("UBLOCK_SMALL_KANA_EXTENSION", .int 297, .int 297),
  ("UBLOCK_SYMBOLS_AND_PICTOGRAPHS_EXTENDED_A", .int 298, .int 298),
  ("UBLOCK_TAMIL_SUPPLEMENT", .int 299, .int 299),
  ("UBLOCK_WANCHO", .int 300, .int 300),
  ("UBLOCK_CHORASMIAN", .int 301, .int 301),
  ("UBLOCK_CJK_UNIFIED_IDEOGRAPHS_EXTENSION_G", .int 302, .int 302),
  ("UBLOCK_DIVES_AKURU", .int 303, .int 303),
  ("UBLOCK_KHITAN_SMALL_SCRIPT", .int 304, .int 304),
  ("UBLOCK_LISU_SUPPLEMENT", .int 305, .int 305),
  ("UBLOCK_SYMBOLS_FOR_LEGACY_COMPUTING", .int 306, .int 306),
  ("UBLOCK_TANGUT_SUPPLEMENT", .int 307, .int 307),
  ("UBLOCK_YEZIDI", .int 308, .int 308),
  ("GCB_OTHER", .int 0, .int 0),
  ("GCB_CONTROL", .int 1, .int 1),
  ("GCB_CR", .int 2, .int 2),
  ("GCB_EXTEND", .int 3, .int 3),
  ("GCB_L", .int 4, .int 4),
  ("GCB_LF", .int 5, .int 5),
  ("GCB_LV", .int 6, .int 6),
  ("GCB_LVT", .int 7, .int 7),
  ("GCB_T", .int 8, .int 8)]

/-- Constants of the hand-written modules with their values there and in uchar_h.py or uscript_h.py, part 5. -/
def constants5 : List (String × Key × Key) :=
 [("GCB_V", .int 9, .int 9),
  ("GCB_SPACING_MARK", .int 10, .int 10),
  ("GCB_PREPEND", .int 11, .int 11),
  ("GCB_REGIONAL_INDICATOR", .int 12, .int 12),
  ("GCB_E_BASE", .int 13, .int 13),
  ("GCB_E_BASE_GAZ", .int 14, .int 14),
  ("GCB_E_MODIFIER", .int 15, .int 15),
  ("GCB_GLUE_AFTER_ZWJ", .int 16, .int 16),
  ("GCB_ZWJ", .int 17, .int 17),
  ("WB_OTHER", .int 0, .int 0),
  ("WB_ALETTER", .int 1, .int 1),
  ("WB_FORMAT", .int 2, .int 2),
  ("WB_KATAKANA", .int 3, .int 3),
  ("WB_MIDLETTER", .int 4, .int 4),
  ("WB_MIDNUM", .int 5, .int 5),
  ("WB_NUMERIC", .int 6, .int 6),
  ("WB_EXTENDNUMLET", .int 7, .int 7),
  ("WB_CR", .int 8, .int 8),
  ("WB_EXTEND", .int 9, .int 9),
  ("WB_LF", .int 10, .int 10),
  ("WB_MIDNUMLET", .int 11, .int 11),
  ("WB_NEWLINE", .int 12, .int 12),
  ("WB_REGIONAL_INDICATOR", .int 13, .int 13),
  ("WB_HEBREW_LETTER", .int 14, .int 14),
  ("WB_SINGLE_QUOTE", .int 15, .int 15),
  ("WB_DOUBLE_QUOTE", .int 16, .int 16),
  ("WB_E_BASE", .int 17, .int 17),
  ("WB_E_BASE_GAZ", .int 18, .int 18),
  ("WB_E_MODIFIER", .int 19, .int 19),
  ("WB_GLUE_AFTER_ZWJ", .int 20, .int 20),
  ("WB_ZWJ", .int 21, .int 21),
  ("WB_WSEGSPACE", .int 22, .int 22),
  ("SB_OTHER", .int 0, .int 0),
  ("SB_ATERM", .int 1, .int 1),
  ("SB_CLOSE", .int 2, .int 2),
  ("SB_FORMAT", .int 3, .int 3),
  ("SB_LOWER", .int 4, .int 4),
  ("SB_NUMERIC", .int 5, .int 5),
  ("SB_OLETTER", .int 6, .int 6),
  ("SB_SEP", .int 7, .int 7),
  ("SB_SP", .int 8, .int 8),
  ("SB_STERM", .int 9, .int 9),
  ("SB_UPPER", .int 10, .int 10),
  ("SB_CR", .int 11, .int 11),
  ("SB_EXTEND", .int 12, .int 12),
  ("SB_LF", .int 13, .int 13),
  ("SB_SCONTINUE", .int 14, .int 14),
  ("LB_UNKNOWN", .int 0, .int 0),
  ("LB_AMBIGUOUS", .int 1, .int 1),
  ("LB_ALPHABETIC", .int 2, .int 2),
  ("LB_BREAK_BOTH", .int 3, .int 3),
  ("LB_BREAK_AFTER", .int 4, .int 4),
  ("LB_BREAK_BEFORE", .int 5, .int 5),
  ("LB_MANDATORY_BREAK", .int 6, .int 6),
  ("LB_CONTINGENT_BREAK", .int 7, .int 7),
  ("LB_CLOSE_PUNCTUATION", .int 8, .int 8),
  ("LB_COMBINING_MARK", .int 9, .int 9),
  ("LB_CARRIAGE_RETURN", .int 10, .int 10),
  ("LB_EXCLAMATION", .int 11, .int 11),
  ("LB_GLUE", .int 12, .int 12),
  ("LB_HYPHEN", .int 13, .int 13),
  ("LB_IDEOGRAPHIC", .int 14, .int 14),
  ("LB_INSEPARABLE", .int 15, .int 15),
  ("LB_INFIX_NUMERIC", .int 16, .int 16)]

/-- Constants of the hand-written modules with their values there and in uchar_h.py or uscript_h.py, part 6. -/
def constants6 : List (String × Key × Key) :=
 [("LB_LINE_FEED", .int 17, .int 17),
  ("LB_NONSTARTER", .int 18, .int 18),
  ("LB_NUMERIC", .int 19, .int 19),
  ("LB_OPEN_PUNCTUATION", .int 20, .int 20),
  ("LB_POSTFIX_NUMERIC", .int 21, .int 21),
  ("LB_PREFIX_NUMERIC", .int 22, .int 22),
  ("LB_QUOTATION", .int 23, .int 23),
  ("LB_COMPLEX_CONTEXT", .int 24, .int 24),
  ("LB_SURROGATE", .int 25, .int 25),
  ("LB_SPACE", .int 26, .int 26),
  ("LB_BREAK_SYMBOLS", .int 27, .int 27),
  ("LB_ZWSPACE", .int 28, .int 28),
  ("LB_NEXT_LINE", .int 29, .int 29),
  ("LB_WORD_JOINER", .int 30, .int 30),
  ("LB_H2", .int 31, .int 31),
  ("LB_H3", .int 32, .int 32),
  ("LB_JL", .int 33, .int 33),
  ("LB_JT", .int 34, .int 34),
  ("LB_JV", .int 35, .int 35),
  ("LB_CLOSE_PARENTHESIS", .int 36, .int 36),
  ("LB_CONDITIONAL_JAPANESE_STARTER", .int 37, .int 37),
  ("LB_HEBREW_LETTER", .int 38, .int 38),
  ("LB_REGIONAL_INDICATOR", .int 39, .int 39),
  ("LB_E_BASE", .int 40, .int 40),
  ("LB_E_MODIFIER", .int 41, .int 41),
  ("LB_ZWJ", .int 42, .int 42),
  ("U_LEFT_TO_RIGHT", .int 0, .int 0),
  ("U_RIGHT_TO_LEFT", .int 1, .int 1),
  ("U_EUROPEAN_NUMBER", .int 2, .int 2),
  ("U_EUROPEAN_NUMBER_SEPARATOR", .int 3, .int 3),
  ("U_EUROPEAN_NUMBER_TERMINATOR", .int 4, .int 4),
  ("U_ARABIC_NUMBER", .int 5, .int 5),
  ("U_COMMON_NUMBER_SEPARATOR", .int 6, .int 6),
  ("U_BLOCK_SEPARATOR", .int 7, .int 7),
  ("U_SEGMENT_SEPARATOR", .int 8, .int 8),
  ("U_WHITE_SPACE_NEUTRAL", .int 9, .int 9),
  ("U_OTHER_NEUTRAL", .int 10, .int 10),
  ("U_LEFT_TO_RIGHT_EMBEDDING", .int 11, .int 11),
  ("U_LEFT_TO_RIGHT_OVERRIDE", .int 12, .int 12),
  ("U_RIGHT_TO_LEFT_ARABIC", .int 13, .int 13),
  ("U_RIGHT_TO_LEFT_EMBEDDING", .int 14, .int 14),
  ("U_RIGHT_TO_LEFT_OVERRIDE", .int 15, .int 15),
  ("U_POP_DIRECTIONAL_FORMAT", .int 16, .int 16),
  ("U_DIR_NON_SPACING_MARK", .int 17, .int 17),
  ("U_BOUNDARY_NEUTRAL", .int 18, .int 18),
  ("U_FIRST_STRONG_ISOLATE", .int 19, .int 19),
  ("U_LEFT_TO_RIGHT_ISOLATE", .int 20, .int 20),
  ("U_RIGHT_TO_LEFT_ISOLATE", .int 21, .int 21),
  ("U_POP_DIRECTIONAL_ISOLATE", .int 22, .int 22),
  ("U_DT_NONE", .int 0, .int 0),
  ("U_DT_CANONICAL", .int 1, .int 1),
  ("U_DT_COMPAT", .int 2, .int 2),
  ("U_DT_CIRCLE", .int 3, .int 3),
  ("U_DT_FINAL", .int 4, .int 4),
  ("U_DT_FONT", .int 5, .int 5),
  ("U_DT_FRACTION", .int 6, .int 6),
  ("U_DT_INITIAL", .int 7, .int 7),
  ("U_DT_ISOLATED", .int 8, .int 8),
  ("U_DT_MEDIAL", .int 9, .int 9),
  ("U_DT_NARROW", .int 10, .int 10),
  ("U_DT_NOBREAK", .int 11, .int 11),
  ("U_DT_SMALL", .int 12, .int 12),
  ("U_DT_SQUARE", .int 13, .int 13),
  ("U_DT_SUB", .int 14, .int 14)]

/-- Constants of the hand-written modules with their values there and in uchar_h.py or uscript_h.py, part 7. -/
def constants7 : List (String × Key × Key) :=
 [("U_DT_SUPER", .int 15, .int 15),
  ("U_DT_VERTICAL", .int 16, .int 16),
  ("U_DT_WIDE", .int 17, .int 17),
  ("U_EA_NEUTRAL", .int 0, .int 0),
  ("U_EA_AMBIGUOUS", .int 1, .int 1),
  ("U_EA_HALFWIDTH", .int 2, .int 2),
  ("U_EA_FULLWIDTH", .int 3, .int 3),
  ("U_EA_NARROW", .int 4, .int 4),
  ("U_EA_WIDE", .int 5, .int 5),
  ("GC_UNASSIGNED", .int 0, .int 0),
  ("GC_GENERAL_OTHER_TYPES", .int 0, .int 0),
  ("GC_UPPERCASE_LETTER", .int 1, .int 1),
  ("GC_LOWERCASE_LETTER", .int 2, .int 2),
  ("GC_TITLECASE_LETTER", .int 3, .int 3),
  ("GC_MODIFIER_LETTER", .int 4, .int 4),
  ("GC_OTHER_LETTER", .int 5, .int 5),
  ("GC_NON_SPACING_MARK", .int 6, .int 6),
  ("GC_ENCLOSING_MARK", .int 7, .int 7),
  ("GC_COMBINING_SPACING_MARK", .int 8, .int 8),
  ("GC_DECIMAL_DIGIT_NUMBER", .int 9, .int 9),
  ("GC_LETTER_NUMBER", .int 10, .int 10),
  ("GC_OTHER_NUMBER", .int 11, .int 11),
  ("GC_SPACE_SEPARATOR", .int 12, .int 12),
  ("GC_LINE_SEPARATOR", .int 13, .int 13),
  ("GC_PARAGRAPH_SEPARATOR", .int 14, .int 14),
  ("GC_CONTROL_CHAR", .int 15, .int 15),
  ("GC_FORMAT_CHAR", .int 16, .int 16),
  ("GC_PRIVATE_USE_CHAR", .int 17, .int 17),
  ("GC_SURROGATE", .int 18, .int 18),
  ("GC_DASH_PUNCTUATION", .int 19, .int 19),
  ("GC_START_PUNCTUATION", .int 20, .int 20),
  ("GC_END_PUNCTUATION", .int 21, .int 21),
  ("GC_CONNECTOR_PUNCTUATION", .int 22, .int 22),
  ("GC_OTHER_PUNCTUATION", .int 23, .int 23),
  ("GC_MATH_SYMBOL", .int 24, .int 24),
  ("GC_CURRENCY_SYMBOL", .int 25, .int 25),
  ("GC_MODIFIER_SYMBOL", .int 26, .int 26),
  ("GC_OTHER_SYMBOL", .int 27, .int 27),
  ("GC_INITIAL_PUNCTUATION", .int 28, .int 28),
  ("GC_FINAL_PUNCTUATION", .int 29, .int 29),
  ("GC_CN_MASK", .int 1, .int 1),
  ("GC_LU_MASK", .int 2, .int 2),
  ("GC_LL_MASK", .int 4, .int 4),
  ("GC_LT_MASK", .int 8, .int 8),
  ("GC_LM_MASK", .int 16, .int 16),
  ("GC_LO_MASK", .int 32, .int 32),
  ("GC_MN_MASK", .int 64, .int 64),
  ("GC_ME_MASK", .int 128, .int 128),
  ("GC_MC_MASK", .int 256, .int 256),
  ("GC_ND_MASK", .int 512, .int 512),
  ("GC_NL_MASK", .int 1024, .int 1024),
  ("GC_NO_MASK", .int 2048, .int 2048),
  ("GC_ZS_MASK", .int 4096, .int 4096),
  ("GC_ZL_MASK", .int 8192, .int 8192),
  ("GC_ZP_MASK", .int 16384, .int 16384),
  ("GC_CC_MASK", .int 32768, .int 32768),
  ("GC_CF_MASK", .int 65536, .int 65536),
  ("GC_CO_MASK", .int 131072, .int 131072),
  ("GC_CS_MASK", .int 262144, .int 262144),
  ("GC_PD_MASK", .int 524288, .int 524288),
  ("GC_PS_MASK", .int 1048576, .int 1048576),
  ("GC_PE_MASK", .int 2097152, .int 2097152),
  ("GC_PC_MASK", .int 4194304, .int 4194304),
  ("GC_PO_MASK", .int 8388608, .int 8388608)]

/-- Constants of the hand-written modules with their values there and in uchar_h.py or uscript_h.py, part 8. -/
def constants8 : List (String × Key × Key) :=
 [("GC_SM_MASK", .int 16777216, .int 16777216),
  ("GC_SC_MASK", .int 33554432, .int 33554432),
  ("GC_SK_MASK", .int 67108864, .int 67108864),
  ("GC_SO_MASK", .int 134217728, .int 134217728),
  ("GC_PI_MASK", .int 268435456, .int 268435456),
  ("GC_PF_MASK", .int 536870912, .int 536870912),
  ("GC_L_MASK", .int 62, .int 62),
  ("GC_LC_MASK", .int 14, .int 14),
  ("GC_M_MASK", .int 448, .int 448),
  ("GC_N_MASK", .int 3584, .int 3584),
  ("GC_Z_MASK", .int 28672, .int 28672),
  ("GC_C_MASK", .int 491521, .int 491521),
  ("GC_P_MASK", .int 821559296, .int 821559296),
  ("GC_S_MASK", .int 251658240, .int 251658240),
  ("U_JT_NON_JOINING", .int 0, .int 0),
  ("U_JT_JOIN_CAUSING", .int 1, .int 1),
  ("U_JT_DUAL_JOINING", .int 2, .int 2),
  ("U_JT_LEFT_JOINING", .int 3, .int 3),
  ("U_JT_RIGHT_JOINING", .int 4, .int 4),
  ("U_JT_TRANSPARENT", .int 5, .int 5),
  ("U_JG_NO_JOINING_GROUP", .int 0, .int 0),
  ("U_JG_AIN", .int 1, .int 1),
  ("U_JG_ALAPH", .int 2, .int 2),
  ("U_JG_ALEF", .int 3, .int 3),
  ("U_JG_BEH", .int 4, .int 4),
  ("U_JG_BETH", .int 5, .int 5),
  ("U_JG_DAL", .int 6, .int 6),
  ("U_JG_DALATH_RISH", .int 7, .int 7),
  ("U_JG_E", .int 8, .int 8),
  ("U_JG_FEH", .int 9, .int 9),
  ("U_JG_FINAL_SEMKATH", .int 10, .int 10),
  ("U_JG_GAF", .int 11, .int 11),
  ("U_JG_GAMAL", .int 12, .int 12),
  ("U_JG_HAH", .int 13, .int 13),
  ("U_JG_TEH_MARBUTA_GOAL", .int 14, .int 14),
  ("U_JG_HAMZA_ON_HEH_GOAL", .int 14, .int 14),
  ("U_JG_HE", .int 15, .int 15),
  ("U_JG_HEH", .int 16, .int 16),
  ("U_JG_HEH_GOAL", .int 17, .int 17),
  ("U_JG_HETH", .int 18, .int 18),
  ("U_JG_KAF", .int 19, .int 19),
  ("U_JG_KAPH", .int 20, .int 20),
  ("U_JG_KNOTTED_HEH", .int 21, .int 21),
  ("U_JG_LAM", .int 22, .int 22),
  ("U_JG_LAMADH", .int 23, .int 23),
  ("U_JG_MEEM", .int 24, .int 24),
  ("U_JG_MIM", .int 25, .int 25),
  ("U_JG_NOON", .int 26, .int 26),
  ("U_JG_NUN", .int 27, .int 27),
  ("U_JG_PE", .int 28, .int 28),
  ("U_JG_QAF", .int 29, .int 29),
  ("U_JG_QAPH", .int 30, .int 30),
  ("U_JG_REH", .int 31, .int 31),
  ("U_JG_REVERSED_PE", .int 32, .int 32),
  ("U_JG_SAD", .int 33, .int 33),
  ("U_JG_SADHE", .int 34, .int 34),
  ("U_JG_SEEN", .int 35, .int 35),
  ("U_JG_SEMKATH", .int 36, .int 36),
  ("U_JG_SHIN", .int 37, .int 37),
  ("U_JG_SWASH_KAF", .int 38, .int 38),
  ("U_JG_SYRIAC_WAW", .int 39, .int 39),
  ("U_JG_TAH", .int 40, .int 40),
  ("U_JG_TAW", .int 41, .int 41),
  ("U_JG_TEH_MARBUTA", .int 42, .int 42)]

/-- Constants of the hand-written modules with their values there and in uchar_h.py or uscript_h.py, part 9. -/
def constants9 : List (String × Key × Key) :=
 [("U_JG_TETH", .int 43, .int 43),
  ("U_JG_WAW", .int 44, .int 44),
  ("U_JG_YEH", .int 45, .int 45),
  ("U_JG_YEH_BARREE", .int 46, .int 46),
  ("U_JG_YEH_WITH_TAIL", .int 47, .int 47),
  ("U_JG_YUDH", .int 48, .int 48),
  ("U_JG_YUDH_HE", .int 49, .int 49),
  ("U_JG_ZAIN", .int 50, .int 50),
  ("U_JG_FE", .int 51, .int 51),
  ("U_JG_KHAPH", .int 52, .int 52),
  ("U_JG_ZHAIN", .int 53, .int 53),
  ("U_JG_BURUSHASKI_YEH_BARREE", .int 54, .int 54),
  ("U_JG_FARSI_YEH", .int 55, .int 55),
  ("U_JG_NYA", .int 56, .int 56),
  ("U_JG_ROHINGYA_YEH", .int 57, .int 57),
  ("U_JG_MANICHAEAN_ALEPH", .int 58, .int 58),
  ("U_JG_MANICHAEAN_AYIN", .int 59, .int 59),
  ("U_JG_MANICHAEAN_BETH", .int 60, .int 60),
  ("U_JG_MANICHAEAN_DALETH", .int 61, .int 61),
  ("U_JG_MANICHAEAN_DHAMEDH", .int 62, .int 62),
  ("U_JG_MANICHAEAN_FIVE", .int 63, .int 63),
  ("U_JG_MANICHAEAN_GIMEL", .int 64, .int 64),
  ("U_JG_MANICHAEAN_HETH", .int 65, .int 65),
  ("U_JG_MANICHAEAN_HUNDRED", .int 66, .int 66),
  ("U_JG_MANICHAEAN_KAPH", .int 67, .int 67),
  ("U_JG_MANICHAEAN_LAMEDH", .int 68, .int 68),
  ("U_JG_MANICHAEAN_MEM", .int 69, .int 69),
  ("U_JG_MANICHAEAN_NUN", .int 70, .int 70),
  ("U_JG_MANICHAEAN_ONE", .int 71, .int 71),
  ("U_JG_MANICHAEAN_PE", .int 72, .int 72),
  ("U_JG_MANICHAEAN_QOPH", .int 73, .int 73),
  ("U_JG_MANICHAEAN_RESH", .int 74, .int 74),
  ("U_JG_MANICHAEAN_SADHE", .int 75, .int 75),
  ("U_JG_MANICHAEAN_SAMEKH", .int 76, .int 76),
  ("U_JG_MANICHAEAN_TAW", .int 77, .int 77),
  ("U_JG_MANICHAEAN_TEN", .int 78, .int 78),
  ("U_JG_MANICHAEAN_TETH", .int 79, .int 79),
  ("U_JG_MANICHAEAN_THAMEDH", .int 80, .int 80),
  ("U_JG_MANICHAEAN_TWENTY", .int 81, .int 81),
  ("U_JG_MANICHAEAN_WAW", .int 82, .int 82),
  ("U_JG_MANICHAEAN_YODH", .int 83, .int 83),
  ("U_JG_MANICHAEAN_ZAYIN", .int 84, .int 84),
  ("U_JG_STRAIGHT_WAW", .int 85, .int 85),
  ("U_JG_AFRICAN_FEH", .int 86, .int 86),
  ("U_JG_AFRICAN_NOON", .int 87, .int 87),
  ("U_JG_AFRICAN_QAF", .int 88, .int 88),
  ("U_JG_MALAYALAM_BHA", .int 89, .int 89),
  ("U_JG_MALAYALAM_JA", .int 90, .int 90),
  ("U_JG_MALAYALAM_LLA", .int 91, .int 91),
  ("U_JG_MALAYALAM_LLLA", .int 92, .int 92),
  ("U_JG_MALAYALAM_NGA", .int 93, .int 93),
  ("U_JG_MALAYALAM_NNA", .int 94, .int 94),
  ("U_JG_MALAYALAM_NNNA", .int 95, .int 95),
  ("U_JG_MALAYALAM_NYA", .int 96, .int 96),
  ("U_JG_MALAYALAM_RA", .int 97, .int 97),
  ("U_JG_MALAYALAM_SSA", .int 98, .int 98),
  ("U_JG_MALAYALAM_TTA", .int 99, .int 99),
  ("U_JG_HANIFI_ROHINGYA_KINNA_YA", .int 100, .int 100),
  ("U_JG_HANIFI_ROHINGYA_PA", .int 101, .int 101),
  ("U_INPC_NA", .int 0, .int 0),
  ("U_INPC_BOTTOM", .int 1, .int 1),
  ("U_INPC_BOTTOM_AND_LEFT", .int 2, .int 2),
  ("U_INPC_BOTTOM_AND_RIGHT", .int 3, .int 3),
  ("U_INPC_LEFT", .int 4, .int 4)]

/-- Constants of the hand-written modules with their values there and in uchar_h.py or uscript_h.py, part 10. -/
def constants10 : List (String × Key × Key) :=
 [("U_INPC_LEFT_AND_RIGHT", .int 5, .int 5),
  ("U_INPC_OVERSTRUCK", .int 6, .int 6),
  ("U_INPC_RIGHT", .int 7, .int 7),
  ("U_INPC_TOP", .int 8, .int 8),
  ("U_INPC_TOP_AND_BOTTOM", .int 9, .int 9),
  ("U_INPC_TOP_AND_BOTTOM_AND_RIGHT", .int 10, .int 10),
  ("U_INPC_TOP_AND_LEFT", .int 11, .int 11),
  ("U_INPC_TOP_AND_LEFT_AND_RIGHT", .int 12, .int 12),
  ("U_INPC_TOP_AND_RIGHT", .int 13, .int 13),
  ("U_INPC_VISUAL_ORDER_LEFT", .int 14, .int 14),
  ("U_INPC_TOP_AND_BOTTOM_AND_LEFT", .int 15, .int 15),
  ("U_INSC_OTHER", .int 0, .int 0),
  ("U_INSC_AVAGRAHA", .int 1, .int 1),
  ("U_INSC_BINDU", .int 2, .int 2),
  ("U_INSC_BRAHMI_JOINING_NUMBER", .int 3, .int 3),
  ("U_INSC_CANTILLATION_MARK", .int 4, .int 4),
  ("U_INSC_CONSONANT", .int 5, .int 5),
  ("U_INSC_CONSONANT_DEAD", .int 6, .int 6),
  ("U_INSC_CONSONANT_FINAL", .int 7, .int 7),
  ("U_INSC_CONSONANT_HEAD_LETTER", .int 8, .int 8),
  ("U_INSC_CONSONANT_INITIAL_POSTFIXED", .int 9, .int 9),
  ("U_INSC_CONSONANT_KILLER", .int 10, .int 10),
  ("U_INSC_CONSONANT_MEDIAL", .int 11, .int 11),
  ("U_INSC_CONSONANT_PLACEHOLDER", .int 12, .int 12),
  ("U_INSC_CONSONANT_PRECEDING_REPHA", .int 13, .int 13),
  ("U_INSC_CONSONANT_PREFIXED", .int 14, .int 14),
  ("U_INSC_CONSONANT_SUBJOINED", .int 15, .int 15),
  ("U_INSC_CONSONANT_SUCCEEDING_REPHA", .int 16, .int 16),
  ("U_INSC_CONSONANT_WITH_STACKER", .int 17, .int 17),
  ("U_INSC_GEMINATION_MARK", .int 18, .int 18),
  ("U_INSC_INVISIBLE_STACKER", .int 19, .int 19),
  ("U_INSC_JOINER", .int 20, .int 20),
  ("U_INSC_MODIFYING_LETTER", .int 21, .int 21),
  ("U_INSC_NON_JOINER", .int 22, .int 22),
  ("U_INSC_NUKTA", .int 23, .int 23),
  ("U_INSC_NUMBER", .int 24, .int 24),
  ("U_INSC_NUMBER_JOINER", .int 25, .int 25),
  ("U_INSC_PURE_KILLER", .int 26, .int 26),
  ("U_INSC_REGISTER_SHIFTER", .int 27, .int 27),
  ("U_INSC_SYLLABLE_MODIFIER", .int 28, .int 28),
  ("U_INSC_TONE_LETTER", .int 29, .int 29),
  ("U_INSC_TONE_MARK", .int 30, .int 30),
  ("U_INSC_VIRAMA", .int 31, .int 31),
  ("U_INSC_VISARGA", .int 32, .int 32),
  ("U_INSC_VOWEL", .int 33, .int 33),
  ("U_INSC_VOWEL_DEPENDENT", .int 34, .int 34),
  ("U_INSC_VOWEL_INDEPENDENT", .int 35, .int 35),
  ("U_VO_ROTATED", .int 0, .int 0),
  ("U_VO_TRANSFORMED_ROTATED", .int 1, .int 1),
  ("U_VO_TRANSFORMED_UPRIGHT", .int 2, .int 2),
  ("U_VO_UPRIGHT", .int 3, .int 3),
  ("USCRIPT_INVALID_CODE", .int (-1), .int (-1)),
  ("USCRIPT_COMMON", .int 0, .int 0),
  ("USCRIPT_INHERITED", .int 1, .int 1),
  ("USCRIPT_ARABIC", .int 2, .int 2),
  ("USCRIPT_ARMENIAN", .int 3, .int 3),
  ("USCRIPT_BENGALI", .int 4, .int 4),
  ("USCRIPT_BOPOMOFO", .int 5, .int 5),
  ("USCRIPT_CHEROKEE", .int 6, .int 6),
  ("USCRIPT_COPTIC", .int 7, .int 7),
  ("USCRIPT_CYRILLIC", .int 8, .int 8),
  ("USCRIPT_DESERET", .int 9, .int 9),
  ("USCRIPT_DEVANAGARI", .int 10, .int 10),
  ("USCRIPT_ETHIOPIC", .int 11, .int 11)]

/-- Constants of the hand-written modules with their values there and in uchar_h.py or uscript_h.py, part 11. -/
def constants11 : List (String × Key × Key) :=
 [("USCRIPT_GEORGIAN", .int 12, .int 12),
  ("USCRIPT_GOTHIC", .int 13, .int 13),
  ("USCRIPT_GREEK", .int 14, .int 14),
  ("USCRIPT_GUJARATI", .int 15, .int 15),
  ("USCRIPT_GURMUKHI", .int 16, .int 16),
  ("USCRIPT_HAN", .int 17, .int 17),
  ("USCRIPT_HANGUL", .int 18, .int 18),
  ("USCRIPT_HEBREW", .int 19, .int 19),
  ("USCRIPT_HIRAGANA", .int 20, .int 20),
  ("USCRIPT_KANNADA", .int 21, .int 21),
  ("USCRIPT_KATAKANA", .int 22, .int 22),
  ("USCRIPT_KHMER", .int 23, .int 23),
  ("USCRIPT_LAO", .int 24, .int 24),
  ("USCRIPT_LATIN", .int 25, .int 25),
  ("USCRIPT_MALAYALAM", .int 26, .int 26),
  ("USCRIPT_MONGOLIAN", .int 27, .int 27),
  ("USCRIPT_MYANMAR", .int 28, .int 28),
  ("USCRIPT_OGHAM", .int 29, .int 29),
  ("USCRIPT_OLD_ITALIC", .int 30, .int 30),
  ("USCRIPT_ORIYA", .int 31, .int 31),
  ("USCRIPT_RUNIC", .int 32, .int 32),
  ("USCRIPT_SINHALA", .int 33, .int 33),
  ("USCRIPT_SYRIAC", .int 34, .int 34),
  ("USCRIPT_TAMIL", .int 35, .int 35),
  ("USCRIPT_TELUGU", .int 36, .int 36),
  ("USCRIPT_THAANA", .int 37, .int 37),
  ("USCRIPT_THAI", .int 38, .int 38),
  ("USCRIPT_TIBETAN", .int 39, .int 39),
  ("USCRIPT_CANADIAN_ABORIGINAL", .int 40, .int 40),
  ("USCRIPT_UCAS", .tuple 40, .int 40),
  ("USCRIPT_YI", .int 41, .int 41),
  ("USCRIPT_TAGALOG", .int 42, .int 42),
  ("USCRIPT_HANUNOO", .int 43, .int 43),
  ("USCRIPT_BUHID", .int 44, .int 44),
  ("USCRIPT_TAGBANWA", .int 45, .int 45),
  ("USCRIPT_BRAILLE", .int 46, .int 46),
  ("USCRIPT_CYPRIOT", .int 47, .int 47),
  ("USCRIPT_LIMBU", .int 48, .int 48),
  ("USCRIPT_LINEAR_B", .int 49, .int 49),
  ("USCRIPT_OSMANYA", .int 50, .int 50),
  ("USCRIPT_SHAVIAN", .int 51, .int 51),
  ("USCRIPT_TAI_LE", .int 52, .int 52),
  ("USCRIPT_UGARITIC", .int 53, .int 53),
  ("USCRIPT_KATAKANA_OR_HIRAGANA", .int 54, .int 54),
  ("USCRIPT_BUGINESE", .int 55, .int 55),
  ("USCRIPT_GLAGOLITIC", .int 56, .int 56),
  ("USCRIPT_KHAROSHTHI", .int 57, .int 57),
  ("USCRIPT_SYLOTI_NAGRI", .int 58, .int 58),
  ("USCRIPT_NEW_TAI_LUE", .int 59, .int 59),
  ("USCRIPT_TIFINAGH", .int 60, .int 60),
  ("USCRIPT_OLD_PERSIAN", .int 61, .int 61),
  ("USCRIPT_BALINESE", .int 62, .int 62),
  ("USCRIPT_BATAK", .int 63, .int 63),
  ("USCRIPT_BLISSYMBOLS", .int 64, .int 64),
  ("USCRIPT_BRAHMI", .int 65, .int 65),
  ("USCRIPT_CHAM", .int 66, .int 66),
  ("USCRIPT_CIRTH", .int 67, .int 67),
  ("USCRIPT_OLD_CHURCH_SLAVONIC_CYRILLIC", .int 68, .int 68),
  ("USCRIPT_DEMOTIC_EGYPTIAN", .int 69, .int 69),
  ("USCRIPT_HIERATIC_EGYPTIAN", .int 70, .int 70),
  ("USCRIPT_EGYPTIAN_HIEROGLYPHS", .int 71, .int 71),
  ("USCRIPT_KHUTSURI", .int 72, .int 72),
  ("USCRIPT_SIMPLIFIED_HAN", .int 73, .int 73),
  ("USCRIPT_TRADITIONAL_HAN", .int 74, .int 74)]

/-- Constants of the hand-written modules with their values there and in uchar_h.py or uscript_h.py, part 12. -/
def constants12 : List (String × Key × Key) :=
 [("USCRIPT_PAHAWH_HMONG", .int 75, .int 75),
  ("USCRIPT_OLD_HUNGARIAN", .int 76, .int 76),
  ("USCRIPT_HARAPPAN_INDUS", .int 77, .int 77),
  ("USCRIPT_JAVANESE", .int 78, .int 78),
  ("USCRIPT_KAYAH_LI", .int 79, .int 79),
  ("USCRIPT_LATIN_FRAKTUR", .int 80, .int 80),
  ("USCRIPT_LATIN_GAELIC", .int 81, .int 81),
  ("USCRIPT_LEPCHA", .int 82, .int 82),
  ("USCRIPT_LINEAR_A", .int 83, .int 83),
  ("USCRIPT_MANDAIC", .int 84, .int 84),
  ("USCRIPT_MANDAEAN", .tuple 84, .int 84),
  ("USCRIPT_MAYAN_HIEROGLYPHS", .int 85, .int 85),
  ("USCRIPT_MEROITIC_HIEROGLYPHS", .int 86, .int 86),
  ("USCRIPT_MEROITIC", .tuple 86, .int 86),
  ("USCRIPT_NKO", .int 87, .int 87),
  ("USCRIPT_ORKHON", .int 88, .int 88),
  ("USCRIPT_OLD_PERMIC", .int 89, .int 89),
  ("USCRIPT_PHAGS_PA", .int 90, .int 90),
  ("USCRIPT_PHOENICIAN", .int 91, .int 91),
  ("USCRIPT_MIAO", .int 92, .int 92),
  ("USCRIPT_PHONETIC_POLLARD", .tuple 92, .int 92),
  ("USCRIPT_RONGORONGO", .int 93, .int 93),
  ("USCRIPT_SARATI", .int 94, .int 94),
  ("USCRIPT_ESTRANGELO_SYRIAC", .int 95, .int 95),
  ("USCRIPT_WESTERN_SYRIAC", .int 96, .int 96),
  ("USCRIPT_EASTERN_SYRIAC", .int 97, .int 97),
  ("USCRIPT_TENGWAR", .int 98, .int 98),
  ("USCRIPT_VAI", .int 99, .int 99),
  ("USCRIPT_VISIBLE_SPEECH", .int 100, .int 100),
  ("USCRIPT_CUNEIFORM", .int 101, .int 101),
  ("USCRIPT_UNWRITTEN_LANGUAGES", .int 102, .int 102),
  ("USCRIPT_UNKNOWN", .int 103, .int 103),
  ("USCRIPT_CARIAN", .int 104, .int 104),
  ("USCRIPT_JAPANESE", .int 105, .int 105),
  ("USCRIPT_LANNA", .int 106, .int 106),
  ("USCRIPT_LYCIAN", .int 107, .int 107),
  ("USCRIPT_LYDIAN", .int 108, .int 108),
  ("USCRIPT_OL_CHIKI", .int 109, .int 109),
  ("USCRIPT_REJANG", .int 110, .int 110),
  ("USCRIPT_SAURASHTRA", .int 111, .int 111),
  ("USCRIPT_SIGN_WRITING", .int 112, .int 112),
  ("USCRIPT_SUNDANESE", .int 113, .int 113),
  ("USCRIPT_MOON", .int 114, .int 114),
  ("USCRIPT_MEITEI_MAYEK", .int 115, .int 115),
  ("USCRIPT_IMPERIAL_ARAMAIC", .int 116, .int 116),
  ("USCRIPT_AVESTAN", .int 117, .int 117),
  ("USCRIPT_CHAKMA", .int 118, .int 118),
  ("USCRIPT_KOREAN", .int 119, .int 119),
  ("USCRIPT_KAITHI", .int 120, .int 120),
  ("USCRIPT_MANICHAEAN", .int 121, .int 121),
  ("USCRIPT_INSCRIPTIONAL_PAHLAVI", .int 122, .int 122),
  ("USCRIPT_PSALTER_PAHLAVI", .int 123, .int 123),
  ("USCRIPT_BOOK_PAHLAVI", .int 124, .int 124),
  ("USCRIPT_INSCRIPTIONAL_PARTHIAN", .int 125, .int 125),
  ("USCRIPT_SAMARITAN", .int 126, .int 126),
  ("USCRIPT_TAI_VIET", .int 127, .int 127),
  ("USCRIPT_MATHEMATICAL_NOTATION", .int 128, .int 128),
  ("USCRIPT_SYMBOLS", .int 129, .int 129),
  ("USCRIPT_BAMUM", .int 130, .int 130),
  ("USCRIPT_LISU", .int 131, .int 131),
  ("USCRIPT_NAKHI_GEBA", .int 132, .int 132),
  ("USCRIPT_OLD_SOUTH_ARABIAN", .int 133, .int 133),
  ("USCRIPT_BASSA_VAH", .int 134, .int 134),
  ("USCRIPT_DUPLOYAN", .int 135, .int 135)]

/-- Constants of the hand-written modules with their values there and in uchar_h.py or uscript_h.py, part 13. -/
def constants13 : List (String × Key × Key) :=
 [("USCRIPT_ELBASAN", .int 136, .int 136),
  ("USCRIPT_GRANTHA", .int 137, .int 137),
  ("USCRIPT_KPELLE", .int 138, .int 138),
  ("USCRIPT_LOMA", .int 139, .int 139),
  ("USCRIPT_MENDE", .int 140, .int 140),
  ("USCRIPT_MEROITIC_CURSIVE", .int 141, .int 141),
  ("USCRIPT_OLD_NORTH_ARABIAN", .int 142, .int 142),
  ("USCRIPT_NABATAEAN", .int 143, .int 143),
  ("USCRIPT_PALMYRENE", .int 144, .int 144),
  ("USCRIPT_KHUDAWADI", .int 145, .int 145),
  ("USCRIPT_SINDHI", .tuple 145, .int 145),
  ("USCRIPT_WARANG_CITI", .int 146, .int 146),
  ("USCRIPT_AFAKA", .int 147, .int 147),
  ("USCRIPT_JURCHEN", .int 148, .int 148),
  ("USCRIPT_MRO", .int 149, .int 149),
  ("USCRIPT_NUSHU", .int 150, .int 150),
  ("USCRIPT_SHARADA", .int 151, .int 151),
  ("USCRIPT_SORA_SOMPENG", .int 152, .int 152),
  ("USCRIPT_TAKRI", .int 153, .int 153),
  ("USCRIPT_TANGUT", .int 154, .int 154),
  ("USCRIPT_WOLEAI", .int 155, .int 155),
  ("USCRIPT_ANATOLIAN_HIEROGLYPHS", .int 156, .int 156),
  ("USCRIPT_KHOJKI", .int 157, .int 157),
  ("USCRIPT_TIRHUTA", .int 158, .int 158),
  ("USCRIPT_CAUCASIAN_ALBANIAN", .int 159, .int 159),
  ("USCRIPT_MAHAJANI", .int 160, .int 160),
  ("USCRIPT_AHOM", .int 161, .int 161),
  ("USCRIPT_HATRAN", .int 162, .int 162),
  ("USCRIPT_MODI", .int 163, .int 163),
  ("USCRIPT_MULTANI", .int 164, .int 164),
  ("USCRIPT_PAU_CIN_HAU", .int 165, .int 165),
  ("USCRIPT_SIDDHAM", .int 166, .int 166),
  ("USCRIPT_ADLAM", .int 167, .int 167),
  ("USCRIPT_BHAIKSUKI", .int 168, .int 168),
  ("USCRIPT_MARCHEN", .int 169, .int 169),
  ("USCRIPT_NEWA", .int 170, .int 170),
  ("USCRIPT_OSAGE", .int 171, .int 171),
  ("USCRIPT_HAN_WITH_BOPOMOFO", .int 172, .int 172),
  ("USCRIPT_JAMO", .int 173, .int 173),
  ("USCRIPT_SYMBOLS_EMOJI", .int 174, .int 174),
  ("USCRIPT_MASARAM_GONDI", .int 175, .int 175),
  ("USCRIPT_SOYOMBO", .int 176, .int 176),
  ("USCRIPT_ZANABAZAR_SQUARE", .int 177, .int 177),
  ("USCRIPT_DOGRA", .int 178, .int 178),
  ("USCRIPT_GUNJALA_GONDI", .int 179, .int 179),
  ("USCRIPT_MAKASAR", .int 180, .int 180),
  ("USCRIPT_MEDEFAIDRIN", .int 181, .int 181),
  ("USCRIPT_HANIFI_ROHINGYA", .int 182, .int 182),
  ("USCRIPT_SOGDIAN", .int 183, .int 183),
  ("USCRIPT_OLD_SOGDIAN", .int 184, .int 184),
  ("USCRIPT_ELYMAIC", .int 185, .int 185),
  ("USCRIPT_NYIAKENG_PUACHUE_HMONG", .int 186, .int 186),
  ("USCRIPT_NANDINAGARI", .int 187, .int 187),
  ("USCRIPT_WANCHO", .int 188, .int 188),
  ("USCRIPT_CHORASMIAN", .int 189, .int 189),
  ("USCRIPT_DIVES_AKURU", .int 190, .int 190),
  ("USCRIPT_KHITAN_SMALL_SCRIPT", .int 191, .int 191),
  ("USCRIPT_YEZIDI", .int 192, .int 192)]

/-- UnicodeData/Blocks.py, Boundaries.py, CharDirection.py, DecompositionType.py, EastAsianWidth.py, GeneralCategories.py,
JoiningTypesAndGroups.py, LayoutTypes.py and Scripts.py: the constants uchar_h.py and uscript_h.py define as well (the names of the
header have the prefix `U_` in some cases). -/
def constants : List (String × Key × Key) :=
  constants0 ++ constants1 ++ constants2 ++ constants3 ++ constants4 ++ constants5 ++ constants6 ++ constants7 ++ constants8 ++ constants9 ++ constants10 ++ constants11 ++ constants12 ++ constants13

end Verif.Data.Hand
