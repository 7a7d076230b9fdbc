import Verif.Model.Table
/-!
# Name dictionaries of `UnicodeData/UCDTypeDictionaries.py`

Generated by tools/gen_data.py from the text of /repo. Rows hold 64 entries, least significant first.
-/
namespace Verif.Data

local notation "l" => Tree.leaf
local notation "n" => Tree.node

/-- UnicodeData/UCDTypeDictionaries.py:10-34 `bidiClassNames`, keys resolved with uchar_h.py and uscript_h.py. -/
def bidiClassNames : List (Nat × String) :=
 [(13, "AL"),
  (5, "AN"),
  (7, "B"),
  (18, "BN"),
  (6, "CS"),
  (2, "EN"),
  (3, "ES"),
  (4, "ET"),
  (19, "FSI"),
  (0, "L"),
  (11, "LRE"),
  (20, "LRI"),
  (12, "LRO"),
  (17, "NSM"),
  (10, "ON"),
  (16, "PDF"),
  (22, "PDI"),
  (1, "R"),
  (14, "RLE"),
  (21, "RLI"),
  (15, "RLO"),
  (8, "S"),
  (9, "WS")]

/-- UnicodeData/UCDTypeDictionaries.py:36-346 `blockNames`, keys resolved with uchar_h.py and uscript_h.py. -/
def blockNames : List (Nat × String) :=
 [(1, "ASCII"),
  (263, "Adlam"),
  (119, "Aegean Numbers"),
  (253, "Ahom"),
  (208, "Alchemical"),
  (80, "Alphabetic PF"),
  (254, "Anatolian Hieroglyphs"),
  (126, "Ancient Greek Music"),
  (127, "Ancient Greek Numbers"),
  (165, "Ancient Symbols"),
  (12, "Arabic"),
  (210, "Arabic Ext A"),
  (211, "Arabic Math"),
  (81, "Arabic PF A"),
  (85, "Arabic PF B"),
  (128, "Arabic Sup"),
  (10, "Armenian"),
  (46, "Arrows"),
  (188, "Avestan"),
  (147, "Balinese"),
  (177, "Bamum"),
  (202, "Bamum Sup"),
  (221, "Bassa Vah"),
  (199, "Batak"),
  (16, "Bengali"),
  (264, "Bhaiksuki"),
  (53, "Block Elements"),
  (64, "Bopomofo"),
  (67, "Bopomofo Ext"),
  (52, "Box Drawing"),
  (201, "Brahmi"),
  (57, "Braille"),
  (129, "Buginese"),
  (100, "Buhid"),
  (91, "Byzantine Music"),
  (71, "CJK"),
  (69, "CJK Compat"),
  (83, "CJK Compat Forms"),
  (79, "CJK Compat Ideographs"),
  (95, "CJK Compat Ideographs Sup"),
  (70, "CJK Ext A"),
  (94, "CJK Ext B"),
  (197, "CJK Ext C"),
  (209, "CJK Ext D"),
  (256, "CJK Ext E"),
  (274, "CJK Ext F"),
  (302, "CJK Ext G"),
  (58, "CJK Radicals Sup"),
  (130, "CJK Strokes"),
  (61, "CJK Symbols"),
  (168, "Carian"),
  (222, "Caucasian Albanian"),
  (212, "Chakma"),
  (164, "Cham"),
  (32, "Cherokee"),
  (255, "Cherokee Sup"),
  (281, "Chess Symbols"),
  (301, "Chorasmian"),
  (65, "Compat Jamo"),
  (49, "Control Pictures"),
  (132, "Coptic"),
  (223, "Coptic Epact Numbers"),
  (154, "Counting Rod"),
  (152, "Cuneiform"),
  (153, "Cuneiform Numbers"),
  (42, "Currency Symbols"),
  (123, "Cypriot Syllabary"),
  (9, "Cyrillic"),
  (158, "Cyrillic Ext A"),
  (160, "Cyrillic Ext B"),
  (265, "Cyrillic Ext C"),
  (97, "Cyrillic Sup"),
  (90, "Deseret"),
  (15, "Devanagari"),
  (179, "Devanagari Ext"),
  (7, "Diacriticals"),
  (224, "Diacriticals Ext"),
  (43, "Diacriticals For Symbols"),
  (131, "Diacriticals Sup"),
  (56, "Dingbats"),
  (303, "Dives Akuru"),
  (282, "Dogra"),
  (171, "Domino"),
  (225, "Duployan"),
  (257, "Early Dynastic Cuneiform"),
  (292, "Egyptian Hieroglyph Format Controls"),
  (194, "Egyptian Hieroglyphs"),
  (226, "Elbasan"),
  (293, "Elymaic"),
  (206, "Emoticons"),
  (51, "Enclosed Alphanum"),
  (195, "Enclosed Alphanum Sup"),
  (68, "Enclosed CJK"),
  (196, "Enclosed Ideographic Sup"),
  (31, "Ethiopic"),
  (133, "Ethiopic Ext"),
  (200, "Ethiopic Ext A"),
  (134, "Ethiopic Sup"),
  (54, "Geometric Shapes"),
  (227, "Geometric Shapes Ext"),
  (29, "Georgian"),
  (283, "Georgian Ext"),
  (135, "Georgian Sup"),
  (136, "Glagolitic"),
  (266, "Glagolitic Sup"),
  (89, "Gothic"),
  (228, "Grantha"),
  (8, "Greek"),
  (39, "Greek Ext"),
  (18, "Gujarati"),
  (284, "Gunjala Gondi"),
  (17, "Gurmukhi"),
  (87, "Half And Full Forms"),
  (82, "Half Marks"),
  (74, "Hangul"),
  (285, "Hanifi Rohingya"),
  (99, "Hanunoo"),
  (258, "Hatran"),
  (11, "Hebrew"),
  (76, "High PU Surrogates"),
  (75, "High Surrogates"),
  (62, "Hiragana"),
  (60, "IDC"),
  (5, "IPA Ext"),
  (267, "Ideographic Symbols"),
  (186, "Imperial Aramaic"),
  (178, "Indic Number Forms"),
  (286, "Indic Siyaq Numbers"),
  (190, "Inscriptional Pahlavi"),
  (189, "Inscriptional Parthian"),
  (30, "Jamo"),
  (180, "Jamo Ext A"),
  (185, "Jamo Ext B"),
  (181, "Javanese"),
  (193, "Kaithi"),
  (275, "Kana Ext A"),
  (203, "Kana Sup"),
  (66, "Kanbun"),
  (59, "Kangxi"),
  (22, "Kannada"),
  (63, "Katakana"),
  (107, "Katakana Ext"),
  (162, "Kayah Li"),
  (137, "Kharoshthi"),
  (304, "Khitan Small Script"),
  (36, "Khmer"),
  (113, "Khmer Symbols"),
  (229, "Khojki"),
  (230, "Khudawadi"),
  (26, "Lao"),
  (2, "Latin 1 Sup"),
  (3, "Latin Ext A"),
  (38, "Latin Ext Additional"),
  (4, "Latin Ext B"),
  (148, "Latin Ext C"),
  (149, "Latin Ext D"),
  (231, "Latin Ext E"),
  (156, "Lepcha"),
  (44, "Letterlike Symbols"),
  (111, "Limbu"),
  (232, "Linear A"),
  (118, "Linear B Ideograms"),
  (117, "Linear B Syllabary"),
  (176, "Lisu"),
  (305, "Lisu Sup"),
  (77, "Low Surrogates"),
  (167, "Lycian"),
  (169, "Lydian"),
  (233, "Mahajani"),
  (170, "Mahjong"),
  (287, "Makasar"),
  (23, "Malayalam"),
  (198, "Mandaic"),
  (234, "Manichaean"),
  (268, "Marchen"),
  (276, "Masaram Gondi"),
  (93, "Math Alphanum"),
  (47, "Math Operators"),
  (288, "Mayan Numerals"),
  (289, "Medefaidrin"),
  (184, "Meetei Mayek"),
  (213, "Meetei Mayek Ext"),
  (235, "Mende Kikakui"),
  (214, "Meroitic Cursive"),
  (215, "Meroitic Hieroglyphs"),
  (216, "Miao"),
  (115, "Misc Arrows"),
  (102, "Misc Math Symbols A"),
  (105, "Misc Math Symbols B"),
  (205, "Misc Pictographs"),
  (55, "Misc Symbols"),
  (48, "Misc Technical"),
  (236, "Modi"),
  (6, "Modifier Letters"),
  (138, "Modifier Tone Letters"),
  (37, "Mongolian"),
  (269, "Mongolian Sup"),
  (237, "Mro"),
  (259, "Multani"),
  (92, "Music"),
  (28, "Myanmar"),
  (182, "Myanmar Ext A"),
  (238, "Myanmar Ext B"),
  (0, "NB"),
  (146, "NKo"),
  (239, "Nabataean"),
  (294, "Nandinagari"),
  (139, "New Tai Lue"),
  (270, "Newa"),
  (45, "Number Forms"),
  (277, "Nushu"),
  (295, "Nyiakeng Puachue Hmong"),
  (50, "OCR"),
  (34, "Ogham"),
  (157, "Ol Chiki"),
  (260, "Old Hungarian"),
  (88, "Old Italic"),
  (240, "Old North Arabian"),
  (241, "Old Permic"),
  (140, "Old Persian"),
  (290, "Old Sogdian"),
  (187, "Old South Arabian"),
  (191, "Old Turkic"),
  (19, "Oriya"),
  (242, "Ornamental Dingbats"),
  (271, "Osage"),
  (122, "Osmanya"),
  (296, "Ottoman Siyaq Numbers"),
  (78, "PUA"),
  (243, "Pahawh Hmong"),
  (244, "Palmyrene"),
  (245, "Pau Cin Hau"),
  (150, "Phags Pa"),
  (166, "Phaistos"),
  (151, "Phoenician"),
  (114, "Phonetic Ext"),
  (141, "Phonetic Ext Sup"),
  (204, "Playing Cards"),
  (246, "Psalter Pahlavi"),
  (40, "Punctuation"),
  (163, "Rejang"),
  (192, "Rumi"),
  (35, "Runic"),
  (172, "Samaritan"),
  (161, "Saurashtra"),
  (217, "Sharada"),
  (121, "Shavian"),
  (247, "Shorthand Format Controls"),
  (248, "Siddham"),
  (24, "Sinhala"),
  (249, "Sinhala Archaic Numbers"),
  (84, "Small Forms"),
  (297, "Small Kana Ext"),
  (291, "Sogdian"),
  (218, "Sora Sompeng"),
  (278, "Soyombo"),
  (86, "Specials"),
  (155, "Sundanese"),
  (219, "Sundanese Sup"),
  (103, "Sup Arrows A"),
  (104, "Sup Arrows B"),
  (250, "Sup Arrows C"),
  (106, "Sup Math Operators"),
  (109, "Sup PUA A"),
  (110, "Sup PUA B"),
  (142, "Sup Punctuation"),
  (261, "Sup Symbols And Pictographs"),
  (41, "Super And Sub"),
  (262, "Sutton SignWriting"),
  (143, "Syloti Nagri"),
  (298, "Symbols And Pictographs Ext A"),
  (306, "Symbols For Legacy Computing"),
  (13, "Syriac"),
  (279, "Syriac Sup"),
  (98, "Tagalog"),
  (101, "Tagbanwa"),
  (96, "Tags"),
  (112, "Tai Le"),
  (174, "Tai Tham"),
  (183, "Tai Viet"),
  (124, "Tai Xuan Jing"),
  (220, "Takri"),
  (20, "Tamil"),
  (299, "Tamil Sup"),
  (272, "Tangut"),
  (273, "Tangut Components"),
  (307, "Tangut Sup"),
  (21, "Telugu"),
  (14, "Thaana"),
  (25, "Thai"),
  (27, "Tibetan"),
  (144, "Tifinagh"),
  (251, "Tirhuta"),
  (207, "Transport And Map"),
  (33, "UCAS"),
  (173, "UCAS Ext"),
  (120, "Ugaritic"),
  (108, "VS"),
  (125, "VS Sup"),
  (159, "Vai"),
  (175, "Vedic Ext"),
  (145, "Vertical Forms"),
  (300, "Wancho"),
  (252, "Warang Citi"),
  (308, "Yezidi"),
  (73, "Yi Radicals"),
  (72, "Yi Syllables"),
  (116, "Yijing"),
  (280, "Zanabazar Square")]

/-- UnicodeData/UCDTypeDictionaries.py:348-367 `decompositionTypeNames`, keys resolved with uchar_h.py and uscript_h.py. -/
def decompositionTypeNames : List (Nat × String) :=
 [(1, "can"),
  (2, "com"),
  (3, "enc"),
  (4, "fin"),
  (5, "font"),
  (6, "fra"),
  (7, "init"),
  (8, "iso"),
  (9, "med"),
  (10, "nar"),
  (11, "nb"),
  (0, "none"),
  (12, "sml"),
  (13, "sqr"),
  (14, "sub"),
  (15, "sup"),
  (16, "vert"),
  (17, "wide")]

/-- UnicodeData/UCDTypeDictionaries.py:369-376 `eastAsianWidthNames`, keys resolved with uchar_h.py and uscript_h.py. -/
def eastAsianWidthNames : List (Nat × String) :=
 [(1, "A"),
  (3, "F"),
  (2, "H"),
  (0, "N"),
  (4, "Na"),
  (5, "W")]

/-- UnicodeData/UCDTypeDictionaries.py:378-409 `generalCategoryNames`, keys resolved with uchar_h.py and uscript_h.py. -/
def generalCategoryNames : List (Nat × String) :=
 [(15, "Cc"),
  (16, "Cf"),
  (0, "Cn"),
  (17, "Co"),
  (18, "Cs"),
  (2, "Ll"),
  (4, "Lm"),
  (5, "Lo"),
  (3, "Lt"),
  (1, "Lu"),
  (8, "Mc"),
  (7, "Me"),
  (6, "Mn"),
  (9, "Nd"),
  (10, "Nl"),
  (11, "No"),
  (22, "Pc"),
  (19, "Pd"),
  (21, "Pe"),
  (29, "Pf"),
  (28, "Pi"),
  (23, "Po"),
  (20, "Ps"),
  (25, "Sc"),
  (26, "Sk"),
  (24, "Sm"),
  (27, "So"),
  (13, "Zl"),
  (14, "Zp"),
  (12, "Zs")]

/-- UnicodeData/UCDTypeDictionaries.py:411-430 `graphemeClusterBreakNames`, keys resolved with uchar_h.py and uscript_h.py. -/
def graphemeClusterBreakNames : List (Nat × String) :=
 [(1, "CN"),
  (2, "CR"),
  (13, "EB"),
  (14, "EBG"),
  (15, "EM"),
  (3, "EX"),
  (16, "GAZ"),
  (4, "L"),
  (5, "LF"),
  (6, "LV"),
  (7, "LVT"),
  (11, "PP"),
  (12, "RI"),
  (10, "SM"),
  (8, "T"),
  (9, "V"),
  (0, "XX"),
  (17, "ZWJ")]

/-- UnicodeData/UCDTypeDictionaries.py:432-439 `hangulSyllableTypeNames`, keys resolved with uchar_h.py and uscript_h.py. -/
def hangulSyllableTypeNames : List (Nat × String) :=
 [(1, "L"),
  (4, "LV"),
  (5, "LVT"),
  (0, "NA"),
  (3, "T"),
  (2, "V")]

/-- UnicodeData/UCDTypeDictionaries.py:441-458 `indicPositionalCategoryNames`, keys resolved with uchar_h.py and uscript_h.py. -/
def indicPositionalCategoryNames : List (Nat × String) :=
 [(1, "Bottom"),
  (2, "Bottom_And_Left"),
  (3, "Bottom_And_Right"),
  (4, "Left"),
  (5, "Left_And_Right"),
  (0, "NA"),
  (6, "Overstruck"),
  (7, "Right"),
  (8, "Top"),
  (9, "Top_And_Bottom"),
  (15, "Top_And_Bottom_And_Left"),
  (10, "Top_And_Bottom_And_Right"),
  (11, "Top_And_Left"),
  (12, "Top_And_Left_And_Right"),
  (13, "Top_And_Right"),
  (14, "Visual_Order_Left")]

/-- UnicodeData/UCDTypeDictionaries.py:460-497 `indicSyllabicCategoryNames`, keys resolved with uchar_h.py and uscript_h.py. -/
def indicSyllabicCategoryNames : List (Nat × String) :=
 [(1, "Avagraha"),
  (2, "Bindu"),
  (3, "Brahmi_Joining_Number"),
  (4, "Cantillation_Mark"),
  (5, "Consonant"),
  (6, "Consonant_Dead"),
  (7, "Consonant_Final"),
  (8, "Consonant_Head_Letter"),
  (9, "Consonant_Initial_Postfixed"),
  (10, "Consonant_Killer"),
  (11, "Consonant_Medial"),
  (12, "Consonant_Placeholder"),
  (13, "Consonant_Preceding_Repha"),
  (14, "Consonant_Prefixed"),
  (15, "Consonant_Subjoined"),
  (16, "Consonant_Succeeding_Repha"),
  (17, "Consonant_With_Stacker"),
  (18, "Gemination_Mark"),
  (19, "Invisible_Stacker"),
  (20, "Joiner"),
  (21, "Modifying_Letter"),
  (22, "Non_Joiner"),
  (23, "Nukta"),
  (24, "Number"),
  (25, "Number_Joiner"),
  (0, "Other"),
  (26, "Pure_Killer"),
  (27, "Register_Shifter"),
  (28, "Syllable_Modifier"),
  (29, "Tone_Letter"),
  (30, "Tone_Mark"),
  (31, "Virama"),
  (32, "Visarga"),
  (33, "Vowel"),
  (34, "Vowel_Dependent"),
  (35, "Vowel_Independent")]

/-- UnicodeData/UCDTypeDictionaries.py:499-602 `joiningGroupNames`, keys resolved with uchar_h.py and uscript_h.py. -/
def joiningGroupNames : List (Nat × String) :=
 [(86, "African Feh"),
  (87, "African Noon"),
  (88, "African Qaf"),
  (1, "Ain"),
  (2, "Alaph"),
  (3, "Alef"),
  (4, "Beh"),
  (5, "Beth"),
  (54, "Burushaski Yeh Barree"),
  (6, "Dal"),
  (7, "Dalath Rish"),
  (8, "E"),
  (55, "Farsi Yeh"),
  (51, "Fe"),
  (9, "Feh"),
  (10, "Final Semkath"),
  (11, "Gaf"),
  (12, "Gamal"),
  (13, "Hah"),
  (100, "Hanifi Rohingya Kinna Ya"),
  (101, "Hanifi Rohingya Pa"),
  (15, "He"),
  (16, "Heh"),
  (17, "Heh Goal"),
  (18, "Heth"),
  (19, "Kaf"),
  (20, "Kaph"),
  (52, "Khaph"),
  (21, "Knotted Heh"),
  (22, "Lam"),
  (23, "Lamadh"),
  (89, "Malayalam Bha"),
  (90, "Malayalam Ja"),
  (91, "Malayalam Lla"),
  (92, "Malayalam Llla"),
  (93, "Malayalam Nga"),
  (94, "Malayalam Nna"),
  (95, "Malayalam Nnna"),
  (96, "Malayalam Nya"),
  (97, "Malayalam Ra"),
  (98, "Malayalam Ssa"),
  (99, "Malayalam Tta"),
  (58, "Manichaean Aleph"),
  (59, "Manichaean Ayin"),
  (60, "Manichaean Beth"),
  (61, "Manichaean Daleth"),
  (62, "Manichaean Dhamedh"),
  (63, "Manichaean Five"),
  (64, "Manichaean Gimel"),
  (65, "Manichaean Heth"),
  (66, "Manichaean Hundred"),
  (67, "Manichaean Kaph"),
  (68, "Manichaean Lamedh"),
  (69, "Manichaean Mem"),
  (70, "Manichaean Nun"),
  (71, "Manichaean One"),
  (72, "Manichaean Pe"),
  (73, "Manichaean Qoph"),
  (74, "Manichaean Resh"),
  (75, "Manichaean Sadhe"),
  (76, "Manichaean Samekh"),
  (77, "Manichaean Taw"),
  (78, "Manichaean Ten"),
  (79, "Manichaean Teth"),
  (80, "Manichaean Thamedh"),
  (81, "Manichaean Twenty"),
  (82, "Manichaean Waw"),
  (83, "Manichaean Yodh"),
  (84, "Manichaean Zayin"),
  (24, "Meem"),
  (25, "Mim"),
  (0, "No Joining Group"),
  (26, "Noon"),
  (27, "Nun"),
  (56, "Nya"),
  (28, "Pe"),
  (29, "Qaf"),
  (30, "Qaph"),
  (31, "Reh"),
  (32, "Reversed Pe"),
  (57, "Rohingya Yeh"),
  (33, "Sad"),
  (34, "Sadhe"),
  (35, "Seen"),
  (36, "Semkath"),
  (37, "Shin"),
  (85, "Straight Waw"),
  (38, "Swash Kaf"),
  (39, "Syriac Waw"),
  (40, "Tah"),
  (41, "Taw"),
  (42, "Teh Marbuta"),
  (14, "Teh Marbuta Goal"),
  (43, "Teth"),
  (44, "Waw"),
  (45, "Yeh"),
  (46, "Yeh Barree"),
  (47, "Yeh With Tail"),
  (48, "Yudh"),
  (49, "Yudh He"),
  (50, "Zain"),
  (53, "Zhain")]

/-- UnicodeData/UCDTypeDictionaries.py:604-611 `joiningTypeNames`, keys resolved with uchar_h.py and uscript_h.py. -/
def joiningTypeNames : List (Nat × String) :=
 [(1, "C"),
  (2, "D"),
  (3, "L"),
  (4, "R"),
  (5, "T"),
  (0, "U")]

/-- UnicodeData/UCDTypeDictionaries.py:613-657 `lineBreakNames`, keys resolved with uchar_h.py and uscript_h.py. -/
def lineBreakNames : List (Nat × String) :=
 [(1, "AI"),
  (2, "AL"),
  (3, "B2"),
  (4, "BA"),
  (5, "BB"),
  (6, "BK"),
  (7, "CB"),
  (37, "CJ"),
  (8, "CL"),
  (9, "CM"),
  (36, "CP"),
  (10, "CR"),
  (40, "EB"),
  (41, "EM"),
  (11, "EX"),
  (12, "GL"),
  (31, "H2"),
  (32, "H3"),
  (38, "HL"),
  (13, "HY"),
  (14, "ID"),
  (15, "IN"),
  (16, "IS"),
  (33, "JL"),
  (34, "JT"),
  (35, "JV"),
  (17, "LF"),
  (29, "NL"),
  (18, "NS"),
  (19, "NU"),
  (20, "OP"),
  (21, "PO"),
  (22, "PR"),
  (23, "QU"),
  (39, "RI"),
  (24, "SA"),
  (25, "SG"),
  (26, "SP"),
  (27, "SY"),
  (30, "WJ"),
  (0, "XX"),
  (28, "ZW"),
  (42, "ZWJ")]

/-- UnicodeData/UCDTypeDictionaries.py:659-664 `numberTypeNames`, keys resolved with uchar_h.py and uscript_h.py. -/
def numberTypeNames : List (Nat × String) :=
 [(1, "De"),
  (2, "Di"),
  (0, "None"),
  (3, "Nu")]

/-- UnicodeData/UCDTypeDictionaries.py:666-682 `sentenceBreakNames`, keys resolved with uchar_h.py and uscript_h.py. -/
def sentenceBreakNames : List (Nat × String) :=
 [(1, "AT"),
  (2, "CL"),
  (11, "CR"),
  (12, "EX"),
  (3, "FO"),
  (6, "LE"),
  (13, "LF"),
  (4, "LO"),
  (5, "NU"),
  (14, "SC"),
  (7, "SE"),
  (8, "SP"),
  (9, "ST"),
  (10, "UP"),
  (0, "XX")]

/-- UnicodeData/UCDTypeDictionaries.py:684-878 `scriptNames`, keys resolved with uchar_h.py and uscript_h.py. -/
def scriptNames : List (Nat × String) :=
 [(167, "Adlm"),
  (147, "Afak"),
  (159, "Aghb"),
  (161, "Ahom"),
  (2, "Arab"),
  (116, "Armi"),
  (3, "Armn"),
  (117, "Avst"),
  (62, "Bali"),
  (130, "Bamu"),
  (134, "Bass"),
  (63, "Batk"),
  (4, "Beng"),
  (168, "Bhks"),
  (64, "Blis"),
  (5, "Bopo"),
  (65, "Brah"),
  (46, "Brai"),
  (55, "Bugi"),
  (44, "Buhd"),
  (118, "Cakm"),
  (40, "Cans"),
  (104, "Cari"),
  (66, "Cham"),
  (6, "Cher"),
  (189, "Chrs"),
  (67, "Cirt"),
  (7, "Copt"),
  (47, "Cprt"),
  (8, "Cyrl"),
  (68, "Cyrs"),
  (10, "Deva"),
  (190, "Diak"),
  (178, "Dogr"),
  (9, "Dsrt"),
  (135, "Dupl"),
  (69, "Egyd"),
  (70, "Egyh"),
  (71, "Egyp"),
  (136, "Elba"),
  (185, "Elym"),
  (11, "Ethi"),
  (72, "Geok"),
  (12, "Geor"),
  (56, "Glag"),
  (179, "Gong"),
  (175, "Gonm"),
  (13, "Goth"),
  (137, "Gran"),
  (14, "Grek"),
  (15, "Gujr"),
  (16, "Guru"),
  (172, "Hanb"),
  (18, "Hang"),
  (17, "Hani"),
  (43, "Hano"),
  (73, "Hans"),
  (74, "Hant"),
  (162, "Hatr"),
  (19, "Hebr"),
  (20, "Hira"),
  (156, "Hluw"),
  (75, "Hmng"),
  (186, "Hmnp"),
  (54, "Hrkt"),
  (76, "Hung"),
  (77, "Inds"),
  (30, "Ital"),
  (173, "Jamo"),
  (78, "Java"),
  (105, "Jpan"),
  (148, "Jurc"),
  (79, "Kali"),
  (22, "Kana"),
  (57, "Khar"),
  (23, "Khmr"),
  (157, "Khoj"),
  (191, "Kits"),
  (21, "Knda"),
  (119, "Kore"),
  (138, "Kpel"),
  (120, "Kthi"),
  (106, "Lana"),
  (24, "Laoo"),
  (80, "Latf"),
  (81, "Latg"),
  (25, "Latn"),
  (82, "Lepc"),
  (48, "Limb"),
  (83, "Lina"),
  (49, "Linb"),
  (131, "Lisu"),
  (139, "Loma"),
  (107, "Lyci"),
  (108, "Lydi"),
  (160, "Mahj"),
  (180, "Maka"),
  (84, "Mand"),
  (121, "Mani"),
  (169, "Marc"),
  (85, "Maya"),
  (181, "Medf"),
  (140, "Mend"),
  (141, "Merc"),
  (86, "Mero"),
  (26, "Mlym"),
  (163, "Modi"),
  (27, "Mong"),
  (114, "Moon"),
  (149, "Mroo"),
  (115, "Mtei"),
  (164, "Mult"),
  (28, "Mymr"),
  (187, "Nand"),
  (142, "Narb"),
  (143, "Nbat"),
  (170, "Newa"),
  (132, "Nkgb"),
  (87, "Nkoo"),
  (150, "Nshu"),
  (29, "Ogam"),
  (109, "Olck"),
  (88, "Orkh"),
  (31, "Orya"),
  (171, "Osge"),
  (50, "Osma"),
  (144, "Palm"),
  (165, "Pauc"),
  (89, "Perm"),
  (90, "Phag"),
  (122, "Phli"),
  (123, "Phlp"),
  (124, "Phlv"),
  (91, "Phnx"),
  (92, "Plrd"),
  (125, "Prti"),
  (110, "Rjng"),
  (182, "Rohg"),
  (93, "Roro"),
  (32, "Runr"),
  (126, "Samr"),
  (94, "Sara"),
  (133, "Sarb"),
  (111, "Saur"),
  (112, "Sgnw"),
  (51, "Shaw"),
  (151, "Shrd"),
  (166, "Sidd"),
  (145, "Sind"),
  (33, "Sinh"),
  (183, "Sogd"),
  (184, "Sogo"),
  (152, "Sora"),
  (176, "Soyo"),
  (113, "Sund"),
  (58, "Sylo"),
  (34, "Syrc"),
  (95, "Syre"),
  (96, "Syrj"),
  (97, "Syrn"),
  (45, "Tagb"),
  (153, "Takr"),
  (52, "Tale"),
  (59, "Talu"),
  (35, "Taml"),
  (154, "Tang"),
  (127, "Tavt"),
  (36, "Telu"),
  (98, "Teng"),
  (60, "Tfng"),
  (42, "Tglg"),
  (37, "Thaa"),
  (38, "Thai"),
  (39, "Tibt"),
  (158, "Tirh"),
  (53, "Ugar"),
  (99, "Vaii"),
  (100, "Visp"),
  (146, "Wara"),
  (188, "Wcho"),
  (155, "Wole"),
  (61, "Xpeo"),
  (101, "Xsux"),
  (192, "Yezi"),
  (41, "Yiii"),
  (177, "Zanb"),
  (1, "Zinh"),
  (128, "Zmth"),
  (174, "Zsye"),
  (129, "Zsym"),
  (102, "Zxxx"),
  (0, "Zyyy"),
  (103, "Zzzz")]

/-- UnicodeData/UCDTypeDictionaries.py:880-885 `verticalOrientationNames`, keys resolved with uchar_h.py and uscript_h.py. -/
def verticalOrientationNames : List (Nat × String) :=
 [(0, "R"),
  (1, "Tr"),
  (2, "Tu"),
  (3, "U")]

/-- UnicodeData/UCDTypeDictionaries.py:887-911 `wordBreakNames`, keys resolved with uchar_h.py and uscript_h.py. -/
def wordBreakNames : List (Nat × String) :=
 [(8, "CR"),
  (16, "DQ"),
  (17, "EB"),
  (18, "EBG"),
  (19, "EM"),
  (7, "EX"),
  (9, "Extend"),
  (2, "FO"),
  (20, "GAZ"),
  (14, "HL"),
  (3, "KA"),
  (1, "LE"),
  (10, "LF"),
  (11, "MB"),
  (4, "ML"),
  (5, "MN"),
  (12, "NL"),
  (6, "NU"),
  (13, "RI"),
  (15, "SQ"),
  (22, "WSegSpace"),
  (0, "XX"),
  (21, "ZWJ")]

end Verif.Data
