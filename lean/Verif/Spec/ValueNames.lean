/-!
# Long names of property values

From PropertyValueAliases.txt and Blocks.txt. The short names are written as the library writes them: with spaces for underscores,
and those of decomposition types in lower case.
-/
namespace Verif.Spec

/-- General_Category: short and long name of each value. -/
def categoryAliases : List (String × String) :=
  [("Cn", "Unassigned"), ("Lu", "Uppercase_Letter"), ("Ll", "Lowercase_Letter"), ("Lt", "Titlecase_Letter"),
   ("Lm", "Modifier_Letter"), ("Lo", "Other_Letter"), ("Mn", "Nonspacing_Mark"), ("Me", "Enclosing_Mark"),
   ("Mc", "Spacing_Mark"), ("Nd", "Decimal_Number"), ("Nl", "Letter_Number"), ("No", "Other_Number"), ("Zs", "Space_Separator"),
   ("Zl", "Line_Separator"), ("Zp", "Paragraph_Separator"), ("Cc", "Control"), ("Cf", "Format"), ("Co", "Private_Use"),
   ("Cs", "Surrogate"), ("Pd", "Dash_Punctuation"), ("Ps", "Open_Punctuation"), ("Pe", "Close_Punctuation"),
   ("Pc", "Connector_Punctuation"), ("Po", "Other_Punctuation"), ("Sm", "Math_Symbol"), ("Sc", "Currency_Symbol"),
   ("Sk", "Modifier_Symbol"), ("So", "Other_Symbol"), ("Pi", "Initial_Punctuation"), ("Pf", "Final_Punctuation")]

/-- Bidi_Class: short and long name of each value. -/
def classAliases : List (String × String) :=
  [("L", "Left_To_Right"), ("R", "Right_To_Left"), ("EN", "European_Number"), ("ES", "European_Separator"),
   ("ET", "European_Terminator"), ("AN", "Arabic_Number"), ("CS", "Common_Separator"), ("B", "Paragraph_Separator"),
   ("S", "Segment_Separator"), ("WS", "White_Space"), ("ON", "Other_Neutral"), ("LRE", "Left_To_Right_Embedding"),
   ("LRO", "Left_To_Right_Override"), ("AL", "Arabic_Letter"), ("RLE", "Right_To_Left_Embedding"),
   ("RLO", "Right_To_Left_Override"), ("PDF", "Pop_Directional_Format"), ("NSM", "Nonspacing_Mark"), ("BN", "Boundary_Neutral"),
   ("FSI", "First_Strong_Isolate"), ("LRI", "Left_To_Right_Isolate"), ("RLI", "Right_To_Left_Isolate"),
   ("PDI", "Pop_Directional_Isolate")]

/-- Joining_Type: short and long name of each value. -/
def joiningAliases : List (String × String) :=
  [("U", "Non_Joining"), ("C", "Join_Causing"), ("D", "Dual_Joining"), ("L", "Left_Joining"), ("R", "Right_Joining"),
   ("T", "Transparent")]

/-- Joining_Group: short and long name of each value. -/
def groupAliases : List (String × String) :=
  [("No Joining Group", "No_Joining_Group"), ("Ain", "Ain"), ("Alaph", "Alaph"), ("Alef", "Alef"), ("Beh", "Beh"),
   ("Beth", "Beth"), ("Dal", "Dal"), ("Dalath Rish", "Dalath_Rish"), ("E", "E"), ("Feh", "Feh"),
   ("Final Semkath", "Final_Semkath"), ("Gaf", "Gaf"), ("Gamal", "Gamal"), ("Hah", "Hah"),
   ("Teh Marbuta Goal", "Hamza_On_Heh_Goal"), ("He", "He"), ("Heh", "Heh"), ("Heh Goal", "Heh_Goal"), ("Heth", "Heth"),
   ("Kaf", "Kaf"), ("Kaph", "Kaph"), ("Knotted Heh", "Knotted_Heh"), ("Lam", "Lam"), ("Lamadh", "Lamadh"), ("Meem", "Meem"),
   ("Mim", "Mim"), ("Noon", "Noon"), ("Nun", "Nun"), ("Pe", "Pe"), ("Qaf", "Qaf"), ("Qaph", "Qaph"), ("Reh", "Reh"),
   ("Reversed Pe", "Reversed_Pe"), ("Sad", "Sad"), ("Sadhe", "Sadhe"), ("Seen", "Seen"), ("Semkath", "Semkath"),
   ("Shin", "Shin"), ("Swash Kaf", "Swash_Kaf"), ("Syriac Waw", "Syriac_Waw"), ("Tah", "Tah"), ("Taw", "Taw"),
   ("Teh Marbuta", "Teh_Marbuta"), ("Teth", "Teth"), ("Waw", "Waw"), ("Yeh", "Yeh"), ("Yeh Barree", "Yeh_Barree"),
   ("Yeh With Tail", "Yeh_With_Tail"), ("Yudh", "Yudh"), ("Yudh He", "Yudh_He"), ("Zain", "Zain"), ("Fe", "Fe"),
   ("Khaph", "Khaph"), ("Zhain", "Zhain"), ("Burushaski Yeh Barree", "Burushaski_Yeh_Barree"), ("Farsi Yeh", "Farsi_Yeh"),
   ("Nya", "Nya"), ("Rohingya Yeh", "Rohingya_Yeh"), ("Manichaean Aleph", "Manichaean_Aleph"),
   ("Manichaean Ayin", "Manichaean_Ayin"), ("Manichaean Beth", "Manichaean_Beth"), ("Manichaean Daleth", "Manichaean_Daleth"),
   ("Manichaean Dhamedh", "Manichaean_Dhamedh"), ("Manichaean Five", "Manichaean_Five"),
   ("Manichaean Gimel", "Manichaean_Gimel"), ("Manichaean Heth", "Manichaean_Heth"),
   ("Manichaean Hundred", "Manichaean_Hundred"), ("Manichaean Kaph", "Manichaean_Kaph"),
   ("Manichaean Lamedh", "Manichaean_Lamedh"), ("Manichaean Mem", "Manichaean_Mem"), ("Manichaean Nun", "Manichaean_Nun"),
   ("Manichaean One", "Manichaean_One"), ("Manichaean Pe", "Manichaean_Pe"), ("Manichaean Qoph", "Manichaean_Qoph"),
   ("Manichaean Resh", "Manichaean_Resh"), ("Manichaean Sadhe", "Manichaean_Sadhe"), ("Manichaean Samekh", "Manichaean_Samekh"),
   ("Manichaean Taw", "Manichaean_Taw"), ("Manichaean Ten", "Manichaean_Ten"), ("Manichaean Teth", "Manichaean_Teth"),
   ("Manichaean Thamedh", "Manichaean_Thamedh"), ("Manichaean Twenty", "Manichaean_Twenty"),
   ("Manichaean Waw", "Manichaean_Waw"), ("Manichaean Yodh", "Manichaean_Yodh"), ("Manichaean Zayin", "Manichaean_Zayin"),
   ("Straight Waw", "Straight_Waw"), ("African Feh", "African_Feh"), ("African Noon", "African_Noon"),
   ("African Qaf", "African_Qaf"), ("Malayalam Bha", "Malayalam_Bha"), ("Malayalam Ja", "Malayalam_Ja"),
   ("Malayalam Lla", "Malayalam_Lla"), ("Malayalam Llla", "Malayalam_Llla"), ("Malayalam Nga", "Malayalam_Nga"),
   ("Malayalam Nna", "Malayalam_Nna"), ("Malayalam Nnna", "Malayalam_Nnna"), ("Malayalam Nya", "Malayalam_Nya"),
   ("Malayalam Ra", "Malayalam_Ra"), ("Malayalam Ssa", "Malayalam_Ssa"), ("Malayalam Tta", "Malayalam_Tta"),
   ("Hanifi Rohingya Kinna Ya", "Hanifi_Rohingya_Kinna_Ya"), ("Hanifi Rohingya Pa", "Hanifi_Rohingya_Pa")]

/-- Grapheme_Cluster_Break: short and long name of each value. -/
def graphemeAliases : List (String × String) :=
  [("XX", "Other"), ("CN", "Control"), ("CR", "CR"), ("EX", "Extend"), ("L", "L"), ("LF", "LF"), ("LV", "LV"), ("LVT", "LVT"),
   ("T", "T"), ("V", "V"), ("SM", "SpacingMark"), ("PP", "Prepend"), ("RI", "Regional_Indicator"), ("EB", "E_Base"),
   ("EBG", "E_Base_GAZ"), ("EM", "E_Modifier"), ("GAZ", "Glue_After_Zwj"), ("ZWJ", "ZWJ")]

/-- Word_Break: short and long name of each value. -/
def wordAliases : List (String × String) :=
  [("XX", "Other"), ("LE", "ALetter"), ("FO", "Format"), ("KA", "Katakana"), ("ML", "MidLetter"), ("MN", "MidNum"),
   ("NU", "Numeric"), ("EX", "ExtendNumLet"), ("CR", "CR"), ("Extend", "Extend"), ("LF", "LF"), ("MB", "MidNumLet"),
   ("NL", "Newline"), ("RI", "Regional_Indicator"), ("HL", "Hebrew_Letter"), ("SQ", "Single_Quote"), ("DQ", "Double_Quote"),
   ("EB", "E_Base"), ("EBG", "E_Base_GAZ"), ("EM", "E_Modifier"), ("GAZ", "Glue_After_Zwj"), ("ZWJ", "ZWJ"),
   ("WSegSpace", "WSegSpace")]

/-- Sentence_Break: short and long name of each value. -/
def sentenceAliases : List (String × String) :=
  [("XX", "Other"), ("AT", "ATerm"), ("CL", "Close"), ("FO", "Format"), ("LO", "Lower"), ("NU", "Numeric"), ("LE", "OLetter"),
   ("SE", "Sep"), ("SP", "Sp"), ("ST", "STerm"), ("UP", "Upper"), ("CR", "CR"), ("EX", "Extend"), ("LF", "LF"),
   ("SC", "SContinue")]

/-- Line_Break: short and long name of each value. -/
def lineAliases : List (String × String) :=
  [("XX", "Unknown"), ("AI", "Ambiguous"), ("AL", "Alphabetic"), ("B2", "Break_Both"), ("BA", "Break_After"),
   ("BB", "Break_Before"), ("BK", "Mandatory_Break"), ("CB", "Contingent_Break"), ("CL", "Close_Punctuation"),
   ("CM", "Combining_Mark"), ("CR", "Carriage_Return"), ("EX", "Exclamation"), ("GL", "Glue"), ("HY", "Hyphen"),
   ("ID", "Ideographic"), ("IN", "Inseparable"), ("IS", "Infix_Numeric"), ("LF", "Line_Feed"), ("NS", "Nonstarter"),
   ("NU", "Numeric"), ("OP", "Open_Punctuation"), ("PO", "Postfix_Numeric"), ("PR", "Prefix_Numeric"), ("QU", "Quotation"),
   ("SA", "Complex_Context"), ("SG", "Surrogate"), ("SP", "Space"), ("SY", "Break_Symbols"), ("ZW", "ZWSpace"),
   ("NL", "Next_Line"), ("WJ", "Word_Joiner"), ("H2", "H2"), ("H3", "H3"), ("JL", "JL"), ("JT", "JT"), ("JV", "JV"),
   ("CP", "Close_Parenthesis"), ("CJ", "Conditional_Japanese_Starter"), ("HL", "Hebrew_Letter"), ("RI", "Regional_Indicator"),
   ("EB", "E_Base"), ("EM", "E_Modifier"), ("ZWJ", "ZWJ")]

/-- East_Asian_Width: short and long name of each value. -/
def widthAliases : List (String × String) :=
  [("N", "Neutral"), ("A", "Ambiguous"), ("H", "Halfwidth"), ("F", "Fullwidth"), ("Na", "Narrow"), ("W", "Wide")]

/-- Decomposition_Type: short and long name of each value. -/
def decompositionAliases : List (String × String) :=
  [("none", "None"), ("can", "Canonical"), ("com", "Compat"), ("enc", "Circle"), ("fin", "Final"), ("font", "Font"),
   ("fra", "Fraction"), ("init", "Initial"), ("iso", "Isolated"), ("med", "Medial"), ("nar", "Narrow"), ("nb", "Nobreak"),
   ("sml", "Small"), ("sqr", "Square"), ("sub", "Sub"), ("sup", "Super"), ("vert", "Vertical"), ("wide", "Wide")]

/-- Script: short and long name of each value. -/
def scriptAliases : List (String × String) :=
  [("Zyyy", "Common"), ("Zinh", "Inherited"), ("Arab", "Arabic"), ("Armn", "Armenian"), ("Beng", "Bengali"),
   ("Bopo", "Bopomofo"), ("Cher", "Cherokee"), ("Copt", "Coptic"), ("Cyrl", "Cyrillic"), ("Dsrt", "Deseret"),
   ("Deva", "Devanagari"), ("Ethi", "Ethiopic"), ("Geor", "Georgian"), ("Goth", "Gothic"), ("Grek", "Greek"),
   ("Gujr", "Gujarati"), ("Guru", "Gurmukhi"), ("Hani", "Han"), ("Hang", "Hangul"), ("Hebr", "Hebrew"), ("Hira", "Hiragana"),
   ("Knda", "Kannada"), ("Kana", "Katakana"), ("Khmr", "Khmer"), ("Laoo", "Lao"), ("Latn", "Latin"), ("Mlym", "Malayalam"),
   ("Mong", "Mongolian"), ("Mymr", "Myanmar"), ("Ogam", "Ogham"), ("Ital", "Old_Italic"), ("Orya", "Oriya"), ("Runr", "Runic"),
   ("Sinh", "Sinhala"), ("Syrc", "Syriac"), ("Taml", "Tamil"), ("Telu", "Telugu"), ("Thaa", "Thaana"), ("Thai", "Thai"),
   ("Tibt", "Tibetan"), ("Cans", "Canadian_Aboriginal"), ("Yiii", "Yi"), ("Tglg", "Tagalog"), ("Hano", "Hanunoo"),
   ("Buhd", "Buhid"), ("Tagb", "Tagbanwa"), ("Brai", "Braille"), ("Cprt", "Cypriot"), ("Limb", "Limbu"), ("Linb", "Linear_B"),
   ("Osma", "Osmanya"), ("Shaw", "Shavian"), ("Tale", "Tai_Le"), ("Ugar", "Ugaritic"), ("Hrkt", "Katakana_Or_Hiragana"),
   ("Bugi", "Buginese"), ("Glag", "Glagolitic"), ("Khar", "Kharoshthi"), ("Sylo", "Syloti_Nagri"), ("Talu", "New_Tai_Lue"),
   ("Tfng", "Tifinagh"), ("Xpeo", "Old_Persian"), ("Bali", "Balinese"), ("Batk", "Batak"), ("Brah", "Brahmi"), ("Cham", "Cham"),
   ("Egyp", "Egyptian_Hieroglyphs"), ("Hmng", "Pahawh_Hmong"), ("Hung", "Old_Hungarian"), ("Java", "Javanese"),
   ("Kali", "Kayah_Li"), ("Lepc", "Lepcha"), ("Lina", "Linear_A"), ("Mand", "Mandaic"), ("Mero", "Meroitic_Hieroglyphs"),
   ("Nkoo", "Nko"), ("Orkh", "Old_Turkic"), ("Perm", "Old_Permic"), ("Phag", "Phags_Pa"), ("Phnx", "Phoenician"),
   ("Plrd", "Miao"), ("Vaii", "Vai"), ("Xsux", "Cuneiform"), ("Zzzz", "Unknown"), ("Cari", "Carian"), ("Lana", "Tai_Tham"),
   ("Lyci", "Lycian"), ("Lydi", "Lydian"), ("Olck", "Ol_Chiki"), ("Rjng", "Rejang"), ("Saur", "Saurashtra"),
   ("Sgnw", "SignWriting"), ("Sund", "Sundanese"), ("Mtei", "Meetei_Mayek"), ("Armi", "Imperial_Aramaic"), ("Avst", "Avestan"),
   ("Cakm", "Chakma"), ("Kthi", "Kaithi"), ("Mani", "Manichaean"), ("Phli", "Inscriptional_Pahlavi"),
   ("Phlp", "Psalter_Pahlavi"), ("Prti", "Inscriptional_Parthian"), ("Samr", "Samaritan"), ("Tavt", "Tai_Viet"),
   ("Bamu", "Bamum"), ("Lisu", "Lisu"), ("Sarb", "Old_South_Arabian"), ("Bass", "Bassa_Vah"), ("Dupl", "Duployan"),
   ("Elba", "Elbasan"), ("Gran", "Grantha"), ("Mend", "Mende_Kikakui"), ("Merc", "Meroitic_Cursive"),
   ("Narb", "Old_North_Arabian"), ("Nbat", "Nabataean"), ("Palm", "Palmyrene"), ("Sind", "Khudawadi"), ("Wara", "Warang_Citi"),
   ("Mroo", "Mro"), ("Nshu", "Nushu"), ("Shrd", "Sharada"), ("Sora", "Sora_Sompeng"), ("Takr", "Takri"), ("Tang", "Tangut"),
   ("Hluw", "Anatolian_Hieroglyphs"), ("Khoj", "Khojki"), ("Tirh", "Tirhuta"), ("Aghb", "Caucasian_Albanian"),
   ("Mahj", "Mahajani"), ("Ahom", "Ahom"), ("Hatr", "Hatran"), ("Modi", "Modi"), ("Mult", "Multani"), ("Pauc", "Pau_Cin_Hau"),
   ("Sidd", "Siddham"), ("Adlm", "Adlam"), ("Bhks", "Bhaiksuki"), ("Marc", "Marchen"), ("Newa", "Newa"), ("Osge", "Osage"),
   ("Gonm", "Masaram_Gondi"), ("Soyo", "Soyombo"), ("Zanb", "Zanabazar_Square"), ("Dogr", "Dogra"), ("Gong", "Gunjala_Gondi"),
   ("Maka", "Makasar"), ("Medf", "Medefaidrin"), ("Rohg", "Hanifi_Rohingya"), ("Sogd", "Sogdian"), ("Sogo", "Old_Sogdian"),
   ("Elym", "Elymaic"), ("Hmnp", "Nyiakeng_Puachue_Hmong"), ("Nand", "Nandinagari"), ("Wcho", "Wancho"), ("Chrs", "Chorasmian"),
   ("Diak", "Dives_Akuru"), ("Kits", "Khitan_Small_Script"), ("Yezi", "Yezidi")]

/-- The blocks of Unicode 13.0: first and last code point, short and long name. -/
def blocks : List (Nat × Nat × String × String) :=
  [(0x0, 0x7F, "ASCII", "Basic_Latin"), (0x80, 0xFF, "Latin 1 Sup", "Latin_1_Supplement"),
   (0x100, 0x17F, "Latin Ext A", "Latin_Extended_A"), (0x180, 0x24F, "Latin Ext B", "Latin_Extended_B"),
   (0x250, 0x2AF, "IPA Ext", "IPA_Extensions"), (0x2B0, 0x2FF, "Modifier Letters", "Spacing_Modifier_Letters"),
   (0x300, 0x36F, "Diacriticals", "Combining_Diacritical_Marks"), (0x370, 0x3FF, "Greek", "Greek_And_Coptic"),
   (0x400, 0x4FF, "Cyrillic", "Cyrillic"), (0x500, 0x52F, "Cyrillic Sup", "Cyrillic_Supplement"),
   (0x530, 0x58F, "Armenian", "Armenian"), (0x590, 0x5FF, "Hebrew", "Hebrew"), (0x600, 0x6FF, "Arabic", "Arabic"),
   (0x700, 0x74F, "Syriac", "Syriac"), (0x750, 0x77F, "Arabic Sup", "Arabic_Supplement"), (0x780, 0x7BF, "Thaana", "Thaana"),
   (0x7C0, 0x7FF, "NKo", "NKo"), (0x800, 0x83F, "Samaritan", "Samaritan"), (0x840, 0x85F, "Mandaic", "Mandaic"),
   (0x860, 0x86F, "Syriac Sup", "Syriac_Supplement"), (0x8A0, 0x8FF, "Arabic Ext A", "Arabic_Extended_A"),
   (0x900, 0x97F, "Devanagari", "Devanagari"), (0x980, 0x9FF, "Bengali", "Bengali"), (0xA00, 0xA7F, "Gurmukhi", "Gurmukhi"),
   (0xA80, 0xAFF, "Gujarati", "Gujarati"), (0xB00, 0xB7F, "Oriya", "Oriya"), (0xB80, 0xBFF, "Tamil", "Tamil"),
   (0xC00, 0xC7F, "Telugu", "Telugu"), (0xC80, 0xCFF, "Kannada", "Kannada"), (0xD00, 0xD7F, "Malayalam", "Malayalam"),
   (0xD80, 0xDFF, "Sinhala", "Sinhala"), (0xE00, 0xE7F, "Thai", "Thai"), (0xE80, 0xEFF, "Lao", "Lao"),
   (0xF00, 0xFFF, "Tibetan", "Tibetan"), (0x1000, 0x109F, "Myanmar", "Myanmar"), (0x10A0, 0x10FF, "Georgian", "Georgian"),
   (0x1100, 0x11FF, "Jamo", "Hangul_Jamo"), (0x1200, 0x137F, "Ethiopic", "Ethiopic"),
   (0x1380, 0x139F, "Ethiopic Sup", "Ethiopic_Supplement"), (0x13A0, 0x13FF, "Cherokee", "Cherokee"),
   (0x1400, 0x167F, "UCAS", "Unified_Canadian_Aboriginal_Syllabics"), (0x1680, 0x169F, "Ogham", "Ogham"),
   (0x16A0, 0x16FF, "Runic", "Runic"), (0x1700, 0x171F, "Tagalog", "Tagalog"), (0x1720, 0x173F, "Hanunoo", "Hanunoo"),
   (0x1740, 0x175F, "Buhid", "Buhid"), (0x1760, 0x177F, "Tagbanwa", "Tagbanwa"), (0x1780, 0x17FF, "Khmer", "Khmer"),
   (0x1800, 0x18AF, "Mongolian", "Mongolian"), (0x18B0, 0x18FF, "UCAS Ext", "Unified_Canadian_Aboriginal_Syllabics_Extended"),
   (0x1900, 0x194F, "Limbu", "Limbu"), (0x1950, 0x197F, "Tai Le", "Tai_Le"), (0x1980, 0x19DF, "New Tai Lue", "New_Tai_Lue"),
   (0x19E0, 0x19FF, "Khmer Symbols", "Khmer_Symbols"), (0x1A00, 0x1A1F, "Buginese", "Buginese"),
   (0x1A20, 0x1AAF, "Tai Tham", "Tai_Tham"), (0x1AB0, 0x1AFF, "Diacriticals Ext", "Combining_Diacritical_Marks_Extended"),
   (0x1B00, 0x1B7F, "Balinese", "Balinese"), (0x1B80, 0x1BBF, "Sundanese", "Sundanese"), (0x1BC0, 0x1BFF, "Batak", "Batak"),
   (0x1C00, 0x1C4F, "Lepcha", "Lepcha"), (0x1C50, 0x1C7F, "Ol Chiki", "Ol_Chiki"),
   (0x1C80, 0x1C8F, "Cyrillic Ext C", "Cyrillic_Extended_C"), (0x1C90, 0x1CBF, "Georgian Ext", "Georgian_Extended"),
   (0x1CC0, 0x1CCF, "Sundanese Sup", "Sundanese_Supplement"), (0x1CD0, 0x1CFF, "Vedic Ext", "Vedic_Extensions"),
   (0x1D00, 0x1D7F, "Phonetic Ext", "Phonetic_Extensions"),
   (0x1D80, 0x1DBF, "Phonetic Ext Sup", "Phonetic_Extensions_Supplement"),
   (0x1DC0, 0x1DFF, "Diacriticals Sup", "Combining_Diacritical_Marks_Supplement"),
   (0x1E00, 0x1EFF, "Latin Ext Additional", "Latin_Extended_Additional"), (0x1F00, 0x1FFF, "Greek Ext", "Greek_Extended"),
   (0x2000, 0x206F, "Punctuation", "General_Punctuation"), (0x2070, 0x209F, "Super And Sub", "Superscripts_And_Subscripts"),
   (0x20A0, 0x20CF, "Currency Symbols", "Currency_Symbols"),
   (0x20D0, 0x20FF, "Diacriticals For Symbols", "Combining_Diacritical_Marks_For_Symbols"),
   (0x2100, 0x214F, "Letterlike Symbols", "Letterlike_Symbols"), (0x2150, 0x218F, "Number Forms", "Number_Forms"),
   (0x2190, 0x21FF, "Arrows", "Arrows"), (0x2200, 0x22FF, "Math Operators", "Mathematical_Operators"),
   (0x2300, 0x23FF, "Misc Technical", "Miscellaneous_Technical"), (0x2400, 0x243F, "Control Pictures", "Control_Pictures"),
   (0x2440, 0x245F, "OCR", "Optical_Character_Recognition"), (0x2460, 0x24FF, "Enclosed Alphanum", "Enclosed_Alphanumerics"),
   (0x2500, 0x257F, "Box Drawing", "Box_Drawing"), (0x2580, 0x259F, "Block Elements", "Block_Elements"),
   (0x25A0, 0x25FF, "Geometric Shapes", "Geometric_Shapes"), (0x2600, 0x26FF, "Misc Symbols", "Miscellaneous_Symbols"),
   (0x2700, 0x27BF, "Dingbats", "Dingbats"), (0x27C0, 0x27EF, "Misc Math Symbols A", "Miscellaneous_Mathematical_Symbols_A"),
   (0x27F0, 0x27FF, "Sup Arrows A", "Supplemental_Arrows_A"), (0x2800, 0x28FF, "Braille", "Braille_Patterns"),
   (0x2900, 0x297F, "Sup Arrows B", "Supplemental_Arrows_B"),
   (0x2980, 0x29FF, "Misc Math Symbols B", "Miscellaneous_Mathematical_Symbols_B"),
   (0x2A00, 0x2AFF, "Sup Math Operators", "Supplemental_Mathematical_Operators"),
   (0x2B00, 0x2BFF, "Misc Arrows", "Miscellaneous_Symbols_And_Arrows"), (0x2C00, 0x2C5F, "Glagolitic", "Glagolitic"),
   (0x2C60, 0x2C7F, "Latin Ext C", "Latin_Extended_C"), (0x2C80, 0x2CFF, "Coptic", "Coptic"),
   (0x2D00, 0x2D2F, "Georgian Sup", "Georgian_Supplement"), (0x2D30, 0x2D7F, "Tifinagh", "Tifinagh"),
   (0x2D80, 0x2DDF, "Ethiopic Ext", "Ethiopic_Extended"), (0x2DE0, 0x2DFF, "Cyrillic Ext A", "Cyrillic_Extended_A"),
   (0x2E00, 0x2E7F, "Sup Punctuation", "Supplemental_Punctuation"),
   (0x2E80, 0x2EFF, "CJK Radicals Sup", "CJK_Radicals_Supplement"), (0x2F00, 0x2FDF, "Kangxi", "Kangxi_Radicals"),
   (0x2FF0, 0x2FFF, "IDC", "Ideographic_Description_Characters"),
   (0x3000, 0x303F, "CJK Symbols", "CJK_Symbols_And_Punctuation"), (0x3040, 0x309F, "Hiragana", "Hiragana"),
   (0x30A0, 0x30FF, "Katakana", "Katakana"), (0x3100, 0x312F, "Bopomofo", "Bopomofo"),
   (0x3130, 0x318F, "Compat Jamo", "Hangul_Compatibility_Jamo"), (0x3190, 0x319F, "Kanbun", "Kanbun"),
   (0x31A0, 0x31BF, "Bopomofo Ext", "Bopomofo_Extended"), (0x31C0, 0x31EF, "CJK Strokes", "CJK_Strokes"),
   (0x31F0, 0x31FF, "Katakana Ext", "Katakana_Phonetic_Extensions"),
   (0x3200, 0x32FF, "Enclosed CJK", "Enclosed_CJK_Letters_And_Months"), (0x3300, 0x33FF, "CJK Compat", "CJK_Compatibility"),
   (0x3400, 0x4DBF, "CJK Ext A", "CJK_Unified_Ideographs_Extension_A"), (0x4DC0, 0x4DFF, "Yijing", "Yijing_Hexagram_Symbols"),
   (0x4E00, 0x9FFF, "CJK", "CJK_Unified_Ideographs"), (0xA000, 0xA48F, "Yi Syllables", "Yi_Syllables"),
   (0xA490, 0xA4CF, "Yi Radicals", "Yi_Radicals"), (0xA4D0, 0xA4FF, "Lisu", "Lisu"), (0xA500, 0xA63F, "Vai", "Vai"),
   (0xA640, 0xA69F, "Cyrillic Ext B", "Cyrillic_Extended_B"), (0xA6A0, 0xA6FF, "Bamum", "Bamum"),
   (0xA700, 0xA71F, "Modifier Tone Letters", "Modifier_Tone_Letters"), (0xA720, 0xA7FF, "Latin Ext D", "Latin_Extended_D"),
   (0xA800, 0xA82F, "Syloti Nagri", "Syloti_Nagri"), (0xA830, 0xA83F, "Indic Number Forms", "Common_Indic_Number_Forms"),
   (0xA840, 0xA87F, "Phags Pa", "Phags_Pa"), (0xA880, 0xA8DF, "Saurashtra", "Saurashtra"),
   (0xA8E0, 0xA8FF, "Devanagari Ext", "Devanagari_Extended"), (0xA900, 0xA92F, "Kayah Li", "Kayah_Li"),
   (0xA930, 0xA95F, "Rejang", "Rejang"), (0xA960, 0xA97F, "Jamo Ext A", "Hangul_Jamo_Extended_A"),
   (0xA980, 0xA9DF, "Javanese", "Javanese"), (0xA9E0, 0xA9FF, "Myanmar Ext B", "Myanmar_Extended_B"),
   (0xAA00, 0xAA5F, "Cham", "Cham"), (0xAA60, 0xAA7F, "Myanmar Ext A", "Myanmar_Extended_A"),
   (0xAA80, 0xAADF, "Tai Viet", "Tai_Viet"), (0xAAE0, 0xAAFF, "Meetei Mayek Ext", "Meetei_Mayek_Extensions"),
   (0xAB00, 0xAB2F, "Ethiopic Ext A", "Ethiopic_Extended_A"), (0xAB30, 0xAB6F, "Latin Ext E", "Latin_Extended_E"),
   (0xAB70, 0xABBF, "Cherokee Sup", "Cherokee_Supplement"), (0xABC0, 0xABFF, "Meetei Mayek", "Meetei_Mayek"),
   (0xAC00, 0xD7AF, "Hangul", "Hangul_Syllables"), (0xD7B0, 0xD7FF, "Jamo Ext B", "Hangul_Jamo_Extended_B"),
   (0xD800, 0xDB7F, "High Surrogates", "High_Surrogates"),
   (0xDB80, 0xDBFF, "High PU Surrogates", "High_Private_Use_Surrogates"), (0xDC00, 0xDFFF, "Low Surrogates", "Low_Surrogates"),
   (0xE000, 0xF8FF, "PUA", "Private_Use_Area"), (0xF900, 0xFAFF, "CJK Compat Ideographs", "CJK_Compatibility_Ideographs"),
   (0xFB00, 0xFB4F, "Alphabetic PF", "Alphabetic_Presentation_Forms"),
   (0xFB50, 0xFDFF, "Arabic PF A", "Arabic_Presentation_Forms_A"), (0xFE00, 0xFE0F, "VS", "Variation_Selectors"),
   (0xFE10, 0xFE1F, "Vertical Forms", "Vertical_Forms"), (0xFE20, 0xFE2F, "Half Marks", "Combining_Half_Marks"),
   (0xFE30, 0xFE4F, "CJK Compat Forms", "CJK_Compatibility_Forms"), (0xFE50, 0xFE6F, "Small Forms", "Small_Form_Variants"),
   (0xFE70, 0xFEFF, "Arabic PF B", "Arabic_Presentation_Forms_B"),
   (0xFF00, 0xFFEF, "Half And Full Forms", "Halfwidth_And_Fullwidth_Forms"), (0xFFF0, 0xFFFF, "Specials", "Specials"),
   (0x10000, 0x1007F, "Linear B Syllabary", "Linear_B_Syllabary"),
   (0x10080, 0x100FF, "Linear B Ideograms", "Linear_B_Ideograms"), (0x10100, 0x1013F, "Aegean Numbers", "Aegean_Numbers"),
   (0x10140, 0x1018F, "Ancient Greek Numbers", "Ancient_Greek_Numbers"),
   (0x10190, 0x101CF, "Ancient Symbols", "Ancient_Symbols"), (0x101D0, 0x101FF, "Phaistos", "Phaistos_Disc"),
   (0x10280, 0x1029F, "Lycian", "Lycian"), (0x102A0, 0x102DF, "Carian", "Carian"),
   (0x102E0, 0x102FF, "Coptic Epact Numbers", "Coptic_Epact_Numbers"), (0x10300, 0x1032F, "Old Italic", "Old_Italic"),
   (0x10330, 0x1034F, "Gothic", "Gothic"), (0x10350, 0x1037F, "Old Permic", "Old_Permic"),
   (0x10380, 0x1039F, "Ugaritic", "Ugaritic"), (0x103A0, 0x103DF, "Old Persian", "Old_Persian"),
   (0x10400, 0x1044F, "Deseret", "Deseret"), (0x10450, 0x1047F, "Shavian", "Shavian"), (0x10480, 0x104AF, "Osmanya", "Osmanya"),
   (0x104B0, 0x104FF, "Osage", "Osage"), (0x10500, 0x1052F, "Elbasan", "Elbasan"),
   (0x10530, 0x1056F, "Caucasian Albanian", "Caucasian_Albanian"), (0x10600, 0x1077F, "Linear A", "Linear_A"),
   (0x10800, 0x1083F, "Cypriot Syllabary", "Cypriot_Syllabary"), (0x10840, 0x1085F, "Imperial Aramaic", "Imperial_Aramaic"),
   (0x10860, 0x1087F, "Palmyrene", "Palmyrene"), (0x10880, 0x108AF, "Nabataean", "Nabataean"),
   (0x108E0, 0x108FF, "Hatran", "Hatran"), (0x10900, 0x1091F, "Phoenician", "Phoenician"),
   (0x10920, 0x1093F, "Lydian", "Lydian"), (0x10980, 0x1099F, "Meroitic Hieroglyphs", "Meroitic_Hieroglyphs"),
   (0x109A0, 0x109FF, "Meroitic Cursive", "Meroitic_Cursive"), (0x10A00, 0x10A5F, "Kharoshthi", "Kharoshthi"),
   (0x10A60, 0x10A7F, "Old South Arabian", "Old_South_Arabian"), (0x10A80, 0x10A9F, "Old North Arabian", "Old_North_Arabian"),
   (0x10AC0, 0x10AFF, "Manichaean", "Manichaean"), (0x10B00, 0x10B3F, "Avestan", "Avestan"),
   (0x10B40, 0x10B5F, "Inscriptional Parthian", "Inscriptional_Parthian"),
   (0x10B60, 0x10B7F, "Inscriptional Pahlavi", "Inscriptional_Pahlavi"),
   (0x10B80, 0x10BAF, "Psalter Pahlavi", "Psalter_Pahlavi"), (0x10C00, 0x10C4F, "Old Turkic", "Old_Turkic"),
   (0x10C80, 0x10CFF, "Old Hungarian", "Old_Hungarian"), (0x10D00, 0x10D3F, "Hanifi Rohingya", "Hanifi_Rohingya"),
   (0x10E60, 0x10E7F, "Rumi", "Rumi_Numeral_Symbols"), (0x10E80, 0x10EBF, "Yezidi", "Yezidi"),
   (0x10F00, 0x10F2F, "Old Sogdian", "Old_Sogdian"), (0x10F30, 0x10F6F, "Sogdian", "Sogdian"),
   (0x10FB0, 0x10FDF, "Chorasmian", "Chorasmian"), (0x10FE0, 0x10FFF, "Elymaic", "Elymaic"),
   (0x11000, 0x1107F, "Brahmi", "Brahmi"), (0x11080, 0x110CF, "Kaithi", "Kaithi"),
   (0x110D0, 0x110FF, "Sora Sompeng", "Sora_Sompeng"), (0x11100, 0x1114F, "Chakma", "Chakma"),
   (0x11150, 0x1117F, "Mahajani", "Mahajani"), (0x11180, 0x111DF, "Sharada", "Sharada"),
   (0x111E0, 0x111FF, "Sinhala Archaic Numbers", "Sinhala_Archaic_Numbers"), (0x11200, 0x1124F, "Khojki", "Khojki"),
   (0x11280, 0x112AF, "Multani", "Multani"), (0x112B0, 0x112FF, "Khudawadi", "Khudawadi"),
   (0x11300, 0x1137F, "Grantha", "Grantha"), (0x11400, 0x1147F, "Newa", "Newa"), (0x11480, 0x114DF, "Tirhuta", "Tirhuta"),
   (0x11580, 0x115FF, "Siddham", "Siddham"), (0x11600, 0x1165F, "Modi", "Modi"),
   (0x11660, 0x1167F, "Mongolian Sup", "Mongolian_Supplement"), (0x11680, 0x116CF, "Takri", "Takri"),
   (0x11700, 0x1173F, "Ahom", "Ahom"), (0x11800, 0x1184F, "Dogra", "Dogra"), (0x118A0, 0x118FF, "Warang Citi", "Warang_Citi"),
   (0x11900, 0x1195F, "Dives Akuru", "Dives_Akuru"), (0x119A0, 0x119FF, "Nandinagari", "Nandinagari"),
   (0x11A00, 0x11A4F, "Zanabazar Square", "Zanabazar_Square"), (0x11A50, 0x11AAF, "Soyombo", "Soyombo"),
   (0x11AC0, 0x11AFF, "Pau Cin Hau", "Pau_Cin_Hau"), (0x11C00, 0x11C6F, "Bhaiksuki", "Bhaiksuki"),
   (0x11C70, 0x11CBF, "Marchen", "Marchen"), (0x11D00, 0x11D5F, "Masaram Gondi", "Masaram_Gondi"),
   (0x11D60, 0x11DAF, "Gunjala Gondi", "Gunjala_Gondi"), (0x11EE0, 0x11EFF, "Makasar", "Makasar"),
   (0x11FB0, 0x11FBF, "Lisu Sup", "Lisu_Supplement"), (0x11FC0, 0x11FFF, "Tamil Sup", "Tamil_Supplement"),
   (0x12000, 0x123FF, "Cuneiform", "Cuneiform"), (0x12400, 0x1247F, "Cuneiform Numbers", "Cuneiform_Numbers_And_Punctuation"),
   (0x12480, 0x1254F, "Early Dynastic Cuneiform", "Early_Dynastic_Cuneiform"),
   (0x13000, 0x1342F, "Egyptian Hieroglyphs", "Egyptian_Hieroglyphs"),
   (0x13430, 0x1343F, "Egyptian Hieroglyph Format Controls", "Egyptian_Hieroglyph_Format_Controls"),
   (0x14400, 0x1467F, "Anatolian Hieroglyphs", "Anatolian_Hieroglyphs"), (0x16800, 0x16A3F, "Bamum Sup", "Bamum_Supplement"),
   (0x16A40, 0x16A6F, "Mro", "Mro"), (0x16AD0, 0x16AFF, "Bassa Vah", "Bassa_Vah"),
   (0x16B00, 0x16B8F, "Pahawh Hmong", "Pahawh_Hmong"), (0x16E40, 0x16E9F, "Medefaidrin", "Medefaidrin"),
   (0x16F00, 0x16F9F, "Miao", "Miao"), (0x16FE0, 0x16FFF, "Ideographic Symbols", "Ideographic_Symbols_And_Punctuation"),
   (0x17000, 0x187FF, "Tangut", "Tangut"), (0x18800, 0x18AFF, "Tangut Components", "Tangut_Components"),
   (0x18B00, 0x18CFF, "Khitan Small Script", "Khitan_Small_Script"), (0x18D00, 0x18D8F, "Tangut Sup", "Tangut_Supplement"),
   (0x1B000, 0x1B0FF, "Kana Sup", "Kana_Supplement"), (0x1B100, 0x1B12F, "Kana Ext A", "Kana_Extended_A"),
   (0x1B130, 0x1B16F, "Small Kana Ext", "Small_Kana_Extension"), (0x1B170, 0x1B2FF, "Nushu", "Nushu"),
   (0x1BC00, 0x1BC9F, "Duployan", "Duployan"), (0x1BCA0, 0x1BCAF, "Shorthand Format Controls", "Shorthand_Format_Controls"),
   (0x1D000, 0x1D0FF, "Byzantine Music", "Byzantine_Musical_Symbols"), (0x1D100, 0x1D1FF, "Music", "Musical_Symbols"),
   (0x1D200, 0x1D24F, "Ancient Greek Music", "Ancient_Greek_Musical_Notation"),
   (0x1D2E0, 0x1D2FF, "Mayan Numerals", "Mayan_Numerals"), (0x1D300, 0x1D35F, "Tai Xuan Jing", "Tai_Xuan_Jing_Symbols"),
   (0x1D360, 0x1D37F, "Counting Rod", "Counting_Rod_Numerals"),
   (0x1D400, 0x1D7FF, "Math Alphanum", "Mathematical_Alphanumeric_Symbols"),
   (0x1D800, 0x1DAAF, "Sutton SignWriting", "Sutton_SignWriting"),
   (0x1E000, 0x1E02F, "Glagolitic Sup", "Glagolitic_Supplement"),
   (0x1E100, 0x1E14F, "Nyiakeng Puachue Hmong", "Nyiakeng_Puachue_Hmong"), (0x1E2C0, 0x1E2FF, "Wancho", "Wancho"),
   (0x1E800, 0x1E8DF, "Mende Kikakui", "Mende_Kikakui"), (0x1E900, 0x1E95F, "Adlam", "Adlam"),
   (0x1EC70, 0x1ECBF, "Indic Siyaq Numbers", "Indic_Siyaq_Numbers"),
   (0x1ED00, 0x1ED4F, "Ottoman Siyaq Numbers", "Ottoman_Siyaq_Numbers"),
   (0x1EE00, 0x1EEFF, "Arabic Math", "Arabic_Mathematical_Alphabetic_Symbols"), (0x1F000, 0x1F02F, "Mahjong", "Mahjong_Tiles"),
   (0x1F030, 0x1F09F, "Domino", "Domino_Tiles"), (0x1F0A0, 0x1F0FF, "Playing Cards", "Playing_Cards"),
   (0x1F100, 0x1F1FF, "Enclosed Alphanum Sup", "Enclosed_Alphanumeric_Supplement"),
   (0x1F200, 0x1F2FF, "Enclosed Ideographic Sup", "Enclosed_Ideographic_Supplement"),
   (0x1F300, 0x1F5FF, "Misc Pictographs", "Miscellaneous_Symbols_And_Pictographs"),
   (0x1F600, 0x1F64F, "Emoticons", "Emoticons"), (0x1F650, 0x1F67F, "Ornamental Dingbats", "Ornamental_Dingbats"),
   (0x1F680, 0x1F6FF, "Transport And Map", "Transport_And_Map_Symbols"), (0x1F700, 0x1F77F, "Alchemical", "Alchemical_Symbols"),
   (0x1F780, 0x1F7FF, "Geometric Shapes Ext", "Geometric_Shapes_Extended"),
   (0x1F800, 0x1F8FF, "Sup Arrows C", "Supplemental_Arrows_C"),
   (0x1F900, 0x1F9FF, "Sup Symbols And Pictographs", "Supplemental_Symbols_And_Pictographs"),
   (0x1FA00, 0x1FA6F, "Chess Symbols", "Chess_Symbols"),
   (0x1FA70, 0x1FAFF, "Symbols And Pictographs Ext A", "Symbols_And_Pictographs_Extended_A"),
   (0x1FB00, 0x1FBFF, "Symbols For Legacy Computing", "Symbols_For_Legacy_Computing"),
   (0x20000, 0x2A6DF, "CJK Ext B", "CJK_Unified_Ideographs_Extension_B"),
   (0x2A700, 0x2B73F, "CJK Ext C", "CJK_Unified_Ideographs_Extension_C"),
   (0x2B740, 0x2B81F, "CJK Ext D", "CJK_Unified_Ideographs_Extension_D"),
   (0x2B820, 0x2CEAF, "CJK Ext E", "CJK_Unified_Ideographs_Extension_E"),
   (0x2CEB0, 0x2EBEF, "CJK Ext F", "CJK_Unified_Ideographs_Extension_F"),
   (0x2F800, 0x2FA1F, "CJK Compat Ideographs Sup", "CJK_Compatibility_Ideographs_Supplement"),
   (0x30000, 0x3134F, "CJK Ext G", "CJK_Unified_Ideographs_Extension_G"), (0xE0000, 0xE007F, "Tags", "Tags"),
   (0xE0100, 0xE01EF, "VS Sup", "Variation_Selectors_Supplement"),
   (0xF0000, 0xFFFFF, "Sup PUA A", "Supplementary_Private_Use_Area_A"),
   (0x100000, 0x10FFFF, "Sup PUA B", "Supplementary_Private_Use_Area_B")]

/-- Where ICU calls a value otherwise than the standard: property, and pairs of the long name in the standard and the name in ICU's constant. -/
def icuNames : List (String × List (String × String)) :=
  [("bc", [("Arabic_Letter", "RIGHT_TO_LEFT_ARABIC"), ("Paragraph_Separator", "BLOCK_SEPARATOR"),
     ("Common_Separator", "COMMON_NUMBER_SEPARATOR"), ("European_Separator", "EUROPEAN_NUMBER_SEPARATOR"),
     ("European_Terminator", "EUROPEAN_NUMBER_TERMINATOR"), ("Nonspacing_Mark", "DIR_NON_SPACING_MARK"),
     ("White_Space", "WHITE_SPACE_NEUTRAL")]),
   ("blk", [("Combining_Diacritical_Marks_For_Symbols", "COMBINING_MARKS_FOR_SYMBOLS"), ("Greek_And_Coptic", "GREEK")]),
   ("gc", [("Control", "CONTROL_CHAR"), ("Format", "FORMAT_CHAR"), ("Private_Use", "PRIVATE_USE_CHAR"),
     ("Spacing_Mark", "COMBINING_SPACING_MARK"), ("Nonspacing_Mark", "NON_SPACING_MARK"), ("Decimal_Number", "DECIMAL_DIGIT_NUMBER"),
     ("Close_Punctuation", "END_PUNCTUATION"), ("Open_Punctuation", "START_PUNCTUATION")]),
   ("GCB", [("SpacingMark", "SPACING_MARK")]),
   ("sc", [("Tai_Tham", "LANNA"), ("Mende_Kikakui", "MENDE"), ("Meetei_Mayek", "MEITEI_MAYEK"), ("Old_Turkic", "ORKHON"),
     ("SignWriting", "SIGN_WRITING")])]

/-- The code points of a text, small ASCII letters replaced by capital ones. -/
def capitals (s : String) : List Nat := s.toList.map fun ch => if 97 ≤ ch.toNat ∧ ch.toNat ≤ 122 then ch.toNat - 32 else ch.toNat

/-- The name of ICU's constant for the value of `property` with the long name `long`: the prefix for constants of the property, an
underscore, and the name of the value. -/
def constantName (property pre long : String) : List Nat :=
  capitals pre ++ [95] ++ capitals ((((icuNames.lookup property).getD []).lookup long).getD long)

end Verif.Spec
