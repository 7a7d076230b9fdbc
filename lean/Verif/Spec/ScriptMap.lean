/-!
# Scripts of the Unicode standard, version 13.0

Scripts.txt. Lines `first, last, value` in ascending order; code points in none of them have the default value. The
default is Zzzz (103).
-/
namespace Verif.Spec
set_option maxRecDepth 10000

/-- The scripts and their numbers. -/
def scriptLegend : List (Nat × String) :=
  [
   (0, "Zyyy"), (1, "Zinh"), (2, "Arab"), (3, "Armn"), (4, "Beng"), (5, "Bopo"), (6, "Cher"), (7, "Copt"), (8, "Cyrl"), (9, "Dsrt"),
   (10, "Deva"), (11, "Ethi"), (12, "Geor"), (13, "Goth"), (14, "Grek"), (15, "Gujr"), (16, "Guru"), (17, "Hani"), (18, "Hang"),
   (19, "Hebr"), (20, "Hira"), (21, "Knda"), (22, "Kana"), (23, "Khmr"), (24, "Laoo"), (25, "Latn"), (26, "Mlym"), (27, "Mong"),
   (28, "Mymr"), (29, "Ogam"), (30, "Ital"), (31, "Orya"), (32, "Runr"), (33, "Sinh"), (34, "Syrc"), (35, "Taml"), (36, "Telu"),
   (37, "Thaa"), (38, "Thai"), (39, "Tibt"), (40, "Cans"), (41, "Yiii"), (42, "Tglg"), (43, "Hano"), (44, "Buhd"), (45, "Tagb"),
   (46, "Brai"), (47, "Cprt"), (48, "Limb"), (49, "Linb"), (50, "Osma"), (51, "Shaw"), (52, "Tale"), (53, "Ugar"), (54, "Hrkt"),
   (55, "Bugi"), (56, "Glag"), (57, "Khar"), (58, "Sylo"), (59, "Talu"), (60, "Tfng"), (61, "Xpeo"), (62, "Bali"), (63, "Batk"),
   (64, "Blis"), (65, "Brah"), (66, "Cham"), (67, "Cirt"), (68, "Cyrs"), (69, "Egyd"), (70, "Egyh"), (71, "Egyp"), (72, "Geok"),
   (73, "Hans"), (74, "Hant"), (75, "Hmng"), (76, "Hung"), (77, "Inds"), (78, "Java"), (79, "Kali"), (80, "Latf"), (81, "Latg"),
   (82, "Lepc"), (83, "Lina"), (84, "Mand"), (85, "Maya"), (86, "Mero"), (87, "Nkoo"), (88, "Orkh"), (89, "Perm"), (90, "Phag"),
   (91, "Phnx"), (92, "Plrd"), (93, "Roro"), (94, "Sara"), (95, "Syre"), (96, "Syrj"), (97, "Syrn"), (98, "Teng"), (99, "Vaii"),
   (100, "Visp"), (101, "Xsux"), (102, "Zxxx"), (103, "Zzzz"), (104, "Cari"), (105, "Jpan"), (106, "Lana"), (107, "Lyci"),
   (108, "Lydi"), (109, "Olck"), (110, "Rjng"), (111, "Saur"), (112, "Sgnw"), (113, "Sund"), (114, "Moon"), (115, "Mtei"),
   (116, "Armi"), (117, "Avst"), (118, "Cakm"), (119, "Kore"), (120, "Kthi"), (121, "Mani"), (122, "Phli"), (123, "Phlp"),
   (124, "Phlv"), (125, "Prti"), (126, "Samr"), (127, "Tavt"), (128, "Zmth"), (129, "Zsym"), (130, "Bamu"), (131, "Lisu"),
   (132, "Nkgb"), (133, "Sarb"), (134, "Bass"), (135, "Dupl"), (136, "Elba"), (137, "Gran"), (138, "Kpel"), (139, "Loma"),
   (140, "Mend"), (141, "Merc"), (142, "Narb"), (143, "Nbat"), (144, "Palm"), (145, "Sind"), (146, "Wara"), (147, "Afak"),
   (148, "Jurc"), (149, "Mroo"), (150, "Nshu"), (151, "Shrd"), (152, "Sora"), (153, "Takr"), (154, "Tang"), (155, "Wole"),
   (156, "Hluw"), (157, "Khoj"), (158, "Tirh"), (159, "Aghb"), (160, "Mahj"), (161, "Ahom"), (162, "Hatr"), (163, "Modi"),
   (164, "Mult"), (165, "Pauc"), (166, "Sidd"), (167, "Adlm"), (168, "Bhks"), (169, "Marc"), (170, "Newa"), (171, "Osge"),
   (172, "Hanb"), (173, "Jamo"), (174, "Zsye"), (175, "Gonm"), (176, "Soyo"), (177, "Zanb"), (178, "Dogr"), (179, "Gong"),
   (180, "Maka"), (181, "Medf"), (182, "Rohg"), (183, "Sogd"), (184, "Sogo"), (185, "Elym"), (186, "Hmnp"), (187, "Nand"),
   (188, "Wcho"), (189, "Chrs"), (190, "Diak"), (191, "Kits"), (192, "Yezi")]

/-- Script. Part 1. -/
def scriptRuns_1 : List (Nat × Nat × Nat) :=
  [
   (0x0, 0x40, 0), (0x41, 0x5A, 25), (0x5B, 0x60, 0), (0x61, 0x7A, 25), (0x7B, 0xA9, 0), (0xAA, 0xAA, 25), (0xAB, 0xB9, 0),
   (0xBA, 0xBA, 25), (0xBB, 0xBF, 0), (0xC0, 0xD6, 25), (0xD7, 0xD7, 0), (0xD8, 0xF6, 25), (0xF7, 0xF7, 0), (0xF8, 0x2B8, 25),
   (0x2B9, 0x2DF, 0), (0x2E0, 0x2E4, 25), (0x2E5, 0x2E9, 0), (0x2EA, 0x2EB, 5), (0x2EC, 0x2FF, 0), (0x300, 0x36F, 1),
   (0x370, 0x373, 14), (0x374, 0x374, 0), (0x375, 0x377, 14), (0x37A, 0x37D, 14), (0x37E, 0x37E, 0), (0x37F, 0x37F, 14),
   (0x384, 0x384, 14), (0x385, 0x385, 0), (0x386, 0x386, 14), (0x387, 0x387, 0), (0x388, 0x38A, 14), (0x38C, 0x38C, 14),
   (0x38E, 0x3A1, 14), (0x3A3, 0x3E1, 14), (0x3E2, 0x3EF, 7), (0x3F0, 0x3FF, 14), (0x400, 0x484, 8), (0x485, 0x486, 1),
   (0x487, 0x52F, 8), (0x531, 0x556, 3), (0x559, 0x58A, 3), (0x58D, 0x58F, 3), (0x591, 0x5C7, 19), (0x5D0, 0x5EA, 19),
   (0x5EF, 0x5F4, 19), (0x600, 0x604, 2), (0x605, 0x605, 0), (0x606, 0x60B, 2), (0x60C, 0x60C, 0), (0x60D, 0x61A, 2),
   (0x61B, 0x61B, 0), (0x61C, 0x61C, 2), (0x61E, 0x61E, 2), (0x61F, 0x61F, 0), (0x620, 0x63F, 2), (0x640, 0x640, 0),
   (0x641, 0x64A, 2), (0x64B, 0x655, 1), (0x656, 0x66F, 2), (0x670, 0x670, 1), (0x671, 0x6DC, 2), (0x6DD, 0x6DD, 0),
   (0x6DE, 0x6FF, 2), (0x700, 0x70D, 34), (0x70F, 0x74A, 34), (0x74D, 0x74F, 34), (0x750, 0x77F, 2), (0x780, 0x7B1, 37),
   (0x7C0, 0x7FA, 87), (0x7FD, 0x7FF, 87), (0x800, 0x82D, 126), (0x830, 0x83E, 126), (0x840, 0x85B, 84), (0x85E, 0x85E, 84),
   (0x860, 0x86A, 34), (0x8A0, 0x8B4, 2), (0x8B6, 0x8C7, 2), (0x8D3, 0x8E1, 2), (0x8E2, 0x8E2, 0), (0x8E3, 0x8FF, 2),
   (0x900, 0x950, 10), (0x951, 0x954, 1), (0x955, 0x963, 10), (0x964, 0x965, 0), (0x966, 0x97F, 10), (0x980, 0x983, 4),
   (0x985, 0x98C, 4), (0x98F, 0x990, 4), (0x993, 0x9A8, 4), (0x9AA, 0x9B0, 4), (0x9B2, 0x9B2, 4), (0x9B6, 0x9B9, 4),
   (0x9BC, 0x9C4, 4), (0x9C7, 0x9C8, 4), (0x9CB, 0x9CE, 4), (0x9D7, 0x9D7, 4), (0x9DC, 0x9DD, 4), (0x9DF, 0x9E3, 4),
   (0x9E6, 0x9FE, 4), (0xA01, 0xA03, 16), (0xA05, 0xA0A, 16), (0xA0F, 0xA10, 16), (0xA13, 0xA28, 16), (0xA2A, 0xA30, 16),
   (0xA32, 0xA33, 16), (0xA35, 0xA36, 16), (0xA38, 0xA39, 16), (0xA3C, 0xA3C, 16), (0xA3E, 0xA42, 16), (0xA47, 0xA48, 16),
   (0xA4B, 0xA4D, 16), (0xA51, 0xA51, 16), (0xA59, 0xA5C, 16), (0xA5E, 0xA5E, 16), (0xA66, 0xA76, 16), (0xA81, 0xA83, 15),
   (0xA85, 0xA8D, 15), (0xA8F, 0xA91, 15), (0xA93, 0xAA8, 15), (0xAAA, 0xAB0, 15), (0xAB2, 0xAB3, 15), (0xAB5, 0xAB9, 15),
   (0xABC, 0xAC5, 15), (0xAC7, 0xAC9, 15), (0xACB, 0xACD, 15), (0xAD0, 0xAD0, 15), (0xAE0, 0xAE3, 15), (0xAE6, 0xAF1, 15),
   (0xAF9, 0xAFF, 15), (0xB01, 0xB03, 31), (0xB05, 0xB0C, 31), (0xB0F, 0xB10, 31), (0xB13, 0xB28, 31), (0xB2A, 0xB30, 31),
   (0xB32, 0xB33, 31), (0xB35, 0xB39, 31), (0xB3C, 0xB44, 31), (0xB47, 0xB48, 31), (0xB4B, 0xB4D, 31), (0xB55, 0xB57, 31),
   (0xB5C, 0xB5D, 31), (0xB5F, 0xB63, 31), (0xB66, 0xB77, 31), (0xB82, 0xB83, 35), (0xB85, 0xB8A, 35), (0xB8E, 0xB90, 35),
   (0xB92, 0xB95, 35), (0xB99, 0xB9A, 35), (0xB9C, 0xB9C, 35), (0xB9E, 0xB9F, 35), (0xBA3, 0xBA4, 35), (0xBA8, 0xBAA, 35),
   (0xBAE, 0xBB9, 35), (0xBBE, 0xBC2, 35), (0xBC6, 0xBC8, 35), (0xBCA, 0xBCD, 35), (0xBD0, 0xBD0, 35), (0xBD7, 0xBD7, 35),
   (0xBE6, 0xBFA, 35), (0xC00, 0xC0C, 36), (0xC0E, 0xC10, 36), (0xC12, 0xC28, 36), (0xC2A, 0xC39, 36), (0xC3D, 0xC44, 36),
   (0xC46, 0xC48, 36), (0xC4A, 0xC4D, 36), (0xC55, 0xC56, 36), (0xC58, 0xC5A, 36), (0xC60, 0xC63, 36), (0xC66, 0xC6F, 36),
   (0xC77, 0xC7F, 36), (0xC80, 0xC8C, 21), (0xC8E, 0xC90, 21), (0xC92, 0xCA8, 21), (0xCAA, 0xCB3, 21), (0xCB5, 0xCB9, 21),
   (0xCBC, 0xCC4, 21), (0xCC6, 0xCC8, 21), (0xCCA, 0xCCD, 21), (0xCD5, 0xCD6, 21), (0xCDE, 0xCDE, 21), (0xCE0, 0xCE3, 21),
   (0xCE6, 0xCEF, 21), (0xCF1, 0xCF2, 21), (0xD00, 0xD0C, 26), (0xD0E, 0xD10, 26), (0xD12, 0xD44, 26), (0xD46, 0xD48, 26),
   (0xD4A, 0xD4F, 26), (0xD54, 0xD63, 26), (0xD66, 0xD7F, 26), (0xD81, 0xD83, 33), (0xD85, 0xD96, 33), (0xD9A, 0xDB1, 33),
   (0xDB3, 0xDBB, 33), (0xDBD, 0xDBD, 33), (0xDC0, 0xDC6, 33), (0xDCA, 0xDCA, 33), (0xDCF, 0xDD4, 33), (0xDD6, 0xDD6, 33),
   (0xDD8, 0xDDF, 33), (0xDE6, 0xDEF, 33), (0xDF2, 0xDF4, 33), (0xE01, 0xE3A, 38), (0xE3F, 0xE3F, 0), (0xE40, 0xE5B, 38),
   (0xE81, 0xE82, 24), (0xE84, 0xE84, 24), (0xE86, 0xE8A, 24), (0xE8C, 0xEA3, 24), (0xEA5, 0xEA5, 24), (0xEA7, 0xEBD, 24),
   (0xEC0, 0xEC4, 24), (0xEC6, 0xEC6, 24), (0xEC8, 0xECD, 24), (0xED0, 0xED9, 24), (0xEDC, 0xEDF, 24), (0xF00, 0xF47, 39),
   (0xF49, 0xF6C, 39), (0xF71, 0xF97, 39), (0xF99, 0xFBC, 39), (0xFBE, 0xFCC, 39), (0xFCE, 0xFD4, 39), (0xFD5, 0xFD8, 0),
   (0xFD9, 0xFDA, 39), (0x1000, 0x109F, 28), (0x10A0, 0x10C5, 12), (0x10C7, 0x10C7, 12), (0x10CD, 0x10CD, 12), (0x10D0, 0x10FA, 12),
   (0x10FB, 0x10FB, 0), (0x10FC, 0x10FF, 12), (0x1100, 0x11FF, 18), (0x1200, 0x1248, 11), (0x124A, 0x124D, 11),
   (0x1250, 0x1256, 11), (0x1258, 0x1258, 11), (0x125A, 0x125D, 11), (0x1260, 0x1288, 11), (0x128A, 0x128D, 11),
   (0x1290, 0x12B0, 11), (0x12B2, 0x12B5, 11), (0x12B8, 0x12BE, 11), (0x12C0, 0x12C0, 11), (0x12C2, 0x12C5, 11),
   (0x12C8, 0x12D6, 11), (0x12D8, 0x1310, 11), (0x1312, 0x1315, 11), (0x1318, 0x135A, 11), (0x135D, 0x137C, 11),
   (0x1380, 0x1399, 11), (0x13A0, 0x13F5, 6), (0x13F8, 0x13FD, 6), (0x1400, 0x167F, 40), (0x1680, 0x169C, 29), (0x16A0, 0x16EA, 32),
   (0x16EB, 0x16ED, 0), (0x16EE, 0x16F8, 32), (0x1700, 0x170C, 42), (0x170E, 0x1714, 42), (0x1720, 0x1734, 43), (0x1735, 0x1736, 0),
   (0x1740, 0x1753, 44), (0x1760, 0x176C, 45), (0x176E, 0x1770, 45), (0x1772, 0x1773, 45), (0x1780, 0x17DD, 23),
   (0x17E0, 0x17E9, 23), (0x17F0, 0x17F9, 23), (0x1800, 0x1801, 27), (0x1802, 0x1803, 0), (0x1804, 0x1804, 27), (0x1805, 0x1805, 0),
   (0x1806, 0x180E, 27), (0x1810, 0x1819, 27), (0x1820, 0x1878, 27), (0x1880, 0x18AA, 27), (0x18B0, 0x18F5, 40),
   (0x1900, 0x191E, 48), (0x1920, 0x192B, 48), (0x1930, 0x193B, 48), (0x1940, 0x1940, 48), (0x1944, 0x194F, 48),
   (0x1950, 0x196D, 52), (0x1970, 0x1974, 52), (0x1980, 0x19AB, 59), (0x19B0, 0x19C9, 59), (0x19D0, 0x19DA, 59),
   (0x19DE, 0x19DF, 59), (0x19E0, 0x19FF, 23), (0x1A00, 0x1A1B, 55), (0x1A1E, 0x1A1F, 55), (0x1A20, 0x1A5E, 106),
   (0x1A60, 0x1A7C, 106), (0x1A7F, 0x1A89, 106), (0x1A90, 0x1A99, 106), (0x1AA0, 0x1AAD, 106), (0x1AB0, 0x1AC0, 1),
   (0x1B00, 0x1B4B, 62), (0x1B50, 0x1B7C, 62)]

/-- Script. Part 2. -/
def scriptRuns_2 : List (Nat × Nat × Nat) :=
  [
   (0x1B80, 0x1BBF, 113), (0x1BC0, 0x1BF3, 63), (0x1BFC, 0x1BFF, 63), (0x1C00, 0x1C37, 82), (0x1C3B, 0x1C49, 82),
   (0x1C4D, 0x1C4F, 82), (0x1C50, 0x1C7F, 109), (0x1C80, 0x1C88, 8), (0x1C90, 0x1CBA, 12), (0x1CBD, 0x1CBF, 12),
   (0x1CC0, 0x1CC7, 113), (0x1CD0, 0x1CD2, 1), (0x1CD3, 0x1CD3, 0), (0x1CD4, 0x1CE0, 1), (0x1CE1, 0x1CE1, 0), (0x1CE2, 0x1CE8, 1),
   (0x1CE9, 0x1CEC, 0), (0x1CED, 0x1CED, 1), (0x1CEE, 0x1CF3, 0), (0x1CF4, 0x1CF4, 1), (0x1CF5, 0x1CF7, 0), (0x1CF8, 0x1CF9, 1),
   (0x1CFA, 0x1CFA, 0), (0x1D00, 0x1D25, 25), (0x1D26, 0x1D2A, 14), (0x1D2B, 0x1D2B, 8), (0x1D2C, 0x1D5C, 25), (0x1D5D, 0x1D61, 14),
   (0x1D62, 0x1D65, 25), (0x1D66, 0x1D6A, 14), (0x1D6B, 0x1D77, 25), (0x1D78, 0x1D78, 8), (0x1D79, 0x1DBE, 25),
   (0x1DBF, 0x1DBF, 14), (0x1DC0, 0x1DF9, 1), (0x1DFB, 0x1DFF, 1), (0x1E00, 0x1EFF, 25), (0x1F00, 0x1F15, 14), (0x1F18, 0x1F1D, 14),
   (0x1F20, 0x1F45, 14), (0x1F48, 0x1F4D, 14), (0x1F50, 0x1F57, 14), (0x1F59, 0x1F59, 14), (0x1F5B, 0x1F5B, 14),
   (0x1F5D, 0x1F5D, 14), (0x1F5F, 0x1F7D, 14), (0x1F80, 0x1FB4, 14), (0x1FB6, 0x1FC4, 14), (0x1FC6, 0x1FD3, 14),
   (0x1FD6, 0x1FDB, 14), (0x1FDD, 0x1FEF, 14), (0x1FF2, 0x1FF4, 14), (0x1FF6, 0x1FFE, 14), (0x2000, 0x200B, 0), (0x200C, 0x200D, 1),
   (0x200E, 0x2064, 0), (0x2066, 0x2070, 0), (0x2071, 0x2071, 25), (0x2074, 0x207E, 0), (0x207F, 0x207F, 25), (0x2080, 0x208E, 0),
   (0x2090, 0x209C, 25), (0x20A0, 0x20BF, 0), (0x20D0, 0x20F0, 1), (0x2100, 0x2125, 0), (0x2126, 0x2126, 14), (0x2127, 0x2129, 0),
   (0x212A, 0x212B, 25), (0x212C, 0x2131, 0), (0x2132, 0x2132, 25), (0x2133, 0x214D, 0), (0x214E, 0x214E, 25), (0x214F, 0x215F, 0),
   (0x2160, 0x2188, 25), (0x2189, 0x218B, 0), (0x2190, 0x2426, 0), (0x2440, 0x244A, 0), (0x2460, 0x27FF, 0), (0x2800, 0x28FF, 46),
   (0x2900, 0x2B73, 0), (0x2B76, 0x2B95, 0), (0x2B97, 0x2BFF, 0), (0x2C00, 0x2C2E, 56), (0x2C30, 0x2C5E, 56), (0x2C60, 0x2C7F, 25),
   (0x2C80, 0x2CF3, 7), (0x2CF9, 0x2CFF, 7), (0x2D00, 0x2D25, 12), (0x2D27, 0x2D27, 12), (0x2D2D, 0x2D2D, 12), (0x2D30, 0x2D67, 60),
   (0x2D6F, 0x2D70, 60), (0x2D7F, 0x2D7F, 60), (0x2D80, 0x2D96, 11), (0x2DA0, 0x2DA6, 11), (0x2DA8, 0x2DAE, 11),
   (0x2DB0, 0x2DB6, 11), (0x2DB8, 0x2DBE, 11), (0x2DC0, 0x2DC6, 11), (0x2DC8, 0x2DCE, 11), (0x2DD0, 0x2DD6, 11),
   (0x2DD8, 0x2DDE, 11), (0x2DE0, 0x2DFF, 8), (0x2E00, 0x2E52, 0), (0x2E80, 0x2E99, 17), (0x2E9B, 0x2EF3, 17), (0x2F00, 0x2FD5, 17),
   (0x2FF0, 0x2FFB, 0), (0x3000, 0x3004, 0), (0x3005, 0x3005, 17), (0x3006, 0x3006, 0), (0x3007, 0x3007, 17), (0x3008, 0x3020, 0),
   (0x3021, 0x3029, 17), (0x302A, 0x302D, 1), (0x302E, 0x302F, 18), (0x3030, 0x3037, 0), (0x3038, 0x303B, 17), (0x303C, 0x303F, 0),
   (0x3041, 0x3096, 20), (0x3099, 0x309A, 1), (0x309B, 0x309C, 0), (0x309D, 0x309F, 20), (0x30A0, 0x30A0, 0), (0x30A1, 0x30FA, 22),
   (0x30FB, 0x30FC, 0), (0x30FD, 0x30FF, 22), (0x3105, 0x312F, 5), (0x3131, 0x318E, 18), (0x3190, 0x319F, 0), (0x31A0, 0x31BF, 5),
   (0x31C0, 0x31E3, 0), (0x31F0, 0x31FF, 22), (0x3200, 0x321E, 18), (0x3220, 0x325F, 0), (0x3260, 0x327E, 18), (0x327F, 0x32CF, 0),
   (0x32D0, 0x32FE, 22), (0x32FF, 0x32FF, 0), (0x3300, 0x3357, 22), (0x3358, 0x33FF, 0), (0x3400, 0x4DBF, 17), (0x4DC0, 0x4DFF, 0),
   (0x4E00, 0x9FFC, 17), (0xA000, 0xA48C, 41), (0xA490, 0xA4C6, 41), (0xA4D0, 0xA4FF, 131), (0xA500, 0xA62B, 99),
   (0xA640, 0xA69F, 8), (0xA6A0, 0xA6F7, 130), (0xA700, 0xA721, 0), (0xA722, 0xA787, 25), (0xA788, 0xA78A, 0), (0xA78B, 0xA7BF, 25),
   (0xA7C2, 0xA7CA, 25), (0xA7F5, 0xA7FF, 25), (0xA800, 0xA82C, 58), (0xA830, 0xA839, 0), (0xA840, 0xA877, 90),
   (0xA880, 0xA8C5, 111), (0xA8CE, 0xA8D9, 111), (0xA8E0, 0xA8FF, 10), (0xA900, 0xA92D, 79), (0xA92E, 0xA92E, 0),
   (0xA92F, 0xA92F, 79), (0xA930, 0xA953, 110), (0xA95F, 0xA95F, 110), (0xA960, 0xA97C, 18), (0xA980, 0xA9CD, 78),
   (0xA9CF, 0xA9CF, 0), (0xA9D0, 0xA9D9, 78), (0xA9DE, 0xA9DF, 78), (0xA9E0, 0xA9FE, 28), (0xAA00, 0xAA36, 66),
   (0xAA40, 0xAA4D, 66), (0xAA50, 0xAA59, 66), (0xAA5C, 0xAA5F, 66), (0xAA60, 0xAA7F, 28), (0xAA80, 0xAAC2, 127),
   (0xAADB, 0xAADF, 127), (0xAAE0, 0xAAF6, 115), (0xAB01, 0xAB06, 11), (0xAB09, 0xAB0E, 11), (0xAB11, 0xAB16, 11),
   (0xAB20, 0xAB26, 11), (0xAB28, 0xAB2E, 11), (0xAB30, 0xAB5A, 25), (0xAB5B, 0xAB5B, 0), (0xAB5C, 0xAB64, 25),
   (0xAB65, 0xAB65, 14), (0xAB66, 0xAB69, 25), (0xAB6A, 0xAB6B, 0), (0xAB70, 0xABBF, 6), (0xABC0, 0xABED, 115),
   (0xABF0, 0xABF9, 115), (0xAC00, 0xD7A3, 18), (0xD7B0, 0xD7C6, 18), (0xD7CB, 0xD7FB, 18), (0xF900, 0xFA6D, 17),
   (0xFA70, 0xFAD9, 17), (0xFB00, 0xFB06, 25), (0xFB13, 0xFB17, 3), (0xFB1D, 0xFB36, 19), (0xFB38, 0xFB3C, 19),
   (0xFB3E, 0xFB3E, 19), (0xFB40, 0xFB41, 19), (0xFB43, 0xFB44, 19), (0xFB46, 0xFB4F, 19), (0xFB50, 0xFBC1, 2), (0xFBD3, 0xFD3D, 2),
   (0xFD3E, 0xFD3F, 0), (0xFD50, 0xFD8F, 2), (0xFD92, 0xFDC7, 2), (0xFDF0, 0xFDFD, 2), (0xFE00, 0xFE0F, 1), (0xFE10, 0xFE19, 0),
   (0xFE20, 0xFE2D, 1), (0xFE2E, 0xFE2F, 8), (0xFE30, 0xFE52, 0), (0xFE54, 0xFE66, 0), (0xFE68, 0xFE6B, 0), (0xFE70, 0xFE74, 2),
   (0xFE76, 0xFEFC, 2), (0xFEFF, 0xFEFF, 0), (0xFF01, 0xFF20, 0), (0xFF21, 0xFF3A, 25), (0xFF3B, 0xFF40, 0), (0xFF41, 0xFF5A, 25),
   (0xFF5B, 0xFF65, 0), (0xFF66, 0xFF6F, 22), (0xFF70, 0xFF70, 0), (0xFF71, 0xFF9D, 22), (0xFF9E, 0xFF9F, 0), (0xFFA0, 0xFFBE, 18),
   (0xFFC2, 0xFFC7, 18), (0xFFCA, 0xFFCF, 18), (0xFFD2, 0xFFD7, 18), (0xFFDA, 0xFFDC, 18), (0xFFE0, 0xFFE6, 0), (0xFFE8, 0xFFEE, 0),
   (0xFFF9, 0xFFFD, 0), (0x10000, 0x1000B, 49), (0x1000D, 0x10026, 49), (0x10028, 0x1003A, 49), (0x1003C, 0x1003D, 49),
   (0x1003F, 0x1004D, 49), (0x10050, 0x1005D, 49), (0x10080, 0x100FA, 49), (0x10100, 0x10102, 0), (0x10107, 0x10133, 0),
   (0x10137, 0x1013F, 0), (0x10140, 0x1018E, 14), (0x10190, 0x1019C, 0), (0x101A0, 0x101A0, 14), (0x101D0, 0x101FC, 0),
   (0x101FD, 0x101FD, 1), (0x10280, 0x1029C, 107), (0x102A0, 0x102D0, 104), (0x102E0, 0x102E0, 1), (0x102E1, 0x102FB, 0),
   (0x10300, 0x10323, 30), (0x1032D, 0x1032F, 30), (0x10330, 0x1034A, 13), (0x10350, 0x1037A, 89), (0x10380, 0x1039D, 53),
   (0x1039F, 0x1039F, 53), (0x103A0, 0x103C3, 61), (0x103C8, 0x103D5, 61), (0x10400, 0x1044F, 9), (0x10450, 0x1047F, 51),
   (0x10480, 0x1049D, 50), (0x104A0, 0x104A9, 50), (0x104B0, 0x104D3, 171), (0x104D8, 0x104FB, 171), (0x10500, 0x10527, 136),
   (0x10530, 0x10563, 159), (0x1056F, 0x1056F, 159), (0x10600, 0x10736, 83), (0x10740, 0x10755, 83), (0x10760, 0x10767, 83),
   (0x10800, 0x10805, 47), (0x10808, 0x10808, 47), (0x1080A, 0x10835, 47), (0x10837, 0x10838, 47), (0x1083C, 0x1083C, 47),
   (0x1083F, 0x1083F, 47), (0x10840, 0x10855, 116), (0x10857, 0x1085F, 116), (0x10860, 0x1087F, 144), (0x10880, 0x1089E, 143),
   (0x108A7, 0x108AF, 143), (0x108E0, 0x108F2, 162), (0x108F4, 0x108F5, 162), (0x108FB, 0x108FF, 162), (0x10900, 0x1091B, 91),
   (0x1091F, 0x1091F, 91), (0x10920, 0x10939, 108), (0x1093F, 0x1093F, 108), (0x10980, 0x1099F, 86), (0x109A0, 0x109B7, 141)]

/-- Script. Part 3. -/
def scriptRuns_3 : List (Nat × Nat × Nat) :=
  [
   (0x109BC, 0x109CF, 141), (0x109D2, 0x109FF, 141), (0x10A00, 0x10A03, 57), (0x10A05, 0x10A06, 57), (0x10A0C, 0x10A13, 57),
   (0x10A15, 0x10A17, 57), (0x10A19, 0x10A35, 57), (0x10A38, 0x10A3A, 57), (0x10A3F, 0x10A48, 57), (0x10A50, 0x10A58, 57),
   (0x10A60, 0x10A7F, 133), (0x10A80, 0x10A9F, 142), (0x10AC0, 0x10AE6, 121), (0x10AEB, 0x10AF6, 121), (0x10B00, 0x10B35, 117),
   (0x10B39, 0x10B3F, 117), (0x10B40, 0x10B55, 125), (0x10B58, 0x10B5F, 125), (0x10B60, 0x10B72, 122), (0x10B78, 0x10B7F, 122),
   (0x10B80, 0x10B91, 123), (0x10B99, 0x10B9C, 123), (0x10BA9, 0x10BAF, 123), (0x10C00, 0x10C48, 88), (0x10C80, 0x10CB2, 76),
   (0x10CC0, 0x10CF2, 76), (0x10CFA, 0x10CFF, 76), (0x10D00, 0x10D27, 182), (0x10D30, 0x10D39, 182), (0x10E60, 0x10E7E, 2),
   (0x10E80, 0x10EA9, 192), (0x10EAB, 0x10EAD, 192), (0x10EB0, 0x10EB1, 192), (0x10F00, 0x10F27, 184), (0x10F30, 0x10F59, 183),
   (0x10FB0, 0x10FCB, 189), (0x10FE0, 0x10FF6, 185), (0x11000, 0x1104D, 65), (0x11052, 0x1106F, 65), (0x1107F, 0x1107F, 65),
   (0x11080, 0x110C1, 120), (0x110CD, 0x110CD, 120), (0x110D0, 0x110E8, 152), (0x110F0, 0x110F9, 152), (0x11100, 0x11134, 118),
   (0x11136, 0x11147, 118), (0x11150, 0x11176, 160), (0x11180, 0x111DF, 151), (0x111E1, 0x111F4, 33), (0x11200, 0x11211, 157),
   (0x11213, 0x1123E, 157), (0x11280, 0x11286, 164), (0x11288, 0x11288, 164), (0x1128A, 0x1128D, 164), (0x1128F, 0x1129D, 164),
   (0x1129F, 0x112A9, 164), (0x112B0, 0x112EA, 145), (0x112F0, 0x112F9, 145), (0x11300, 0x11303, 137), (0x11305, 0x1130C, 137),
   (0x1130F, 0x11310, 137), (0x11313, 0x11328, 137), (0x1132A, 0x11330, 137), (0x11332, 0x11333, 137), (0x11335, 0x11339, 137),
   (0x1133B, 0x1133B, 1), (0x1133C, 0x11344, 137), (0x11347, 0x11348, 137), (0x1134B, 0x1134D, 137), (0x11350, 0x11350, 137),
   (0x11357, 0x11357, 137), (0x1135D, 0x11363, 137), (0x11366, 0x1136C, 137), (0x11370, 0x11374, 137), (0x11400, 0x1145B, 170),
   (0x1145D, 0x11461, 170), (0x11480, 0x114C7, 158), (0x114D0, 0x114D9, 158), (0x11580, 0x115B5, 166), (0x115B8, 0x115DD, 166),
   (0x11600, 0x11644, 163), (0x11650, 0x11659, 163), (0x11660, 0x1166C, 27), (0x11680, 0x116B8, 153), (0x116C0, 0x116C9, 153),
   (0x11700, 0x1171A, 161), (0x1171D, 0x1172B, 161), (0x11730, 0x1173F, 161), (0x11800, 0x1183B, 178), (0x118A0, 0x118F2, 146),
   (0x118FF, 0x118FF, 146), (0x11900, 0x11906, 190), (0x11909, 0x11909, 190), (0x1190C, 0x11913, 190), (0x11915, 0x11916, 190),
   (0x11918, 0x11935, 190), (0x11937, 0x11938, 190), (0x1193B, 0x11946, 190), (0x11950, 0x11959, 190), (0x119A0, 0x119A7, 187),
   (0x119AA, 0x119D7, 187), (0x119DA, 0x119E4, 187), (0x11A00, 0x11A47, 177), (0x11A50, 0x11AA2, 176), (0x11AC0, 0x11AF8, 165),
   (0x11C00, 0x11C08, 168), (0x11C0A, 0x11C36, 168), (0x11C38, 0x11C45, 168), (0x11C50, 0x11C6C, 168), (0x11C70, 0x11C8F, 169),
   (0x11C92, 0x11CA7, 169), (0x11CA9, 0x11CB6, 169), (0x11D00, 0x11D06, 175), (0x11D08, 0x11D09, 175), (0x11D0B, 0x11D36, 175),
   (0x11D3A, 0x11D3A, 175), (0x11D3C, 0x11D3D, 175), (0x11D3F, 0x11D47, 175), (0x11D50, 0x11D59, 175), (0x11D60, 0x11D65, 179),
   (0x11D67, 0x11D68, 179), (0x11D6A, 0x11D8E, 179), (0x11D90, 0x11D91, 179), (0x11D93, 0x11D98, 179), (0x11DA0, 0x11DA9, 179),
   (0x11EE0, 0x11EF8, 180), (0x11FB0, 0x11FB0, 131), (0x11FC0, 0x11FF1, 35), (0x11FFF, 0x11FFF, 35), (0x12000, 0x12399, 101),
   (0x12400, 0x1246E, 101), (0x12470, 0x12474, 101), (0x12480, 0x12543, 101), (0x13000, 0x1342E, 71), (0x13430, 0x13438, 71),
   (0x14400, 0x14646, 156), (0x16800, 0x16A38, 130), (0x16A40, 0x16A5E, 149), (0x16A60, 0x16A69, 149), (0x16A6E, 0x16A6F, 149),
   (0x16AD0, 0x16AED, 134), (0x16AF0, 0x16AF5, 134), (0x16B00, 0x16B45, 75), (0x16B50, 0x16B59, 75), (0x16B5B, 0x16B61, 75),
   (0x16B63, 0x16B77, 75), (0x16B7D, 0x16B8F, 75), (0x16E40, 0x16E9A, 181), (0x16F00, 0x16F4A, 92), (0x16F4F, 0x16F87, 92),
   (0x16F8F, 0x16F9F, 92), (0x16FE0, 0x16FE0, 154), (0x16FE1, 0x16FE1, 150), (0x16FE2, 0x16FE3, 0), (0x16FE4, 0x16FE4, 191),
   (0x16FF0, 0x16FF1, 17), (0x17000, 0x187F7, 154), (0x18800, 0x18AFF, 154), (0x18B00, 0x18CD5, 191), (0x18D00, 0x18D08, 154),
   (0x1B000, 0x1B000, 22), (0x1B001, 0x1B11E, 20), (0x1B150, 0x1B152, 20), (0x1B164, 0x1B167, 22), (0x1B170, 0x1B2FB, 150),
   (0x1BC00, 0x1BC6A, 135), (0x1BC70, 0x1BC7C, 135), (0x1BC80, 0x1BC88, 135), (0x1BC90, 0x1BC99, 135), (0x1BC9C, 0x1BC9F, 135),
   (0x1BCA0, 0x1BCA3, 0), (0x1D000, 0x1D0F5, 0), (0x1D100, 0x1D126, 0), (0x1D129, 0x1D166, 0), (0x1D167, 0x1D169, 1),
   (0x1D16A, 0x1D17A, 0), (0x1D17B, 0x1D182, 1), (0x1D183, 0x1D184, 0), (0x1D185, 0x1D18B, 1), (0x1D18C, 0x1D1A9, 0),
   (0x1D1AA, 0x1D1AD, 1), (0x1D1AE, 0x1D1E8, 0), (0x1D200, 0x1D245, 14), (0x1D2E0, 0x1D2F3, 0), (0x1D300, 0x1D356, 0),
   (0x1D360, 0x1D378, 0), (0x1D400, 0x1D454, 0), (0x1D456, 0x1D49C, 0), (0x1D49E, 0x1D49F, 0), (0x1D4A2, 0x1D4A2, 0),
   (0x1D4A5, 0x1D4A6, 0), (0x1D4A9, 0x1D4AC, 0), (0x1D4AE, 0x1D4B9, 0), (0x1D4BB, 0x1D4BB, 0), (0x1D4BD, 0x1D4C3, 0),
   (0x1D4C5, 0x1D505, 0), (0x1D507, 0x1D50A, 0), (0x1D50D, 0x1D514, 0), (0x1D516, 0x1D51C, 0), (0x1D51E, 0x1D539, 0),
   (0x1D53B, 0x1D53E, 0), (0x1D540, 0x1D544, 0), (0x1D546, 0x1D546, 0), (0x1D54A, 0x1D550, 0), (0x1D552, 0x1D6A5, 0),
   (0x1D6A8, 0x1D7CB, 0), (0x1D7CE, 0x1D7FF, 0), (0x1D800, 0x1DA8B, 112), (0x1DA9B, 0x1DA9F, 112), (0x1DAA1, 0x1DAAF, 112),
   (0x1E000, 0x1E006, 56), (0x1E008, 0x1E018, 56), (0x1E01B, 0x1E021, 56), (0x1E023, 0x1E024, 56), (0x1E026, 0x1E02A, 56),
   (0x1E100, 0x1E12C, 186), (0x1E130, 0x1E13D, 186), (0x1E140, 0x1E149, 186), (0x1E14E, 0x1E14F, 186), (0x1E2C0, 0x1E2F9, 188),
   (0x1E2FF, 0x1E2FF, 188), (0x1E800, 0x1E8C4, 140), (0x1E8C7, 0x1E8D6, 140), (0x1E900, 0x1E94B, 167), (0x1E950, 0x1E959, 167),
   (0x1E95E, 0x1E95F, 167), (0x1EC71, 0x1ECB4, 0), (0x1ED01, 0x1ED3D, 0), (0x1EE00, 0x1EE03, 2), (0x1EE05, 0x1EE1F, 2),
   (0x1EE21, 0x1EE22, 2), (0x1EE24, 0x1EE24, 2), (0x1EE27, 0x1EE27, 2), (0x1EE29, 0x1EE32, 2), (0x1EE34, 0x1EE37, 2),
   (0x1EE39, 0x1EE39, 2), (0x1EE3B, 0x1EE3B, 2), (0x1EE42, 0x1EE42, 2), (0x1EE47, 0x1EE47, 2), (0x1EE49, 0x1EE49, 2),
   (0x1EE4B, 0x1EE4B, 2), (0x1EE4D, 0x1EE4F, 2), (0x1EE51, 0x1EE52, 2), (0x1EE54, 0x1EE54, 2), (0x1EE57, 0x1EE57, 2),
   (0x1EE59, 0x1EE59, 2), (0x1EE5B, 0x1EE5B, 2), (0x1EE5D, 0x1EE5D, 2), (0x1EE5F, 0x1EE5F, 2), (0x1EE61, 0x1EE62, 2),
   (0x1EE64, 0x1EE64, 2), (0x1EE67, 0x1EE6A, 2), (0x1EE6C, 0x1EE72, 2), (0x1EE74, 0x1EE77, 2), (0x1EE79, 0x1EE7C, 2),
   (0x1EE7E, 0x1EE7E, 2), (0x1EE80, 0x1EE89, 2), (0x1EE8B, 0x1EE9B, 2), (0x1EEA1, 0x1EEA3, 2), (0x1EEA5, 0x1EEA9, 2),
   (0x1EEAB, 0x1EEBB, 2), (0x1EEF0, 0x1EEF1, 2), (0x1F000, 0x1F02B, 0), (0x1F030, 0x1F093, 0), (0x1F0A0, 0x1F0AE, 0),
   (0x1F0B1, 0x1F0BF, 0), (0x1F0C1, 0x1F0CF, 0), (0x1F0D1, 0x1F0F5, 0), (0x1F100, 0x1F1AD, 0), (0x1F1E6, 0x1F1FF, 0),
   (0x1F200, 0x1F200, 20), (0x1F201, 0x1F202, 0), (0x1F210, 0x1F23B, 0), (0x1F240, 0x1F248, 0), (0x1F250, 0x1F251, 0),
   (0x1F260, 0x1F265, 0), (0x1F300, 0x1F6D7, 0), (0x1F6E0, 0x1F6EC, 0), (0x1F6F0, 0x1F6FC, 0), (0x1F700, 0x1F773, 0),
   (0x1F780, 0x1F7D8, 0), (0x1F7E0, 0x1F7EB, 0), (0x1F800, 0x1F80B, 0), (0x1F810, 0x1F847, 0), (0x1F850, 0x1F859, 0),
   (0x1F860, 0x1F887, 0), (0x1F890, 0x1F8AD, 0), (0x1F8B0, 0x1F8B1, 0), (0x1F900, 0x1F978, 0), (0x1F97A, 0x1F9CB, 0),
   (0x1F9CD, 0x1FA53, 0), (0x1FA60, 0x1FA6D, 0), (0x1FA70, 0x1FA74, 0), (0x1FA78, 0x1FA7A, 0), (0x1FA80, 0x1FA86, 0),
   (0x1FA90, 0x1FAA8, 0), (0x1FAB0, 0x1FAB6, 0), (0x1FAC0, 0x1FAC2, 0), (0x1FAD0, 0x1FAD6, 0), (0x1FB00, 0x1FB92, 0)]

/-- Script. Part 4. -/
def scriptRuns_4 : List (Nat × Nat × Nat) :=
  [
   (0x1FB94, 0x1FBCA, 0), (0x1FBF0, 0x1FBF9, 0), (0x20000, 0x2A6DD, 17), (0x2A700, 0x2B734, 17), (0x2B740, 0x2B81D, 17),
   (0x2B820, 0x2CEA1, 17), (0x2CEB0, 0x2EBE0, 17), (0x2F800, 0x2FA1D, 17), (0x30000, 0x3134A, 17), (0xE0001, 0xE0001, 0),
   (0xE0020, 0xE007F, 0), (0xE0100, 0xE01EF, 1)]

/-- Script. -/
def scriptRuns : List (Nat × Nat × Nat) :=
  scriptRuns_1 ++ (scriptRuns_2 ++ (scriptRuns_3 ++ (scriptRuns_4)))

end Verif.Spec
