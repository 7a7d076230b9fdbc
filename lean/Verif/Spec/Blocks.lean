/-!
# The blocks of the Unicode standard, version 13.0

The first code points are those of the comments in Blocks.py, the last ones those of Blocks.txt.
-/
namespace Verif.Spec

/-- Number of a block (`UBLOCK_…` in Blocks.py), its first and its last code point. -/
def blockRanges : List (Nat × Nat × Nat) :=
  [(1, 0x0, 0x7F), (2, 0x80, 0xFF), (3, 0x100, 0x17F), (4, 0x180, 0x24F), (5, 0x250, 0x2AF), (6, 0x2B0, 0x2FF),
   (7, 0x300, 0x36F), (8, 0x370, 0x3FF), (9, 0x400, 0x4FF), (10, 0x530, 0x58F), (11, 0x590, 0x5FF), (12, 0x600, 0x6FF),
   (13, 0x700, 0x74F), (14, 0x780, 0x7BF), (15, 0x900, 0x97F), (16, 0x980, 0x9FF), (17, 0xA00, 0xA7F), (18, 0xA80, 0xAFF),
   (19, 0xB00, 0xB7F), (20, 0xB80, 0xBFF), (21, 0xC00, 0xC7F), (22, 0xC80, 0xCFF), (23, 0xD00, 0xD7F), (24, 0xD80, 0xDFF),
   (25, 0xE00, 0xE7F), (26, 0xE80, 0xEFF), (27, 0xF00, 0xFFF), (28, 0x1000, 0x109F), (29, 0x10A0, 0x10FF), (30, 0x1100, 0x11FF),
   (31, 0x1200, 0x137F), (32, 0x13A0, 0x13FF), (33, 0x1400, 0x167F), (34, 0x1680, 0x169F), (35, 0x16A0, 0x16FF),
   (36, 0x1780, 0x17FF), (37, 0x1800, 0x18AF), (38, 0x1E00, 0x1EFF), (39, 0x1F00, 0x1FFF), (40, 0x2000, 0x206F),
   (41, 0x2070, 0x209F), (42, 0x20A0, 0x20CF), (43, 0x20D0, 0x20FF), (44, 0x2100, 0x214F), (45, 0x2150, 0x218F),
   (46, 0x2190, 0x21FF), (47, 0x2200, 0x22FF), (48, 0x2300, 0x23FF), (49, 0x2400, 0x243F), (50, 0x2440, 0x245F),
   (51, 0x2460, 0x24FF), (52, 0x2500, 0x257F), (53, 0x2580, 0x259F), (54, 0x25A0, 0x25FF), (55, 0x2600, 0x26FF),
   (56, 0x2700, 0x27BF), (57, 0x2800, 0x28FF), (58, 0x2E80, 0x2EFF), (59, 0x2F00, 0x2FDF), (60, 0x2FF0, 0x2FFF),
   (61, 0x3000, 0x303F), (62, 0x3040, 0x309F), (63, 0x30A0, 0x30FF), (64, 0x3100, 0x312F), (65, 0x3130, 0x318F),
   (66, 0x3190, 0x319F), (67, 0x31A0, 0x31BF), (68, 0x3200, 0x32FF), (69, 0x3300, 0x33FF), (70, 0x3400, 0x4DBF),
   (71, 0x4E00, 0x9FFF), (72, 0xA000, 0xA48F), (73, 0xA490, 0xA4CF), (74, 0xAC00, 0xD7AF), (75, 0xD800, 0xDB7F),
   (76, 0xDB80, 0xDBFF), (77, 0xDC00, 0xDFFF), (78, 0xE000, 0xF8FF), (79, 0xF900, 0xFAFF), (80, 0xFB00, 0xFB4F),
   (81, 0xFB50, 0xFDFF), (82, 0xFE20, 0xFE2F), (83, 0xFE30, 0xFE4F), (84, 0xFE50, 0xFE6F), (85, 0xFE70, 0xFEFF),
   (86, 0xFFF0, 0xFFFF), (87, 0xFF00, 0xFFEF), (88, 0x10300, 0x1032F), (89, 0x10330, 0x1034F), (90, 0x10400, 0x1044F),
   (91, 0x1D000, 0x1D0FF), (92, 0x1D100, 0x1D1FF), (93, 0x1D400, 0x1D7FF), (94, 0x20000, 0x2A6DF), (95, 0x2F800, 0x2FA1F),
   (96, 0xE0000, 0xE007F), (97, 0x500, 0x52F), (98, 0x1700, 0x171F), (99, 0x1720, 0x173F), (100, 0x1740, 0x175F),
   (101, 0x1760, 0x177F), (102, 0x27C0, 0x27EF), (103, 0x27F0, 0x27FF), (104, 0x2900, 0x297F), (105, 0x2980, 0x29FF),
   (106, 0x2A00, 0x2AFF), (107, 0x31F0, 0x31FF), (108, 0xFE00, 0xFE0F), (109, 0xF0000, 0xFFFFF), (110, 0x100000, 0x10FFFF),
   (111, 0x1900, 0x194F), (112, 0x1950, 0x197F), (113, 0x19E0, 0x19FF), (114, 0x1D00, 0x1D7F), (115, 0x2B00, 0x2BFF),
   (116, 0x4DC0, 0x4DFF), (117, 0x10000, 0x1007F), (118, 0x10080, 0x100FF), (119, 0x10100, 0x1013F), (120, 0x10380, 0x1039F),
   (121, 0x10450, 0x1047F), (122, 0x10480, 0x104AF), (123, 0x10800, 0x1083F), (124, 0x1D300, 0x1D35F), (125, 0xE0100, 0xE01EF),
   (126, 0x1D200, 0x1D24F), (127, 0x10140, 0x1018F), (128, 0x750, 0x77F), (129, 0x1A00, 0x1A1F), (130, 0x31C0, 0x31EF),
   (131, 0x1DC0, 0x1DFF), (132, 0x2C80, 0x2CFF), (133, 0x2D80, 0x2DDF), (134, 0x1380, 0x139F), (135, 0x2D00, 0x2D2F),
   (136, 0x2C00, 0x2C5F), (137, 0x10A00, 0x10A5F), (138, 0xA700, 0xA71F), (139, 0x1980, 0x19DF), (140, 0x103A0, 0x103DF),
   (141, 0x1D80, 0x1DBF), (142, 0x2E00, 0x2E7F), (143, 0xA800, 0xA82F), (144, 0x2D30, 0x2D7F), (145, 0xFE10, 0xFE1F),
   (146, 0x7C0, 0x7FF), (147, 0x1B00, 0x1B7F), (148, 0x2C60, 0x2C7F), (149, 0xA720, 0xA7FF), (150, 0xA840, 0xA87F),
   (151, 0x10900, 0x1091F), (152, 0x12000, 0x123FF), (153, 0x12400, 0x1247F), (154, 0x1D360, 0x1D37F), (155, 0x1B80, 0x1BBF),
   (156, 0x1C00, 0x1C4F), (157, 0x1C50, 0x1C7F), (158, 0x2DE0, 0x2DFF), (159, 0xA500, 0xA63F), (160, 0xA640, 0xA69F),
   (161, 0xA880, 0xA8DF), (162, 0xA900, 0xA92F), (163, 0xA930, 0xA95F), (164, 0xAA00, 0xAA5F), (165, 0x10190, 0x101CF),
   (166, 0x101D0, 0x101FF), (167, 0x10280, 0x1029F), (168, 0x102A0, 0x102DF), (169, 0x10920, 0x1093F), (170, 0x1F000, 0x1F02F),
   (171, 0x1F030, 0x1F09F), (172, 0x800, 0x83F), (173, 0x18B0, 0x18FF), (174, 0x1A20, 0x1AAF), (175, 0x1CD0, 0x1CFF),
   (176, 0xA4D0, 0xA4FF), (177, 0xA6A0, 0xA6FF), (178, 0xA830, 0xA83F), (179, 0xA8E0, 0xA8FF), (180, 0xA960, 0xA97F),
   (181, 0xA980, 0xA9DF), (182, 0xAA60, 0xAA7F), (183, 0xAA80, 0xAADF), (184, 0xABC0, 0xABFF), (185, 0xD7B0, 0xD7FF),
   (186, 0x10840, 0x1085F), (187, 0x10A60, 0x10A7F), (188, 0x10B00, 0x10B3F), (189, 0x10B40, 0x10B5F), (190, 0x10B60, 0x10B7F),
   (191, 0x10C00, 0x10C4F), (192, 0x10E60, 0x10E7F), (193, 0x11080, 0x110CF), (194, 0x13000, 0x1342F), (195, 0x1F100, 0x1F1FF),
   (196, 0x1F200, 0x1F2FF), (197, 0x2A700, 0x2B73F), (198, 0x840, 0x85F), (199, 0x1BC0, 0x1BFF), (200, 0xAB00, 0xAB2F),
   (201, 0x11000, 0x1107F), (202, 0x16800, 0x16A3F), (203, 0x1B000, 0x1B0FF), (204, 0x1F0A0, 0x1F0FF), (205, 0x1F300, 0x1F5FF),
   (206, 0x1F600, 0x1F64F), (207, 0x1F680, 0x1F6FF), (208, 0x1F700, 0x1F77F), (209, 0x2B740, 0x2B81F), (210, 0x8A0, 0x8FF),
   (211, 0x1EE00, 0x1EEFF), (212, 0x11100, 0x1114F), (213, 0xAAE0, 0xAAFF), (214, 0x109A0, 0x109FF), (215, 0x10980, 0x1099F),
   (216, 0x16F00, 0x16F9F), (217, 0x11180, 0x111DF), (218, 0x110D0, 0x110FF), (219, 0x1CC0, 0x1CCF), (220, 0x11680, 0x116CF),
   (221, 0x16AD0, 0x16AFF), (222, 0x10530, 0x1056F), (223, 0x102E0, 0x102FF), (224, 0x1AB0, 0x1AFF), (225, 0x1BC00, 0x1BC9F),
   (226, 0x10500, 0x1052F), (227, 0x1F780, 0x1F7FF), (228, 0x11300, 0x1137F), (229, 0x11200, 0x1124F), (230, 0x112B0, 0x112FF),
   (231, 0xAB30, 0xAB6F), (232, 0x10600, 0x1077F), (233, 0x11150, 0x1117F), (234, 0x10AC0, 0x10AFF), (235, 0x1E800, 0x1E8DF),
   (236, 0x11600, 0x1165F), (237, 0x16A40, 0x16A6F), (238, 0xA9E0, 0xA9FF), (239, 0x10880, 0x108AF), (240, 0x10A80, 0x10A9F),
   (241, 0x10350, 0x1037F), (242, 0x1F650, 0x1F67F), (243, 0x16B00, 0x16B8F), (244, 0x10860, 0x1087F), (245, 0x11AC0, 0x11AFF),
   (246, 0x10B80, 0x10BAF), (247, 0x1BCA0, 0x1BCAF), (248, 0x11580, 0x115FF), (249, 0x111E0, 0x111FF), (250, 0x1F800, 0x1F8FF),
   (251, 0x11480, 0x114DF), (252, 0x118A0, 0x118FF), (253, 0x11700, 0x1173F), (254, 0x14400, 0x1467F), (255, 0xAB70, 0xABBF),
   (256, 0x2B820, 0x2CEAF), (257, 0x12480, 0x1254F), (258, 0x108E0, 0x108FF), (259, 0x11280, 0x112AF), (260, 0x10C80, 0x10CFF),
   (261, 0x1F900, 0x1F9FF), (262, 0x1D800, 0x1DAAF), (263, 0x1E900, 0x1E95F), (264, 0x11C00, 0x11C6F), (265, 0x1C80, 0x1C8F),
   (266, 0x1E000, 0x1E02F), (267, 0x16FE0, 0x16FFF), (268, 0x11C70, 0x11CBF), (269, 0x11660, 0x1167F), (270, 0x11400, 0x1147F),
   (271, 0x104B0, 0x104FF), (272, 0x17000, 0x187FF), (273, 0x18800, 0x18AFF), (274, 0x2CEB0, 0x2EBEF), (275, 0x1B100, 0x1B12F),
   (276, 0x11D00, 0x11D5F), (277, 0x1B170, 0x1B2FF), (278, 0x11A50, 0x11AAF), (279, 0x860, 0x86F), (280, 0x11A00, 0x11A4F),
   (281, 0x1FA00, 0x1FA6F), (282, 0x11800, 0x1184F), (283, 0x1C90, 0x1CBF), (284, 0x11D60, 0x11DAF), (285, 0x10D00, 0x10D3F),
   (286, 0x1EC70, 0x1ECBF), (287, 0x11EE0, 0x11EFF), (288, 0x1D2E0, 0x1D2FF), (289, 0x16E40, 0x16E9F), (290, 0x10F00, 0x10F2F),
   (291, 0x10F30, 0x10F6F), (292, 0x13430, 0x1343F), (293, 0x10FE0, 0x10FFF), (294, 0x119A0, 0x119FF), (295, 0x1E100, 0x1E14F),
   (296, 0x1ED00, 0x1ED4F), (297, 0x1B130, 0x1B16F), (298, 0x1FA70, 0x1FAFF), (299, 0x11FC0, 0x11FFF), (300, 0x1E2C0, 0x1E2FF),
   (301, 0x10FB0, 0x10FDF), (302, 0x30000, 0x3134F), (303, 0x11900, 0x1195F), (304, 0x18B00, 0x18CFF), (305, 0x11FB0, 0x11FBF),
   (306, 0x1FB00, 0x1FBFF), (307, 0x18D00, 0x18D8F), (308, 0x10E80, 0x10EBF)]

end Verif.Spec
