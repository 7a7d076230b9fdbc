import Verif.Lemmas.RunTrie
import Verif.Model.CharProps
/-! # The functions of CharProps.py, executed from its text -/
namespace Verif.PyRun.CharProps
open Verif.PySyntax Verif.Library Verif.Data
set_option maxRecDepth 4000

/-- Names of CharProps.py and what they stand for. -/
noncomputable def names : List (Nat × Option Def) :=
   [(n% "propsVectors", some (.val (.arr (n% "propsVectors") 0 propsVectorsTable.size))),
    (n% "propsVectorsColumns", some (.val (.int (3 : Nat)))),
    (n% "propsVectorTrie", some (.val (trieObj (n% "propsVectorsTrie_index") Char.propsVectorTrie))),
    (n% "unicodePropertiesFromVecIndex", fnOf (n% "CharProps") Syntax.CharProps.unicodePropertiesFromVecIndex),
    (n% "propsTrie", some (.val (trieObj (n% "propsTrie_index") Char.propsTrie))),
    (n% "generalCategoryFromProps", fnOf (n% "CharProps") Syntax.CharProps.generalCategoryFromProps),
    (n% "getGeneralCategory", fnOf (n% "CharProps") Syntax.CharProps.getGeneralCategory),
    (n% "GC_LOWERCASE_LETTER", some (.val (.int (2 : Nat)))),
    (n% "GC_UPPERCASE_LETTER", some (.val (.int (1 : Nat)))),
    (n% "GC_TITLECASE_LETTER", some (.val (.int (3 : Nat)))),
    (n% "GC_DECIMAL_DIGIT_NUMBER", some (.val (.int (9 : Nat)))),
    (n% "range", none),
    (n% "CH_U_A", some (.val (.int (65 : Nat)))),
    (n% "CH_U_F", some (.val (.int (70 : Nat)))),
    (n% "CH_U_a", some (.val (.int (97 : Nat)))),
    (n% "CH_U_f", some (.val (.int (102 : Nat)))),
    (n% "CH_U_FW_A", some (.val (.int (65313 : Nat)))),
    (n% "CH_U_FW_F", some (.val (.int (65318 : Nat)))),
    (n% "CH_U_FW_a", some (.val (.int (65345 : Nat)))),
    (n% "CH_U_FW_f", some (.val (.int (65350 : Nat)))),
    (n% "isDigit", fnOf (n% "CharProps") Syntax.CharProps.isDigit),
    (n% "gcMask", fnOf (n% "CharProps") Syntax.CharProps.gcMask),
    (n% "GC_L_MASK", some (.val (.int (62 : Nat)))),
    (n% "getUnicodeProperties", fnOf (n% "CharProps") Syntax.CharProps.getUnicodeProperties),
    (n% "UPROPS_ALPHABETIC", some (.val (.int (8 : Nat)))),
    (n% "GC_ND_MASK", some (.val (.int (512 : Nat)))),
    (n% "isAlphabetic", fnOf (n% "CharProps") Syntax.CharProps.isAlphabetic),
    (n% "GC_UNASSIGNED", some (.val (.int (0 : Nat)))),
    (n% "GC_N_MASK", some (.val (.int (3584 : Nat)))),
    (n% "GC_MC_MASK", some (.val (.int (256 : Nat)))),
    (n% "GC_ME_MASK", some (.val (.int (128 : Nat)))),
    (n% "GC_CC_MASK", some (.val (.int (32768 : Nat)))),
    (n% "GC_CF_MASK", some (.val (.int (65536 : Nat)))),
    (n% "GC_ZL_MASK", some (.val (.int (8192 : Nat)))),
    (n% "GC_ZP_MASK", some (.val (.int (16384 : Nat)))),
    (n% "CH_TAB", some (.val (.int (9 : Nat)))),
    (n% "CH_CR", some (.val (.int (13 : Nat)))),
    (n% "CH_NL", some (.val (.int (133 : Nat)))),
    (n% "GC_Z_MASK", some (.val (.int (28672 : Nat)))),
    (n% "isThatControlSpace", fnOf (n% "CharProps") Syntax.CharProps.isThatControlSpace),
    (n% "CH_NBSP", some (.val (.int (160 : Nat)))),
    (n% "CH_FIGURESP", some (.val (.int (8199 : Nat)))),
    (n% "CH_NNBSP", some (.val (.int (8239 : Nat)))),
    (n% "isThatASCIIControlSpace", fnOf (n% "CharProps") Syntax.CharProps.isThatASCIIControlSpace),
    (n% "CH_SPACE", some (.val (.int (32 : Nat)))),
    (n% "GC_SPACE_SEPARATOR", some (.val (.int (12 : Nat)))),
    (n% "UPROPS_WHITE_SPACE", some (.val (.int (0 : Nat)))),
    (n% "GC_C_MASK", some (.val (.int (491521 : Nat)))),
    (n% "isGraphPOSIX", fnOf (n% "CharProps") Syntax.CharProps.isGraphPOSIX),
    (n% "GC_CS_MASK", some (.val (.int (262144 : Nat)))),
    (n% "GC_CN_MASK", some (.val (.int (1 : Nat)))),
    (n% "GC_P_MASK", some (.val (.int (821559296 : Nat)))),
    (n% "GC_NL_MASK", some (.val (.int (1024 : Nat)))),
    (n% "GC_PC_MASK", some (.val (.int (4194304 : Nat)))),
    (n% "GC_MN_MASK", some (.val (.int (64 : Nat)))),
    (n% "isIDIgnorable", fnOf (n% "CharProps") Syntax.CharProps.isIDIgnorable),
    (n% "isISOControl", fnOf (n% "CharProps") Syntax.CharProps.isISOControl),
    (n% "GC_FORMAT_CHAR", some (.val (.int (16 : Nat)))),
    (n% "GC_SC_MASK", some (.val (.int (33554432 : Nat)))),
    (n% "getNumericTypeValue", fnOf (n% "CharProps") Syntax.CharProps.getNumericTypeValue),
    (n% "UPROPS_NTV_DECIMAL_START", some (.val (.int (1 : Nat)))),
    (n% "numericTypeFromProps", fnOf (n% "CharProps") Syntax.CharProps.numericTypeFromProps),
    (n% "UPROPS_NUMERIC_TYPE_VALUE_SHIFT", some (.val (.int (6 : Nat)))),
    (n% "numericTypeValueFromProps", fnOf (n% "CharProps") Syntax.CharProps.numericTypeValueFromProps),
    (n% "UPROPS_NTV_NONE", some (.val (.int (0 : Nat)))),
    (n% "UPROPS_NTV_DIGIT_START", some (.val (.int (11 : Nat)))),
    (n% "UPROPS_NTV_NUMERIC_START", some (.val (.int (21 : Nat)))),
    (n% "UPROPS_NTV_FRACTION_START", some (.val (.int (176 : Nat)))),
    (n% "UPROPS_NTV_LARGE_START", some (.val (.int (480 : Nat)))),
    (n% "UPROPS_NTV_BASE60_START", some (.val (.int (768 : Nat)))),
    (n% "UPROPS_NTV_FRACTION20_START", some (.val (.int (804 : Nat)))),
    (n% "UPROPS_NTV_FRACTION32_START", some (.val (.int (828 : Nat)))),
    (n% "UPROPS_NTV_RESERVED_START", some (.val (.int (844 : Nat)))),
    (n% "numericValueFromProps", fnOf (n% "CharProps") Syntax.CharProps.numericValueFromProps),
    (n% "UPROPS_AGE_SHIFT", some (.val (.int (24 : Nat)))),
    (n% "ageFromProps", fnOf (n% "CharProps") Syntax.CharProps.ageFromProps),
    (n% "UPROPS_SCRIPT_HIGH_MASK", some (.val (.int (3145728 : Nat)))),
    (n% "UPROPS_SCRIPT_HIGH_SHIFT", some (.val (.int (12 : Nat)))),
    (n% "UPROPS_SCRIPT_LOW_MASK", some (.val (.int (255 : Nat)))),
    (n% "UPROPS_SCRIPT_X_MASK", some (.val (.int (15728895 : Nat)))),
    (n% "mergeScriptCodeOrIndex", fnOf (n% "CharProps") Syntax.CharProps.mergeScriptCodeOrIndex),
    (n% "UPROPS_SCRIPT_X_WITH_COMMON", some (.val (.int (4194304 : Nat)))),
    (n% "UPROPS_SCRIPT_X_WITH_INHERITED", some (.val (.int (8388608 : Nat)))),
    (n% "USCRIPT_COMMON", some (.val (.int (0 : Nat)))),
    (n% "UPROPS_SCRIPT_X_WITH_OTHER", some (.val (.int (12582912 : Nat)))),
    (n% "USCRIPT_INHERITED", some (.val (.int (1 : Nat)))),
    (n% "scriptExtensions", some (.val (.arr (n% "scriptExtensions") 0 scriptExtensions.size))),
    (n% "USCRIPT_INVALID_CODE", some (.val (.int (-1)))),
    (n% "scriptFromVecIndex", fnOf (n% "CharProps") Syntax.CharProps.scriptFromVecIndex),
    (n% "UPROPS_BLOCK_MASK", some (.val (.int (130816 : Nat)))),
    (n% "UPROPS_BLOCK_SHIFT", some (.val (.int (8 : Nat)))),
    (n% "blockFromVecIndex", fnOf (n% "CharProps") Syntax.CharProps.blockFromVecIndex),
    (n% "UPROPS_EA_MASK", some (.val (.int (917504 : Nat)))),
    (n% "UPROPS_EA_SHIFT", some (.val (.int (17 : Nat)))),
    (n% "eastAsianWidthFromVecIndex", fnOf (n% "CharProps") Syntax.CharProps.eastAsianWidthFromVecIndex),
    (n% "UPROPS_LB_MASK", some (.val (.int (66060288 : Nat)))),
    (n% "UPROPS_LB_SHIFT", some (.val (.int (20 : Nat)))),
    (n% "lineBreakFromVecIndex", fnOf (n% "CharProps") Syntax.CharProps.lineBreakFromVecIndex),
    (n% "UPROPS_SB_MASK", some (.val (.int (1015808 : Nat)))),
    (n% "UPROPS_SB_SHIFT", some (.val (.int (15 : Nat)))),
    (n% "sentenceBreakFromVecIndex", fnOf (n% "CharProps") Syntax.CharProps.sentenceBreakFromVecIndex),
    (n% "UPROPS_WB_MASK", some (.val (.int (31744 : Nat)))),
    (n% "UPROPS_WB_SHIFT", some (.val (.int (10 : Nat)))),
    (n% "wordBreakFromVecIndex", fnOf (n% "CharProps") Syntax.CharProps.wordBreakFromVecIndex),
    (n% "UPROPS_GCB_MASK", some (.val (.int (992 : Nat)))),
    (n% "UPROPS_GCB_SHIFT", some (.val (.int (5 : Nat)))),
    (n% "graphemeClusterBreakFromVecIndex", fnOf (n% "CharProps") Syntax.CharProps.graphemeClusterBreakFromVecIndex),
    (n% "UPROPS_DT_MASK", some (.val (.int (31 : Nat)))),
    (n% "decompTypeFromVecIndex", fnOf (n% "CharProps") Syntax.CharProps.decompTypeFromVecIndex),
    (n% "UPROPS_BINARY_1_TOP", some (.val (.int (32 : Nat)))),
    (n% "binaryPropFromVecIndex", fnOf (n% "CharProps") Syntax.CharProps.binaryPropFromVecIndex),
    (n% "getBinaryProp", fnOf (n% "CharProps") Syntax.CharProps.getBinaryProp),
    (n% "UPROPS_2_EXTENDED_PICTOGRAPHIC", some (.val (.int (26 : Nat)))),
    (n% "UPROPS_2_EMOJI_COMPONENT", some (.val (.int (27 : Nat)))),
    (n% "UPROPS_2_EMOJI", some (.val (.int (28 : Nat)))),
    (n% "UPROPS_2_EMOJI_PRESENTATION", some (.val (.int (29 : Nat)))),
    (n% "UPROPS_2_EMOJI_MODIFIER", some (.val (.int (30 : Nat)))),
    (n% "UPROPS_2_EMOJI_MODIFIER_BASE", some (.val (.int (31 : Nat)))),
    (n% "isLower", fnOf (n% "CharProps") Syntax.CharProps.isLower),
    (n% "isUpper", fnOf (n% "CharProps") Syntax.CharProps.isUpper),
    (n% "isTitle", fnOf (n% "CharProps") Syntax.CharProps.isTitle),
    (n% "isHexDigit", fnOf (n% "CharProps") Syntax.CharProps.isHexDigit),
    (n% "isalpha", fnOf (n% "CharProps") Syntax.CharProps.isalpha),
    (n% "isalnum", fnOf (n% "CharProps") Syntax.CharProps.isalnum),
    (n% "isalnumPOSIX", fnOf (n% "CharProps") Syntax.CharProps.isalnumPOSIX),
    (n% "isDefined", fnOf (n% "CharProps") Syntax.CharProps.isDefined),
    (n% "isbase", fnOf (n% "CharProps") Syntax.CharProps.isbase),
    (n% "iscntrl", fnOf (n% "CharProps") Syntax.CharProps.iscntrl),
    (n% "isspace", fnOf (n% "CharProps") Syntax.CharProps.isspace),
    (n% "isJavaSpaceChar", fnOf (n% "CharProps") Syntax.CharProps.isJavaSpaceChar),
    (n% "isWhiteSpace", fnOf (n% "CharProps") Syntax.CharProps.isWhiteSpace),
    (n% "isBlank", fnOf (n% "CharProps") Syntax.CharProps.isBlank),
    (n% "isUWhiteSpace", fnOf (n% "CharProps") Syntax.CharProps.isUWhiteSpace),
    (n% "isPrint", fnOf (n% "CharProps") Syntax.CharProps.isPrint),
    (n% "isPrintPOSIX", fnOf (n% "CharProps") Syntax.CharProps.isPrintPOSIX),
    (n% "isgraph", fnOf (n% "CharProps") Syntax.CharProps.isgraph),
    (n% "ispunct", fnOf (n% "CharProps") Syntax.CharProps.ispunct),
    (n% "isIDStart", fnOf (n% "CharProps") Syntax.CharProps.isIDStart),
    (n% "isIDPart", fnOf (n% "CharProps") Syntax.CharProps.isIDPart),
    (n% "isJavaIDStart", fnOf (n% "CharProps") Syntax.CharProps.isJavaIDStart),
    (n% "isJavaIDPart", fnOf (n% "CharProps") Syntax.CharProps.isJavaIDPart),
    (n% "digitValue", fnOf (n% "CharProps") Syntax.CharProps.digitValue),
    (n% "getNumericType", fnOf (n% "CharProps") Syntax.CharProps.getNumericType),
    (n% "getNumericValue", fnOf (n% "CharProps") Syntax.CharProps.getNumericValue),
    (n% "getAge", fnOf (n% "CharProps") Syntax.CharProps.getAge),
    (n% "getScript", fnOf (n% "CharProps") Syntax.CharProps.getScript),
    (n% "getBlock", fnOf (n% "CharProps") Syntax.CharProps.getBlock),
    (n% "getEastAsianWidth", fnOf (n% "CharProps") Syntax.CharProps.getEastAsianWidth),
    (n% "getLineBreak", fnOf (n% "CharProps") Syntax.CharProps.getLineBreak),
    (n% "getSentenceBreak", fnOf (n% "CharProps") Syntax.CharProps.getSentenceBreak),
    (n% "getWordBreak", fnOf (n% "CharProps") Syntax.CharProps.getWordBreak),
    (n% "getGraphemeClusterBreak", fnOf (n% "CharProps") Syntax.CharProps.getGraphemeClusterBreak),
    (n% "getDecompType", fnOf (n% "CharProps") Syntax.CharProps.getDecompType),
    (n% "isExtendedPictograph", fnOf (n% "CharProps") Syntax.CharProps.isExtendedPictograph),
    (n% "isEmojiComponent", fnOf (n% "CharProps") Syntax.CharProps.isEmojiComponent),
    (n% "isEmoji", fnOf (n% "CharProps") Syntax.CharProps.isEmoji),
    (n% "isEmojiPresentation", fnOf (n% "CharProps") Syntax.CharProps.isEmojiPresentation),
    (n% "isEmojiModifier", fnOf (n% "CharProps") Syntax.CharProps.isEmojiModifier),
    (n% "isEmojiModifierBase", fnOf (n% "CharProps") Syntax.CharProps.isEmojiModifierBase),
    (n% "True", none),
    (n% "False", none),
    (n% "None", none)]

/-- A world where CharProps.py was imported. -/
structure Imported (w : World) : Prop where
  trie : w.scope (n% "Utrie2") = trie2
  name : ∀ p ∈ names, w.find (n% "CharProps") 0 p.1 = p.2
  props : Same (w.tables (n% "propsTrie_index")) propsIndex.arr
  vectors : Same (w.tables (n% "propsVectorsTrie_index")) propsVectorsIndex.arr
  table : Same (w.tables (n% "propsVectors")) propsVectorsTable.arr
  extensions : Same (w.tables (n% "scriptExtensions")) scriptExtensions.arr

variable {w : World} (H : Imported w)
include H

theorem found (i : Nat) (h : i < names.length) : w.find (n% "CharProps") 0 names[i].1 = names[i].2 :=
  H.name _ (List.getElem_mem h)

theorem Names.propsVectors : w.find (n% "CharProps") 0 (n% "propsVectors") = some (.val (.arr (n% "propsVectors") 0 propsVectorsTable.size)) := found H 0 (by decide)

theorem Names.propsVectorsColumns : w.find (n% "CharProps") 0 (n% "propsVectorsColumns") = some (.val (.int (3 : Nat))) := found H 1 (by decide)

theorem Names.propsVectorTrie : w.find (n% "CharProps") 0 (n% "propsVectorTrie") = some (.val (trieObj (n% "propsVectorsTrie_index") Char.propsVectorTrie)) := found H 2 (by decide)

theorem Names.unicodePropertiesFromVecIndex : w.find (n% "CharProps") 0 (n% "unicodePropertiesFromVecIndex") = fnOf (n% "CharProps") Syntax.CharProps.unicodePropertiesFromVecIndex := found H 3 (by decide)

theorem Names.propsTrie : w.find (n% "CharProps") 0 (n% "propsTrie") = some (.val (trieObj (n% "propsTrie_index") Char.propsTrie)) := found H 4 (by decide)

theorem Names.generalCategoryFromProps : w.find (n% "CharProps") 0 (n% "generalCategoryFromProps") = fnOf (n% "CharProps") Syntax.CharProps.generalCategoryFromProps := found H 5 (by decide)

theorem Names.getGeneralCategory : w.find (n% "CharProps") 0 (n% "getGeneralCategory") = fnOf (n% "CharProps") Syntax.CharProps.getGeneralCategory := found H 6 (by decide)

theorem Names.GC_LOWERCASE_LETTER : w.find (n% "CharProps") 0 (n% "GC_LOWERCASE_LETTER") = some (.val (.int (2 : Nat))) := found H 7 (by decide)

theorem Names.GC_UPPERCASE_LETTER : w.find (n% "CharProps") 0 (n% "GC_UPPERCASE_LETTER") = some (.val (.int (1 : Nat))) := found H 8 (by decide)

theorem Names.GC_TITLECASE_LETTER : w.find (n% "CharProps") 0 (n% "GC_TITLECASE_LETTER") = some (.val (.int (3 : Nat))) := found H 9 (by decide)

theorem Names.GC_DECIMAL_DIGIT_NUMBER : w.find (n% "CharProps") 0 (n% "GC_DECIMAL_DIGIT_NUMBER") = some (.val (.int (9 : Nat))) := found H 10 (by decide)

theorem Names.range : w.find (n% "CharProps") 0 (n% "range") = none := found H 11 (by decide)

theorem Names.CH_U_A : w.find (n% "CharProps") 0 (n% "CH_U_A") = some (.val (.int (65 : Nat))) := found H 12 (by decide)

theorem Names.CH_U_F : w.find (n% "CharProps") 0 (n% "CH_U_F") = some (.val (.int (70 : Nat))) := found H 13 (by decide)

theorem Names.CH_U_a : w.find (n% "CharProps") 0 (n% "CH_U_a") = some (.val (.int (97 : Nat))) := found H 14 (by decide)

theorem Names.CH_U_f : w.find (n% "CharProps") 0 (n% "CH_U_f") = some (.val (.int (102 : Nat))) := found H 15 (by decide)

theorem Names.CH_U_FW_A : w.find (n% "CharProps") 0 (n% "CH_U_FW_A") = some (.val (.int (65313 : Nat))) := found H 16 (by decide)

theorem Names.CH_U_FW_F : w.find (n% "CharProps") 0 (n% "CH_U_FW_F") = some (.val (.int (65318 : Nat))) := found H 17 (by decide)

theorem Names.CH_U_FW_a : w.find (n% "CharProps") 0 (n% "CH_U_FW_a") = some (.val (.int (65345 : Nat))) := found H 18 (by decide)

theorem Names.CH_U_FW_f : w.find (n% "CharProps") 0 (n% "CH_U_FW_f") = some (.val (.int (65350 : Nat))) := found H 19 (by decide)

theorem Names.isDigit : w.find (n% "CharProps") 0 (n% "isDigit") = fnOf (n% "CharProps") Syntax.CharProps.isDigit := found H 20 (by decide)

theorem Names.gcMask : w.find (n% "CharProps") 0 (n% "gcMask") = fnOf (n% "CharProps") Syntax.CharProps.gcMask := found H 21 (by decide)

theorem Names.GC_L_MASK : w.find (n% "CharProps") 0 (n% "GC_L_MASK") = some (.val (.int (62 : Nat))) := found H 22 (by decide)

theorem Names.getUnicodeProperties : w.find (n% "CharProps") 0 (n% "getUnicodeProperties") = fnOf (n% "CharProps") Syntax.CharProps.getUnicodeProperties := found H 23 (by decide)

theorem Names.UPROPS_ALPHABETIC : w.find (n% "CharProps") 0 (n% "UPROPS_ALPHABETIC") = some (.val (.int (8 : Nat))) := found H 24 (by decide)

theorem Names.GC_ND_MASK : w.find (n% "CharProps") 0 (n% "GC_ND_MASK") = some (.val (.int (512 : Nat))) := found H 25 (by decide)

theorem Names.isAlphabetic : w.find (n% "CharProps") 0 (n% "isAlphabetic") = fnOf (n% "CharProps") Syntax.CharProps.isAlphabetic := found H 26 (by decide)

theorem Names.GC_UNASSIGNED : w.find (n% "CharProps") 0 (n% "GC_UNASSIGNED") = some (.val (.int (0 : Nat))) := found H 27 (by decide)

theorem Names.GC_N_MASK : w.find (n% "CharProps") 0 (n% "GC_N_MASK") = some (.val (.int (3584 : Nat))) := found H 28 (by decide)

theorem Names.GC_MC_MASK : w.find (n% "CharProps") 0 (n% "GC_MC_MASK") = some (.val (.int (256 : Nat))) := found H 29 (by decide)

theorem Names.GC_ME_MASK : w.find (n% "CharProps") 0 (n% "GC_ME_MASK") = some (.val (.int (128 : Nat))) := found H 30 (by decide)

theorem Names.GC_CC_MASK : w.find (n% "CharProps") 0 (n% "GC_CC_MASK") = some (.val (.int (32768 : Nat))) := found H 31 (by decide)

theorem Names.GC_CF_MASK : w.find (n% "CharProps") 0 (n% "GC_CF_MASK") = some (.val (.int (65536 : Nat))) := found H 32 (by decide)

theorem Names.GC_ZL_MASK : w.find (n% "CharProps") 0 (n% "GC_ZL_MASK") = some (.val (.int (8192 : Nat))) := found H 33 (by decide)

theorem Names.GC_ZP_MASK : w.find (n% "CharProps") 0 (n% "GC_ZP_MASK") = some (.val (.int (16384 : Nat))) := found H 34 (by decide)

theorem Names.CH_TAB : w.find (n% "CharProps") 0 (n% "CH_TAB") = some (.val (.int (9 : Nat))) := found H 35 (by decide)

theorem Names.CH_CR : w.find (n% "CharProps") 0 (n% "CH_CR") = some (.val (.int (13 : Nat))) := found H 36 (by decide)

theorem Names.CH_NL : w.find (n% "CharProps") 0 (n% "CH_NL") = some (.val (.int (133 : Nat))) := found H 37 (by decide)

theorem Names.GC_Z_MASK : w.find (n% "CharProps") 0 (n% "GC_Z_MASK") = some (.val (.int (28672 : Nat))) := found H 38 (by decide)

theorem Names.isThatControlSpace : w.find (n% "CharProps") 0 (n% "isThatControlSpace") = fnOf (n% "CharProps") Syntax.CharProps.isThatControlSpace := found H 39 (by decide)

theorem Names.CH_NBSP : w.find (n% "CharProps") 0 (n% "CH_NBSP") = some (.val (.int (160 : Nat))) := found H 40 (by decide)

theorem Names.CH_FIGURESP : w.find (n% "CharProps") 0 (n% "CH_FIGURESP") = some (.val (.int (8199 : Nat))) := found H 41 (by decide)

theorem Names.CH_NNBSP : w.find (n% "CharProps") 0 (n% "CH_NNBSP") = some (.val (.int (8239 : Nat))) := found H 42 (by decide)

theorem Names.isThatASCIIControlSpace : w.find (n% "CharProps") 0 (n% "isThatASCIIControlSpace") = fnOf (n% "CharProps") Syntax.CharProps.isThatASCIIControlSpace := found H 43 (by decide)

theorem Names.CH_SPACE : w.find (n% "CharProps") 0 (n% "CH_SPACE") = some (.val (.int (32 : Nat))) := found H 44 (by decide)

theorem Names.GC_SPACE_SEPARATOR : w.find (n% "CharProps") 0 (n% "GC_SPACE_SEPARATOR") = some (.val (.int (12 : Nat))) := found H 45 (by decide)

theorem Names.UPROPS_WHITE_SPACE : w.find (n% "CharProps") 0 (n% "UPROPS_WHITE_SPACE") = some (.val (.int (0 : Nat))) := found H 46 (by decide)

theorem Names.GC_C_MASK : w.find (n% "CharProps") 0 (n% "GC_C_MASK") = some (.val (.int (491521 : Nat))) := found H 47 (by decide)

theorem Names.isGraphPOSIX : w.find (n% "CharProps") 0 (n% "isGraphPOSIX") = fnOf (n% "CharProps") Syntax.CharProps.isGraphPOSIX := found H 48 (by decide)

theorem Names.GC_CS_MASK : w.find (n% "CharProps") 0 (n% "GC_CS_MASK") = some (.val (.int (262144 : Nat))) := found H 49 (by decide)

theorem Names.GC_CN_MASK : w.find (n% "CharProps") 0 (n% "GC_CN_MASK") = some (.val (.int (1 : Nat))) := found H 50 (by decide)

theorem Names.GC_P_MASK : w.find (n% "CharProps") 0 (n% "GC_P_MASK") = some (.val (.int (821559296 : Nat))) := found H 51 (by decide)

theorem Names.GC_NL_MASK : w.find (n% "CharProps") 0 (n% "GC_NL_MASK") = some (.val (.int (1024 : Nat))) := found H 52 (by decide)

theorem Names.GC_PC_MASK : w.find (n% "CharProps") 0 (n% "GC_PC_MASK") = some (.val (.int (4194304 : Nat))) := found H 53 (by decide)

theorem Names.GC_MN_MASK : w.find (n% "CharProps") 0 (n% "GC_MN_MASK") = some (.val (.int (64 : Nat))) := found H 54 (by decide)

theorem Names.isIDIgnorable : w.find (n% "CharProps") 0 (n% "isIDIgnorable") = fnOf (n% "CharProps") Syntax.CharProps.isIDIgnorable := found H 55 (by decide)

theorem Names.isISOControl : w.find (n% "CharProps") 0 (n% "isISOControl") = fnOf (n% "CharProps") Syntax.CharProps.isISOControl := found H 56 (by decide)

theorem Names.GC_FORMAT_CHAR : w.find (n% "CharProps") 0 (n% "GC_FORMAT_CHAR") = some (.val (.int (16 : Nat))) := found H 57 (by decide)

theorem Names.GC_SC_MASK : w.find (n% "CharProps") 0 (n% "GC_SC_MASK") = some (.val (.int (33554432 : Nat))) := found H 58 (by decide)

theorem Names.getNumericTypeValue : w.find (n% "CharProps") 0 (n% "getNumericTypeValue") = fnOf (n% "CharProps") Syntax.CharProps.getNumericTypeValue := found H 59 (by decide)

theorem Names.UPROPS_NTV_DECIMAL_START : w.find (n% "CharProps") 0 (n% "UPROPS_NTV_DECIMAL_START") = some (.val (.int (1 : Nat))) := found H 60 (by decide)

theorem Names.numericTypeFromProps : w.find (n% "CharProps") 0 (n% "numericTypeFromProps") = fnOf (n% "CharProps") Syntax.CharProps.numericTypeFromProps := found H 61 (by decide)

theorem Names.UPROPS_NUMERIC_TYPE_VALUE_SHIFT : w.find (n% "CharProps") 0 (n% "UPROPS_NUMERIC_TYPE_VALUE_SHIFT") = some (.val (.int (6 : Nat))) := found H 62 (by decide)

theorem Names.numericTypeValueFromProps : w.find (n% "CharProps") 0 (n% "numericTypeValueFromProps") = fnOf (n% "CharProps") Syntax.CharProps.numericTypeValueFromProps := found H 63 (by decide)

theorem Names.UPROPS_NTV_NONE : w.find (n% "CharProps") 0 (n% "UPROPS_NTV_NONE") = some (.val (.int (0 : Nat))) := found H 64 (by decide)

theorem Names.UPROPS_NTV_DIGIT_START : w.find (n% "CharProps") 0 (n% "UPROPS_NTV_DIGIT_START") = some (.val (.int (11 : Nat))) := found H 65 (by decide)

theorem Names.UPROPS_NTV_NUMERIC_START : w.find (n% "CharProps") 0 (n% "UPROPS_NTV_NUMERIC_START") = some (.val (.int (21 : Nat))) := found H 66 (by decide)

theorem Names.UPROPS_NTV_FRACTION_START : w.find (n% "CharProps") 0 (n% "UPROPS_NTV_FRACTION_START") = some (.val (.int (176 : Nat))) := found H 67 (by decide)

theorem Names.UPROPS_NTV_LARGE_START : w.find (n% "CharProps") 0 (n% "UPROPS_NTV_LARGE_START") = some (.val (.int (480 : Nat))) := found H 68 (by decide)

theorem Names.UPROPS_NTV_BASE60_START : w.find (n% "CharProps") 0 (n% "UPROPS_NTV_BASE60_START") = some (.val (.int (768 : Nat))) := found H 69 (by decide)

theorem Names.UPROPS_NTV_FRACTION20_START : w.find (n% "CharProps") 0 (n% "UPROPS_NTV_FRACTION20_START") = some (.val (.int (804 : Nat))) := found H 70 (by decide)

theorem Names.UPROPS_NTV_FRACTION32_START : w.find (n% "CharProps") 0 (n% "UPROPS_NTV_FRACTION32_START") = some (.val (.int (828 : Nat))) := found H 71 (by decide)

theorem Names.UPROPS_NTV_RESERVED_START : w.find (n% "CharProps") 0 (n% "UPROPS_NTV_RESERVED_START") = some (.val (.int (844 : Nat))) := found H 72 (by decide)

theorem Names.numericValueFromProps : w.find (n% "CharProps") 0 (n% "numericValueFromProps") = fnOf (n% "CharProps") Syntax.CharProps.numericValueFromProps := found H 73 (by decide)

theorem Names.UPROPS_AGE_SHIFT : w.find (n% "CharProps") 0 (n% "UPROPS_AGE_SHIFT") = some (.val (.int (24 : Nat))) := found H 74 (by decide)

theorem Names.ageFromProps : w.find (n% "CharProps") 0 (n% "ageFromProps") = fnOf (n% "CharProps") Syntax.CharProps.ageFromProps := found H 75 (by decide)

theorem Names.UPROPS_SCRIPT_HIGH_MASK : w.find (n% "CharProps") 0 (n% "UPROPS_SCRIPT_HIGH_MASK") = some (.val (.int (3145728 : Nat))) := found H 76 (by decide)

theorem Names.UPROPS_SCRIPT_HIGH_SHIFT : w.find (n% "CharProps") 0 (n% "UPROPS_SCRIPT_HIGH_SHIFT") = some (.val (.int (12 : Nat))) := found H 77 (by decide)

theorem Names.UPROPS_SCRIPT_LOW_MASK : w.find (n% "CharProps") 0 (n% "UPROPS_SCRIPT_LOW_MASK") = some (.val (.int (255 : Nat))) := found H 78 (by decide)

theorem Names.UPROPS_SCRIPT_X_MASK : w.find (n% "CharProps") 0 (n% "UPROPS_SCRIPT_X_MASK") = some (.val (.int (15728895 : Nat))) := found H 79 (by decide)

theorem Names.mergeScriptCodeOrIndex : w.find (n% "CharProps") 0 (n% "mergeScriptCodeOrIndex") = fnOf (n% "CharProps") Syntax.CharProps.mergeScriptCodeOrIndex := found H 80 (by decide)

theorem Names.UPROPS_SCRIPT_X_WITH_COMMON : w.find (n% "CharProps") 0 (n% "UPROPS_SCRIPT_X_WITH_COMMON") = some (.val (.int (4194304 : Nat))) := found H 81 (by decide)

theorem Names.UPROPS_SCRIPT_X_WITH_INHERITED : w.find (n% "CharProps") 0 (n% "UPROPS_SCRIPT_X_WITH_INHERITED") = some (.val (.int (8388608 : Nat))) := found H 82 (by decide)

theorem Names.USCRIPT_COMMON : w.find (n% "CharProps") 0 (n% "USCRIPT_COMMON") = some (.val (.int (0 : Nat))) := found H 83 (by decide)

theorem Names.UPROPS_SCRIPT_X_WITH_OTHER : w.find (n% "CharProps") 0 (n% "UPROPS_SCRIPT_X_WITH_OTHER") = some (.val (.int (12582912 : Nat))) := found H 84 (by decide)

theorem Names.USCRIPT_INHERITED : w.find (n% "CharProps") 0 (n% "USCRIPT_INHERITED") = some (.val (.int (1 : Nat))) := found H 85 (by decide)

theorem Names.scriptExtensions : w.find (n% "CharProps") 0 (n% "scriptExtensions") = some (.val (.arr (n% "scriptExtensions") 0 scriptExtensions.size)) := found H 86 (by decide)

theorem Names.USCRIPT_INVALID_CODE : w.find (n% "CharProps") 0 (n% "USCRIPT_INVALID_CODE") = some (.val (.int (-1))) := found H 87 (by decide)

theorem Names.scriptFromVecIndex : w.find (n% "CharProps") 0 (n% "scriptFromVecIndex") = fnOf (n% "CharProps") Syntax.CharProps.scriptFromVecIndex := found H 88 (by decide)

theorem Names.UPROPS_BLOCK_MASK : w.find (n% "CharProps") 0 (n% "UPROPS_BLOCK_MASK") = some (.val (.int (130816 : Nat))) := found H 89 (by decide)

theorem Names.UPROPS_BLOCK_SHIFT : w.find (n% "CharProps") 0 (n% "UPROPS_BLOCK_SHIFT") = some (.val (.int (8 : Nat))) := found H 90 (by decide)

theorem Names.blockFromVecIndex : w.find (n% "CharProps") 0 (n% "blockFromVecIndex") = fnOf (n% "CharProps") Syntax.CharProps.blockFromVecIndex := found H 91 (by decide)

theorem Names.UPROPS_EA_MASK : w.find (n% "CharProps") 0 (n% "UPROPS_EA_MASK") = some (.val (.int (917504 : Nat))) := found H 92 (by decide)

theorem Names.UPROPS_EA_SHIFT : w.find (n% "CharProps") 0 (n% "UPROPS_EA_SHIFT") = some (.val (.int (17 : Nat))) := found H 93 (by decide)

theorem Names.eastAsianWidthFromVecIndex : w.find (n% "CharProps") 0 (n% "eastAsianWidthFromVecIndex") = fnOf (n% "CharProps") Syntax.CharProps.eastAsianWidthFromVecIndex := found H 94 (by decide)

theorem Names.UPROPS_LB_MASK : w.find (n% "CharProps") 0 (n% "UPROPS_LB_MASK") = some (.val (.int (66060288 : Nat))) := found H 95 (by decide)

theorem Names.UPROPS_LB_SHIFT : w.find (n% "CharProps") 0 (n% "UPROPS_LB_SHIFT") = some (.val (.int (20 : Nat))) := found H 96 (by decide)

theorem Names.lineBreakFromVecIndex : w.find (n% "CharProps") 0 (n% "lineBreakFromVecIndex") = fnOf (n% "CharProps") Syntax.CharProps.lineBreakFromVecIndex := found H 97 (by decide)

theorem Names.UPROPS_SB_MASK : w.find (n% "CharProps") 0 (n% "UPROPS_SB_MASK") = some (.val (.int (1015808 : Nat))) := found H 98 (by decide)

theorem Names.UPROPS_SB_SHIFT : w.find (n% "CharProps") 0 (n% "UPROPS_SB_SHIFT") = some (.val (.int (15 : Nat))) := found H 99 (by decide)

theorem Names.sentenceBreakFromVecIndex : w.find (n% "CharProps") 0 (n% "sentenceBreakFromVecIndex") = fnOf (n% "CharProps") Syntax.CharProps.sentenceBreakFromVecIndex := found H 100 (by decide)

theorem Names.UPROPS_WB_MASK : w.find (n% "CharProps") 0 (n% "UPROPS_WB_MASK") = some (.val (.int (31744 : Nat))) := found H 101 (by decide)

theorem Names.UPROPS_WB_SHIFT : w.find (n% "CharProps") 0 (n% "UPROPS_WB_SHIFT") = some (.val (.int (10 : Nat))) := found H 102 (by decide)

theorem Names.wordBreakFromVecIndex : w.find (n% "CharProps") 0 (n% "wordBreakFromVecIndex") = fnOf (n% "CharProps") Syntax.CharProps.wordBreakFromVecIndex := found H 103 (by decide)

theorem Names.UPROPS_GCB_MASK : w.find (n% "CharProps") 0 (n% "UPROPS_GCB_MASK") = some (.val (.int (992 : Nat))) := found H 104 (by decide)

theorem Names.UPROPS_GCB_SHIFT : w.find (n% "CharProps") 0 (n% "UPROPS_GCB_SHIFT") = some (.val (.int (5 : Nat))) := found H 105 (by decide)

theorem Names.graphemeClusterBreakFromVecIndex : w.find (n% "CharProps") 0 (n% "graphemeClusterBreakFromVecIndex") = fnOf (n% "CharProps") Syntax.CharProps.graphemeClusterBreakFromVecIndex := found H 106 (by decide)

theorem Names.UPROPS_DT_MASK : w.find (n% "CharProps") 0 (n% "UPROPS_DT_MASK") = some (.val (.int (31 : Nat))) := found H 107 (by decide)

theorem Names.decompTypeFromVecIndex : w.find (n% "CharProps") 0 (n% "decompTypeFromVecIndex") = fnOf (n% "CharProps") Syntax.CharProps.decompTypeFromVecIndex := found H 108 (by decide)

theorem Names.UPROPS_BINARY_1_TOP : w.find (n% "CharProps") 0 (n% "UPROPS_BINARY_1_TOP") = some (.val (.int (32 : Nat))) := found H 109 (by decide)

theorem Names.binaryPropFromVecIndex : w.find (n% "CharProps") 0 (n% "binaryPropFromVecIndex") = fnOf (n% "CharProps") Syntax.CharProps.binaryPropFromVecIndex := found H 110 (by decide)

theorem Names.getBinaryProp : w.find (n% "CharProps") 0 (n% "getBinaryProp") = fnOf (n% "CharProps") Syntax.CharProps.getBinaryProp := found H 111 (by decide)

theorem Names.UPROPS_2_EXTENDED_PICTOGRAPHIC : w.find (n% "CharProps") 0 (n% "UPROPS_2_EXTENDED_PICTOGRAPHIC") = some (.val (.int (26 : Nat))) := found H 112 (by decide)

theorem Names.UPROPS_2_EMOJI_COMPONENT : w.find (n% "CharProps") 0 (n% "UPROPS_2_EMOJI_COMPONENT") = some (.val (.int (27 : Nat))) := found H 113 (by decide)

theorem Names.UPROPS_2_EMOJI : w.find (n% "CharProps") 0 (n% "UPROPS_2_EMOJI") = some (.val (.int (28 : Nat))) := found H 114 (by decide)

theorem Names.UPROPS_2_EMOJI_PRESENTATION : w.find (n% "CharProps") 0 (n% "UPROPS_2_EMOJI_PRESENTATION") = some (.val (.int (29 : Nat))) := found H 115 (by decide)

theorem Names.UPROPS_2_EMOJI_MODIFIER : w.find (n% "CharProps") 0 (n% "UPROPS_2_EMOJI_MODIFIER") = some (.val (.int (30 : Nat))) := found H 116 (by decide)

theorem Names.UPROPS_2_EMOJI_MODIFIER_BASE : w.find (n% "CharProps") 0 (n% "UPROPS_2_EMOJI_MODIFIER_BASE") = some (.val (.int (31 : Nat))) := found H 117 (by decide)

theorem Names.isLower : w.find (n% "CharProps") 0 (n% "isLower") = fnOf (n% "CharProps") Syntax.CharProps.isLower := found H 118 (by decide)

theorem Names.isUpper : w.find (n% "CharProps") 0 (n% "isUpper") = fnOf (n% "CharProps") Syntax.CharProps.isUpper := found H 119 (by decide)

theorem Names.isTitle : w.find (n% "CharProps") 0 (n% "isTitle") = fnOf (n% "CharProps") Syntax.CharProps.isTitle := found H 120 (by decide)

theorem Names.isHexDigit : w.find (n% "CharProps") 0 (n% "isHexDigit") = fnOf (n% "CharProps") Syntax.CharProps.isHexDigit := found H 121 (by decide)

theorem Names.isalpha : w.find (n% "CharProps") 0 (n% "isalpha") = fnOf (n% "CharProps") Syntax.CharProps.isalpha := found H 122 (by decide)

theorem Names.isalnum : w.find (n% "CharProps") 0 (n% "isalnum") = fnOf (n% "CharProps") Syntax.CharProps.isalnum := found H 123 (by decide)

theorem Names.isalnumPOSIX : w.find (n% "CharProps") 0 (n% "isalnumPOSIX") = fnOf (n% "CharProps") Syntax.CharProps.isalnumPOSIX := found H 124 (by decide)

theorem Names.isDefined : w.find (n% "CharProps") 0 (n% "isDefined") = fnOf (n% "CharProps") Syntax.CharProps.isDefined := found H 125 (by decide)

theorem Names.isbase : w.find (n% "CharProps") 0 (n% "isbase") = fnOf (n% "CharProps") Syntax.CharProps.isbase := found H 126 (by decide)

theorem Names.iscntrl : w.find (n% "CharProps") 0 (n% "iscntrl") = fnOf (n% "CharProps") Syntax.CharProps.iscntrl := found H 127 (by decide)

theorem Names.isspace : w.find (n% "CharProps") 0 (n% "isspace") = fnOf (n% "CharProps") Syntax.CharProps.isspace := found H 128 (by decide)

theorem Names.isJavaSpaceChar : w.find (n% "CharProps") 0 (n% "isJavaSpaceChar") = fnOf (n% "CharProps") Syntax.CharProps.isJavaSpaceChar := found H 129 (by decide)

theorem Names.isWhiteSpace : w.find (n% "CharProps") 0 (n% "isWhiteSpace") = fnOf (n% "CharProps") Syntax.CharProps.isWhiteSpace := found H 130 (by decide)

theorem Names.isBlank : w.find (n% "CharProps") 0 (n% "isBlank") = fnOf (n% "CharProps") Syntax.CharProps.isBlank := found H 131 (by decide)

theorem Names.isUWhiteSpace : w.find (n% "CharProps") 0 (n% "isUWhiteSpace") = fnOf (n% "CharProps") Syntax.CharProps.isUWhiteSpace := found H 132 (by decide)

theorem Names.isPrint : w.find (n% "CharProps") 0 (n% "isPrint") = fnOf (n% "CharProps") Syntax.CharProps.isPrint := found H 133 (by decide)

theorem Names.isPrintPOSIX : w.find (n% "CharProps") 0 (n% "isPrintPOSIX") = fnOf (n% "CharProps") Syntax.CharProps.isPrintPOSIX := found H 134 (by decide)

theorem Names.isgraph : w.find (n% "CharProps") 0 (n% "isgraph") = fnOf (n% "CharProps") Syntax.CharProps.isgraph := found H 135 (by decide)

theorem Names.ispunct : w.find (n% "CharProps") 0 (n% "ispunct") = fnOf (n% "CharProps") Syntax.CharProps.ispunct := found H 136 (by decide)

theorem Names.isIDStart : w.find (n% "CharProps") 0 (n% "isIDStart") = fnOf (n% "CharProps") Syntax.CharProps.isIDStart := found H 137 (by decide)

theorem Names.isIDPart : w.find (n% "CharProps") 0 (n% "isIDPart") = fnOf (n% "CharProps") Syntax.CharProps.isIDPart := found H 138 (by decide)

theorem Names.isJavaIDStart : w.find (n% "CharProps") 0 (n% "isJavaIDStart") = fnOf (n% "CharProps") Syntax.CharProps.isJavaIDStart := found H 139 (by decide)

theorem Names.isJavaIDPart : w.find (n% "CharProps") 0 (n% "isJavaIDPart") = fnOf (n% "CharProps") Syntax.CharProps.isJavaIDPart := found H 140 (by decide)

theorem Names.digitValue : w.find (n% "CharProps") 0 (n% "digitValue") = fnOf (n% "CharProps") Syntax.CharProps.digitValue := found H 141 (by decide)

theorem Names.getNumericType : w.find (n% "CharProps") 0 (n% "getNumericType") = fnOf (n% "CharProps") Syntax.CharProps.getNumericType := found H 142 (by decide)

theorem Names.getNumericValue : w.find (n% "CharProps") 0 (n% "getNumericValue") = fnOf (n% "CharProps") Syntax.CharProps.getNumericValue := found H 143 (by decide)

theorem Names.getAge : w.find (n% "CharProps") 0 (n% "getAge") = fnOf (n% "CharProps") Syntax.CharProps.getAge := found H 144 (by decide)

theorem Names.getScript : w.find (n% "CharProps") 0 (n% "getScript") = fnOf (n% "CharProps") Syntax.CharProps.getScript := found H 145 (by decide)

theorem Names.getBlock : w.find (n% "CharProps") 0 (n% "getBlock") = fnOf (n% "CharProps") Syntax.CharProps.getBlock := found H 146 (by decide)

theorem Names.getEastAsianWidth : w.find (n% "CharProps") 0 (n% "getEastAsianWidth") = fnOf (n% "CharProps") Syntax.CharProps.getEastAsianWidth := found H 147 (by decide)

theorem Names.getLineBreak : w.find (n% "CharProps") 0 (n% "getLineBreak") = fnOf (n% "CharProps") Syntax.CharProps.getLineBreak := found H 148 (by decide)

theorem Names.getSentenceBreak : w.find (n% "CharProps") 0 (n% "getSentenceBreak") = fnOf (n% "CharProps") Syntax.CharProps.getSentenceBreak := found H 149 (by decide)

theorem Names.getWordBreak : w.find (n% "CharProps") 0 (n% "getWordBreak") = fnOf (n% "CharProps") Syntax.CharProps.getWordBreak := found H 150 (by decide)

theorem Names.getGraphemeClusterBreak : w.find (n% "CharProps") 0 (n% "getGraphemeClusterBreak") = fnOf (n% "CharProps") Syntax.CharProps.getGraphemeClusterBreak := found H 151 (by decide)

theorem Names.getDecompType : w.find (n% "CharProps") 0 (n% "getDecompType") = fnOf (n% "CharProps") Syntax.CharProps.getDecompType := found H 152 (by decide)

theorem Names.isExtendedPictograph : w.find (n% "CharProps") 0 (n% "isExtendedPictograph") = fnOf (n% "CharProps") Syntax.CharProps.isExtendedPictograph := found H 153 (by decide)

theorem Names.isEmojiComponent : w.find (n% "CharProps") 0 (n% "isEmojiComponent") = fnOf (n% "CharProps") Syntax.CharProps.isEmojiComponent := found H 154 (by decide)

theorem Names.isEmoji : w.find (n% "CharProps") 0 (n% "isEmoji") = fnOf (n% "CharProps") Syntax.CharProps.isEmoji := found H 155 (by decide)

theorem Names.isEmojiPresentation : w.find (n% "CharProps") 0 (n% "isEmojiPresentation") = fnOf (n% "CharProps") Syntax.CharProps.isEmojiPresentation := found H 156 (by decide)

theorem Names.isEmojiModifier : w.find (n% "CharProps") 0 (n% "isEmojiModifier") = fnOf (n% "CharProps") Syntax.CharProps.isEmojiModifier := found H 157 (by decide)

theorem Names.isEmojiModifierBase : w.find (n% "CharProps") 0 (n% "isEmojiModifierBase") = fnOf (n% "CharProps") Syntax.CharProps.isEmojiModifierBase := found H 158 (by decide)

theorem Names.True : w.find (n% "CharProps") 0 (n% "True") = none := found H 159 (by decide)

theorem Names.False : w.find (n% "CharProps") 0 (n% "False") = none := found H 160 (by decide)

theorem Names.None : w.find (n% "CharProps") 0 (n% "None") = none := found H 161 (by decide)

theorem props_get (c n : Nat) : callMethod w (run w (n + 3)) (trieObj (n% "propsTrie_index") Char.propsTrie) (n% "get")
    (.cons (.int c) .nil) = lift ((Char.propsTrie.get c).map fun e => .int e) :=
  get_run H.trie (show Holds w _ Char.propsTrie from H.props) c n

theorem vectors_get (c n : Nat) : callMethod w (run w (n + 3)) (trieObj (n% "propsVectorsTrie_index") Char.propsVectorTrie)
    (n% "get") (.cons (.int c) .nil) = lift ((Char.propsVectorTrie.get c).map fun e => .int e) :=
  get_run H.trie (show Holds w _ Char.propsVectorTrie from H.vectors) c n

theorem vectors_index (i : Nat) : index w (.arr (n% "propsVectors") 0 propsVectorsTable.size) (.int i) =
    match propsVectorsTable.arr.get i with | .ok e => .ok (.int e) | .error e => .error (.raised e) :=
  index_table (a := propsVectorsTable.arr) H.table i

theorem extensions_index (i : Nat) : index w (.arr (n% "scriptExtensions") 0 scriptExtensions.size) (.int i) =
    match scriptExtensions.arr.get i with | .ok e => .ok (.int e) | .error e => .error (.raised e) :=
  index_table (a := scriptExtensions.arr) H.extensions i

local notation "call[" n ", " f ", " a "]" => callName w (run w n) (n% "CharProps") f a

local macro "start" h:term : tactic => `(tactic| rw [fn_call $h rfl])

theorem unicodePropertiesFromVecIndex_run (v k n : Nat) :
    call[n + 1, n% "unicodePropertiesFromVecIndex", .cons (.int v) (.cons (.int k) .nil)] =
      lift ((Char.unicodePropertiesFromVecIndex v k).map fun e => .int e) := by
  start (Names.unicodePropertiesFromVecIndex H)
  unfold Char.unicodePropertiesFromVecIndex
  cases h : propsVectorsTable.arr.get (v + k) <;> py_run [vectors_index H, Names.propsVectors H, h]

theorem getUnicodeProperties_run (c k n : Nat) : call[n + 4, n% "getUnicodeProperties", .cons (.int c) (.cons (.int k) .nil)] =
      lift ((Char.getUnicodeProperties c k).map fun e => .int e) := by
  start (Names.getUnicodeProperties H)
  unfold Char.getUnicodeProperties
  by_cases hk : k > Data.propsVectorsColumns
  · rw [if_pos hk]
    py_run [Names.propsVectorsColumns H, decide_eq_true (show 3 < k from hk)]
  · rw [if_neg hk]
    have d := decide_eq_false (show ¬ 3 < k from hk)
    cases h : Char.propsVectorTrie.get c with
    | error x => py_run [Names.propsVectorsColumns H, Names.propsVectorTrie H, vectors_get H, h, d]
    | ok v => cases h' : Char.unicodePropertiesFromVecIndex v k <;>
        py_run [Names.propsVectorsColumns H, Names.propsVectorTrie H, vectors_get H, unicodePropertiesFromVecIndex_run H, h, h', d]

theorem generalCategoryFromProps_run (p n : Nat) : call[n + 1, n% "generalCategoryFromProps", .cons (.int p) .nil] =
    .ok (.int (Char.generalCategoryFromProps p)) := by
  start (Names.generalCategoryFromProps H)
  py_run [Char.generalCategoryFromProps]

theorem getGeneralCategory_run (c n : Nat) : call[n + 4, n% "getGeneralCategory", .cons (.int c) .nil] =
    lift ((Char.getGeneralCategory c).map fun e => .int e) := by
  start (Names.getGeneralCategory H)
  unfold Char.getGeneralCategory
  cases h : Char.propsTrie.get c <;> py_run [Names.propsTrie H, props_get H, generalCategoryFromProps_run H, h]

theorem gcMask_run (g n : Nat) : call[n + 1, n% "gcMask", .cons (.int g) .nil] = .ok (.int (Char.gcMask g)) := by
  start (Names.gcMask H)
  py_run [Char.gcMask]

omit H in
theorem masks : Char.L_MASK = 62 ∧ Char.N_MASK = 3584 ∧ Char.ND_MASK = 512 ∧ Char.MC_MASK = 256 ∧ Char.ME_MASK = 128 ∧ Char.CC_MASK = 32768 ∧
    Char.CF_MASK = 65536 ∧ Char.ZL_MASK = 8192 ∧ Char.ZP_MASK = 16384 ∧ Char.Z_MASK = 28672 ∧ Char.C_MASK = 491521 ∧ Char.CS_MASK = 262144 ∧
    Char.CN_MASK = 1 ∧ Char.P_MASK = 821559296 ∧ Char.NL_MASK = 1024 ∧ Char.PC_MASK = 4194304 ∧ Char.MN_MASK = 64 ∧ Char.SC_MASK = 33554432 :=
  by decide

theorem range_call {call : Call} {args : Val} : callName w call (n% "CharProps") (n% "range") args = builtin (n% "range") args :=
  builtin_call (Names.range H)

omit H in
theorem in_range (c a b : Nat) : (decide (a ≤ c) && decide (c < b)) = decide (a ≤ c ∧ c < b) := (Bool.decide_and _ _).symm


theorem isLower_run (c n : Nat) : call[n + 5, n% "isLower", .cons (.int c) .nil] =
    lift ((Char.isLower c).map .bool) := by
  start (Names.isLower H)
  unfold Char.isLower
  cases h : Char.getGeneralCategory c <;> py_run [getGeneralCategory_run H, h, Names.GC_LOWERCASE_LETTER H]

theorem isUpper_run (c n : Nat) : call[n + 5, n% "isUpper", .cons (.int c) .nil] =
    lift ((Char.isUpper c).map .bool) := by
  start (Names.isUpper H)
  unfold Char.isUpper
  cases h : Char.getGeneralCategory c <;> py_run [getGeneralCategory_run H, h, Names.GC_UPPERCASE_LETTER H]

theorem isTitle_run (c n : Nat) : call[n + 5, n% "isTitle", .cons (.int c) .nil] =
    lift ((Char.isTitle c).map .bool) := by
  start (Names.isTitle H)
  unfold Char.isTitle
  cases h : Char.getGeneralCategory c <;> py_run [getGeneralCategory_run H, h, Names.GC_TITLECASE_LETTER H]

theorem isDigit_run (c n : Nat) : call[n + 5, n% "isDigit", .cons (.int c) .nil] =
    lift ((Char.isDigit c).map .bool) := by
  start (Names.isDigit H)
  unfold Char.isDigit
  cases h : Char.getGeneralCategory c <;> py_run [getGeneralCategory_run H, h, Names.GC_DECIMAL_DIGIT_NUMBER H]

theorem isalpha_run (c n : Nat) : call[n + 5, n% "isalpha", .cons (.int c) .nil] =
    lift ((Char.isalpha c).map .bool) := by
  start (Names.isalpha H)
  unfold Char.isalpha
  cases h : Char.getGeneralCategory c <;> py_run [getGeneralCategory_run H, h, gcMask_run H, masks, Names.GC_L_MASK H]

theorem isalnum_run (c n : Nat) : call[n + 5, n% "isalnum", .cons (.int c) .nil] =
    lift ((Char.isalnum c).map .bool) := by
  start (Names.isalnum H)
  unfold Char.isalnum
  cases h : Char.getGeneralCategory c <;> py_run [getGeneralCategory_run H, h, gcMask_run H, masks, Names.GC_L_MASK H, Names.GC_ND_MASK H]

theorem isDefined_run (c n : Nat) : call[n + 5, n% "isDefined", .cons (.int c) .nil] =
    lift ((Char.isDefined c).map .bool) := by
  start (Names.isDefined H)
  unfold Char.isDefined
  cases h : Char.getGeneralCategory c <;> py_run [getGeneralCategory_run H, h, Names.GC_UNASSIGNED H]

theorem isbase_run (c n : Nat) : call[n + 5, n% "isbase", .cons (.int c) .nil] =
    lift ((Char.isbase c).map .bool) := by
  start (Names.isbase H)
  unfold Char.isbase
  cases h : Char.getGeneralCategory c <;> py_run [getGeneralCategory_run H, h, gcMask_run H, masks, Names.GC_L_MASK H, Names.GC_N_MASK H, Names.GC_MC_MASK H, Names.GC_ME_MASK H]

theorem iscntrl_run (c n : Nat) : call[n + 5, n% "iscntrl", .cons (.int c) .nil] =
    lift ((Char.iscntrl c).map .bool) := by
  start (Names.iscntrl H)
  unfold Char.iscntrl
  cases h : Char.getGeneralCategory c <;> py_run [getGeneralCategory_run H, h, gcMask_run H, masks, Names.GC_CC_MASK H, Names.GC_CF_MASK H, Names.GC_ZL_MASK H, Names.GC_ZP_MASK H]

theorem isJavaSpaceChar_run (c n : Nat) : call[n + 5, n% "isJavaSpaceChar", .cons (.int c) .nil] =
    lift ((Char.isJavaSpaceChar c).map .bool) := by
  start (Names.isJavaSpaceChar H)
  unfold Char.isJavaSpaceChar
  cases h : Char.getGeneralCategory c <;> py_run [getGeneralCategory_run H, h, gcMask_run H, masks, Names.GC_Z_MASK H]

theorem isPrint_run (c n : Nat) : call[n + 5, n% "isPrint", .cons (.int c) .nil] =
    lift ((Char.isPrint c).map .bool) := by
  start (Names.isPrint H)
  unfold Char.isPrint
  cases h : Char.getGeneralCategory c <;> py_run [getGeneralCategory_run H, h, gcMask_run H, masks, Names.GC_C_MASK H]

theorem isgraph_run (c n : Nat) : call[n + 5, n% "isgraph", .cons (.int c) .nil] =
    lift ((Char.isgraph c).map .bool) := by
  start (Names.isgraph H)
  unfold Char.isgraph
  cases h : Char.getGeneralCategory c <;> py_run [getGeneralCategory_run H, h, gcMask_run H, masks, Names.GC_CC_MASK H, Names.GC_CF_MASK H, Names.GC_CS_MASK H, Names.GC_CN_MASK H, Names.GC_Z_MASK H]

theorem isGraphPOSIX_run (c n : Nat) : call[n + 5, n% "isGraphPOSIX", .cons (.int c) .nil] =
    lift ((Char.isGraphPOSIX c).map .bool) := by
  start (Names.isGraphPOSIX H)
  unfold Char.isGraphPOSIX
  cases h : Char.getGeneralCategory c <;> py_run [getGeneralCategory_run H, h, gcMask_run H, masks, Names.GC_CC_MASK H, Names.GC_CS_MASK H, Names.GC_CN_MASK H, Names.GC_Z_MASK H]

theorem ispunct_run (c n : Nat) : call[n + 5, n% "ispunct", .cons (.int c) .nil] =
    lift ((Char.ispunct c).map .bool) := by
  start (Names.ispunct H)
  unfold Char.ispunct
  cases h : Char.getGeneralCategory c <;> py_run [getGeneralCategory_run H, h, gcMask_run H, masks, Names.GC_P_MASK H]

theorem isIDStart_run (c n : Nat) : call[n + 5, n% "isIDStart", .cons (.int c) .nil] =
    lift ((Char.isIDStart c).map .bool) := by
  start (Names.isIDStart H)
  unfold Char.isIDStart
  cases h : Char.getGeneralCategory c <;> py_run [getGeneralCategory_run H, h, gcMask_run H, masks, Names.GC_L_MASK H, Names.GC_NL_MASK H]

theorem isJavaIDStart_run (c n : Nat) : call[n + 5, n% "isJavaIDStart", .cons (.int c) .nil] =
    lift ((Char.isJavaIDStart c).map .bool) := by
  start (Names.isJavaIDStart H)
  unfold Char.isJavaIDStart
  cases h : Char.getGeneralCategory c <;> py_run [getGeneralCategory_run H, h, gcMask_run H, masks, Names.GC_L_MASK H, Names.GC_SC_MASK H, Names.GC_PC_MASK H]

theorem isAlphabetic_run (c n : Nat) : call[n + 5, n% "isAlphabetic", .cons (.int c) .nil] =
    lift ((Char.isAlphabetic c).map .bool) := by
  start (Names.isAlphabetic H)
  unfold Char.isAlphabetic
  cases h : Char.getUnicodeProperties c 1 <;> py_run [getUnicodeProperties_run H, h, Names.UPROPS_ALPHABETIC H]

theorem isUWhiteSpace_run (c n : Nat) : call[n + 5, n% "isUWhiteSpace", .cons (.int c) .nil] =
    lift ((Char.isUWhiteSpace c).map .bool) := by
  start (Names.isUWhiteSpace H)
  unfold Char.isUWhiteSpace
  cases h : Char.getUnicodeProperties c 1 <;> py_run [getUnicodeProperties_run H, h, Names.UPROPS_WHITE_SPACE H]

theorem isalnumPOSIX_run (c n : Nat) : call[n + 6, n% "isalnumPOSIX", .cons (.int c) .nil] =
    lift ((Char.isalnumPOSIX c).map .bool) := by
  start (Names.isalnumPOSIX H)
  unfold Char.isalnumPOSIX
  cases h : Char.isAlphabetic c with
  | error x => py_run [isAlphabetic_run H, h]
  | ok a =>
    cases a
    · cases h' : Char.isDigit c <;> py_run [isAlphabetic_run H, isDigit_run H, h, h']
    · py_run [isAlphabetic_run H, h]

theorem isISOControl_run (c n : Nat) : call[n + 1, n% "isISOControl", .cons (.int c) .nil] =
    .ok (.bool (Char.isISOControl c)) := by
  start (Names.isISOControl H)
  py_run [range_call H, builtin, in_range, Char.isISOControl]

theorem isThatControlSpace_run (c n : Nat) : call[n + 1, n% "isThatControlSpace", .cons (.int c) .nil] =
    .ok (.bool (Char.isThatControlSpace c)) := by
  start (Names.isThatControlSpace H)
  py_run [Char.isThatControlSpace, Bool.decide_and, Bool.decide_or, ge_iff_le, Bool.or_assoc, Names.CH_TAB H, Names.CH_CR H, Names.CH_NL H]

theorem isThatASCIIControlSpace_run (c n : Nat) : call[n + 1, n% "isThatASCIIControlSpace", .cons (.int c) .nil] =
    .ok (.bool (Char.isThatASCIIControlSpace c)) := by
  start (Names.isThatASCIIControlSpace H)
  py_run [Char.isThatASCIIControlSpace, Bool.decide_and, Bool.decide_or, ge_iff_le, Names.CH_TAB H, Names.CH_CR H]
  rw [Bool.and_assoc]

theorem isspace_run (c n : Nat) : call[n + 5, n% "isspace", .cons (.int c) .nil] =
    lift ((Char.isspace c).map .bool) := by
  start (Names.isspace H)
  unfold Char.isspace
  cases h : Char.getGeneralCategory c <;> py_run [getGeneralCategory_run H, h, gcMask_run H, masks, isThatControlSpace_run H, Names.GC_Z_MASK H]

theorem isWhiteSpace_run (c n : Nat) : call[n + 5, n% "isWhiteSpace", .cons (.int c) .nil] =
    lift ((Char.isWhiteSpace c).map .bool) := by
  start (Names.isWhiteSpace H)
  unfold Char.isWhiteSpace
  by_cases hc : c = 0xa0 ∨ c = 0x2007 ∨ c = 0x202f
  · have d : ((decide (c = 0xa0) || decide (c = 0x2007)) || decide (c = 0x202f)) = true := by simpa [or_assoc] using hc
    rw [if_pos hc]
    py_run [d, Names.False H, Names.CH_NBSP H, Names.CH_FIGURESP H, Names.CH_NNBSP H, Names.GC_Z_MASK H]
  · have d : ((decide (c = 0xa0) || decide (c = 0x2007)) || decide (c = 0x202f)) = false := by simpa [or_assoc, and_assoc] using hc
    rw [if_neg hc]
    cases h : Char.getGeneralCategory c <;>
      py_run [d, getGeneralCategory_run H, h, gcMask_run H, masks, isThatASCIIControlSpace_run H, Names.CH_NBSP H, Names.CH_FIGURESP H, Names.CH_NNBSP H, Names.GC_Z_MASK H]

theorem isBlank_run (c n : Nat) : call[n + 5, n% "isBlank", .cons (.int c) .nil] =
    lift ((Char.isBlank c).map .bool) := by
  start (Names.isBlank H)
  unfold Char.isBlank
  by_cases hc : c ≤ 0x9F
  · rw [if_pos hc]
    py_run [decide_eq_true hc, Names.CH_TAB H, Names.CH_SPACE H, Names.GC_SPACE_SEPARATOR H]
  · rw [if_neg hc]
    cases h : Char.getGeneralCategory c <;> py_run [decide_eq_false hc, getGeneralCategory_run H, h, Names.CH_TAB H, Names.CH_SPACE H, Names.GC_SPACE_SEPARATOR H]

theorem isPrintPOSIX_run (c n : Nat) : call[n + 6, n% "isPrintPOSIX", .cons (.int c) .nil] =
    lift ((Char.isPrintPOSIX c).map .bool) := by
  start (Names.isPrintPOSIX H)
  unfold Char.isPrintPOSIX
  cases h : Char.getGeneralCategory c with
  | error x => py_run [getGeneralCategory_run H, h, Names.GC_SPACE_SEPARATOR H]
  | ok g =>
    simp only [pyBind_match]
    by_cases hg : g = 12
    · rw [if_pos hg]; py_run [getGeneralCategory_run H, h, decide_eq_true hg, Names.GC_SPACE_SEPARATOR H]
    · rw [if_neg hg]; cases h' : Char.isGraphPOSIX c <;> py_run [getGeneralCategory_run H, h, decide_eq_false hg, isGraphPOSIX_run H, h', Names.GC_SPACE_SEPARATOR H]

theorem isIDIgnorable_run (c n : Nat) : call[n + 5, n% "isIDIgnorable", .cons (.int c) .nil] =
    lift ((Char.isIDIgnorable c).map .bool) := by
  start (Names.isIDIgnorable H)
  unfold Char.isIDIgnorable
  by_cases hc : c < 0x9F
  · cases h : Char.getGeneralCategory c <;> py_run [decide_eq_true hc, getGeneralCategory_run H, h, isISOControl_run H, isThatASCIIControlSpace_run H, Names.GC_FORMAT_CHAR H]
  · cases h : Char.getGeneralCategory c <;> py_run [decide_eq_false hc, getGeneralCategory_run H, h, Names.GC_FORMAT_CHAR H]

theorem isIDPart_run (c n : Nat) : call[n + 6, n% "isIDPart", .cons (.int c) .nil] =
    lift ((Char.isIDPart c).map .bool) := by
  start (Names.isIDPart H)
  unfold Char.isIDPart
  cases h : Char.getGeneralCategory c with
  | error x => py_run [getGeneralCategory_run H, h, gcMask_run H, isIDIgnorable_run H, Names.GC_ND_MASK H, Names.GC_NL_MASK H, Names.GC_L_MASK H, Names.GC_PC_MASK H, Names.GC_MC_MASK H, Names.GC_MN_MASK H]
  | ok g =>
    simp only [pyBind_match]
    by_cases hg : Char.gcMask g &&& (Char.ND_MASK ||| Char.NL_MASK ||| Char.L_MASK ||| Char.PC_MASK ||| Char.MC_MASK ||| Char.MN_MASK) = 0
    · rw [if_neg (fun h => h hg)]
      have d := decide_eq_true hg
      simp only [masks] at d
      cases h' : Char.isIDIgnorable c <;> py_run [getGeneralCategory_run H, h, gcMask_run H, isIDIgnorable_run H, d, h', Bool.not_true, Names.GC_ND_MASK H, Names.GC_NL_MASK H, Names.GC_L_MASK H, Names.GC_PC_MASK H, Names.GC_MC_MASK H, Names.GC_MN_MASK H]
    · rw [if_pos hg]
      have d := decide_eq_false hg
      simp only [masks] at d
      py_run [getGeneralCategory_run H, h, gcMask_run H, isIDIgnorable_run H, d, Bool.not_false, Names.GC_ND_MASK H, Names.GC_NL_MASK H, Names.GC_L_MASK H, Names.GC_PC_MASK H, Names.GC_MC_MASK H, Names.GC_MN_MASK H]

theorem isJavaIDPart_run (c n : Nat) : call[n + 6, n% "isJavaIDPart", .cons (.int c) .nil] =
    lift ((Char.isJavaIDPart c).map .bool) := by
  start (Names.isJavaIDPart H)
  unfold Char.isJavaIDPart
  cases h : Char.getGeneralCategory c with
  | error x => py_run [getGeneralCategory_run H, h, gcMask_run H, isIDIgnorable_run H, Names.GC_ND_MASK H, Names.GC_NL_MASK H, Names.GC_L_MASK H, Names.GC_SC_MASK H, Names.GC_PC_MASK H, Names.GC_MC_MASK H, Names.GC_MN_MASK H]
  | ok g =>
    simp only [pyBind_match]
    by_cases hg : Char.gcMask g &&& (Char.ND_MASK ||| Char.NL_MASK ||| Char.L_MASK ||| Char.SC_MASK ||| Char.PC_MASK ||| Char.MC_MASK ||| Char.MN_MASK) = 0
    · rw [if_neg (fun h => h hg)]
      have d := decide_eq_true hg
      simp only [masks] at d
      cases h' : Char.isIDIgnorable c <;> py_run [getGeneralCategory_run H, h, gcMask_run H, isIDIgnorable_run H, d, h', Bool.not_true, Names.GC_ND_MASK H, Names.GC_NL_MASK H, Names.GC_L_MASK H, Names.GC_SC_MASK H, Names.GC_PC_MASK H, Names.GC_MC_MASK H, Names.GC_MN_MASK H]
    · rw [if_pos hg]
      have d := decide_eq_false hg
      simp only [masks] at d
      py_run [getGeneralCategory_run H, h, gcMask_run H, isIDIgnorable_run H, d, Bool.not_false, Names.GC_ND_MASK H, Names.GC_NL_MASK H, Names.GC_L_MASK H, Names.GC_SC_MASK H, Names.GC_PC_MASK H, Names.GC_MC_MASK H, Names.GC_MN_MASK H]

theorem numericTypeFromProps_run (p n : Nat) : call[n + 1, n% "numericTypeFromProps", .cons (.int p) .nil] =
    .ok (.int (Char.numericTypeFromProps p)) := by
  start (Names.numericTypeFromProps H)
  py_run [Char.numericTypeFromProps]

theorem numericTypeValueFromProps_run (p n : Nat) : call[n + 1, n% "numericTypeValueFromProps", .cons (.int p) .nil] =
    .ok (.int (Char.numericTypeValueFromProps p)) := by
  start (Names.numericTypeValueFromProps H)
  py_run [Char.numericTypeValueFromProps, Names.UPROPS_NUMERIC_TYPE_VALUE_SHIFT H]

theorem getNumericTypeValue_run (c n : Nat) : call[n + 4, n% "getNumericTypeValue", .cons (.int c) .nil] =
    lift ((Char.getNumericTypeValue c).map fun e => .int e) := by
  start (Names.getNumericTypeValue H)
  unfold Char.getNumericTypeValue
  cases h : Char.propsTrie.get c <;> py_run [props_get H, h, Names.propsTrie H, Names.UPROPS_NUMERIC_TYPE_VALUE_SHIFT H]

theorem getNumericType_run (c n : Nat) : call[n + 4, n% "getNumericType", .cons (.int c) .nil] =
    lift ((Char.getNumericType c).map fun e => .int e) := by
  start (Names.getNumericType H)
  unfold Char.getNumericType
  cases h : Char.propsTrie.get c <;> py_run [props_get H, h, numericTypeFromProps_run H, Names.propsTrie H]

theorem blockFromVecIndex_run (v n : Nat) : call[n + 2, n% "blockFromVecIndex", .cons (.int v) .nil] =
    lift ((Char.blockFromVecIndex v).map fun e => .int e) := by
  start (Names.blockFromVecIndex H)
  unfold Char.blockFromVecIndex
  cases h : Char.unicodePropertiesFromVecIndex v 0 <;> py_run [unicodePropertiesFromVecIndex_run H, h, Names.UPROPS_BLOCK_MASK H, Names.UPROPS_BLOCK_SHIFT H]

theorem getBlock_run (c n : Nat) : call[n + 4, n% "getBlock", .cons (.int c) .nil] =
    lift ((Char.getBlock c).map fun e => .int e) := by
  start (Names.getBlock H)
  unfold Char.getBlock
  cases h : Char.propsVectorTrie.get c with
  | error x => py_run [vectors_get H, h, Names.propsVectorTrie H]
  | ok v => cases h' : Char.blockFromVecIndex v <;> py_run [vectors_get H, h, blockFromVecIndex_run H, h', Names.propsVectorTrie H]

theorem eastAsianWidthFromVecIndex_run (v n : Nat) : call[n + 2, n% "eastAsianWidthFromVecIndex", .cons (.int v) .nil] =
    lift ((Char.eastAsianWidthFromVecIndex v).map fun e => .int e) := by
  start (Names.eastAsianWidthFromVecIndex H)
  unfold Char.eastAsianWidthFromVecIndex
  cases h : Char.unicodePropertiesFromVecIndex v 0 <;> py_run [unicodePropertiesFromVecIndex_run H, h, Names.UPROPS_EA_MASK H, Names.UPROPS_EA_SHIFT H]

theorem getEastAsianWidth_run (c n : Nat) : call[n + 4, n% "getEastAsianWidth", .cons (.int c) .nil] =
    lift ((Char.getEastAsianWidth c).map fun e => .int e) := by
  start (Names.getEastAsianWidth H)
  unfold Char.getEastAsianWidth
  cases h : Char.propsVectorTrie.get c with
  | error x => py_run [vectors_get H, h, Names.propsVectorTrie H]
  | ok v => cases h' : Char.eastAsianWidthFromVecIndex v <;> py_run [vectors_get H, h, eastAsianWidthFromVecIndex_run H, h', Names.propsVectorTrie H]

theorem lineBreakFromVecIndex_run (v n : Nat) : call[n + 2, n% "lineBreakFromVecIndex", .cons (.int v) .nil] =
    lift ((Char.lineBreakFromVecIndex v).map fun e => .int e) := by
  start (Names.lineBreakFromVecIndex H)
  unfold Char.lineBreakFromVecIndex
  cases h : Char.unicodePropertiesFromVecIndex v 2 <;> py_run [unicodePropertiesFromVecIndex_run H, h, Names.UPROPS_LB_MASK H, Names.UPROPS_LB_SHIFT H]

theorem getLineBreak_run (c n : Nat) : call[n + 4, n% "getLineBreak", .cons (.int c) .nil] =
    lift ((Char.getLineBreak c).map fun e => .int e) := by
  start (Names.getLineBreak H)
  unfold Char.getLineBreak
  cases h : Char.propsVectorTrie.get c with
  | error x => py_run [vectors_get H, h, Names.propsVectorTrie H]
  | ok v => cases h' : Char.lineBreakFromVecIndex v <;> py_run [vectors_get H, h, lineBreakFromVecIndex_run H, h', Names.propsVectorTrie H]

theorem sentenceBreakFromVecIndex_run (v n : Nat) : call[n + 2, n% "sentenceBreakFromVecIndex", .cons (.int v) .nil] =
    lift ((Char.sentenceBreakFromVecIndex v).map fun e => .int e) := by
  start (Names.sentenceBreakFromVecIndex H)
  unfold Char.sentenceBreakFromVecIndex
  cases h : Char.unicodePropertiesFromVecIndex v 2 <;> py_run [unicodePropertiesFromVecIndex_run H, h, Names.UPROPS_SB_MASK H, Names.UPROPS_SB_SHIFT H]

theorem getSentenceBreak_run (c n : Nat) : call[n + 4, n% "getSentenceBreak", .cons (.int c) .nil] =
    lift ((Char.getSentenceBreak c).map fun e => .int e) := by
  start (Names.getSentenceBreak H)
  unfold Char.getSentenceBreak
  cases h : Char.propsVectorTrie.get c with
  | error x => py_run [vectors_get H, h, Names.propsVectorTrie H]
  | ok v => cases h' : Char.sentenceBreakFromVecIndex v <;> py_run [vectors_get H, h, sentenceBreakFromVecIndex_run H, h', Names.propsVectorTrie H]

theorem wordBreakFromVecIndex_run (v n : Nat) : call[n + 2, n% "wordBreakFromVecIndex", .cons (.int v) .nil] =
    lift ((Char.wordBreakFromVecIndex v).map fun e => .int e) := by
  start (Names.wordBreakFromVecIndex H)
  unfold Char.wordBreakFromVecIndex
  cases h : Char.unicodePropertiesFromVecIndex v 2 <;> py_run [unicodePropertiesFromVecIndex_run H, h, Names.UPROPS_WB_MASK H, Names.UPROPS_WB_SHIFT H]

theorem getWordBreak_run (c n : Nat) : call[n + 4, n% "getWordBreak", .cons (.int c) .nil] =
    lift ((Char.getWordBreak c).map fun e => .int e) := by
  start (Names.getWordBreak H)
  unfold Char.getWordBreak
  cases h : Char.propsVectorTrie.get c with
  | error x => py_run [vectors_get H, h, Names.propsVectorTrie H]
  | ok v => cases h' : Char.wordBreakFromVecIndex v <;> py_run [vectors_get H, h, wordBreakFromVecIndex_run H, h', Names.propsVectorTrie H]

theorem graphemeClusterBreakFromVecIndex_run (v n : Nat) : call[n + 2, n% "graphemeClusterBreakFromVecIndex", .cons (.int v) .nil] =
    lift ((Char.graphemeClusterBreakFromVecIndex v).map fun e => .int e) := by
  start (Names.graphemeClusterBreakFromVecIndex H)
  unfold Char.graphemeClusterBreakFromVecIndex
  cases h : Char.unicodePropertiesFromVecIndex v 2 <;> py_run [unicodePropertiesFromVecIndex_run H, h, Names.UPROPS_GCB_MASK H, Names.UPROPS_GCB_SHIFT H]

theorem getGraphemeClusterBreak_run (c n : Nat) : call[n + 4, n% "getGraphemeClusterBreak", .cons (.int c) .nil] =
    lift ((Char.getGraphemeClusterBreak c).map fun e => .int e) := by
  start (Names.getGraphemeClusterBreak H)
  unfold Char.getGraphemeClusterBreak
  cases h : Char.propsVectorTrie.get c with
  | error x => py_run [vectors_get H, h, Names.propsVectorTrie H]
  | ok v => cases h' : Char.graphemeClusterBreakFromVecIndex v <;> py_run [vectors_get H, h, graphemeClusterBreakFromVecIndex_run H, h', Names.propsVectorTrie H]

theorem decompTypeFromVecIndex_run (v n : Nat) : call[n + 2, n% "decompTypeFromVecIndex", .cons (.int v) .nil] =
    lift ((Char.decompTypeFromVecIndex v).map fun e => .int e) := by
  start (Names.decompTypeFromVecIndex H)
  unfold Char.decompTypeFromVecIndex
  cases h : Char.unicodePropertiesFromVecIndex v 2 <;> py_run [unicodePropertiesFromVecIndex_run H, h, Names.UPROPS_DT_MASK H]

theorem getDecompType_run (c n : Nat) : call[n + 4, n% "getDecompType", .cons (.int c) .nil] =
    lift ((Char.getDecompType c).map fun e => .int e) := by
  start (Names.getDecompType H)
  unfold Char.getDecompType
  cases h : Char.propsVectorTrie.get c with
  | error x => py_run [vectors_get H, h, Names.propsVectorTrie H]
  | ok v => cases h' : Char.decompTypeFromVecIndex v <;> py_run [vectors_get H, h, decompTypeFromVecIndex_run H, h', Names.propsVectorTrie H]

theorem binaryPropFromVecIndex_run (v s k n : Nat) : call[n + 2, n% "binaryPropFromVecIndex", .cons (.int v) (.cons (.int s) (.cons (.int k) .nil))] =
    lift ((Char.binaryPropFromVecIndex v s k).map .bool) := by
  start (Names.binaryPropFromVecIndex H)
  unfold Char.binaryPropFromVecIndex
  cases h : Char.unicodePropertiesFromVecIndex v k <;> py_run [unicodePropertiesFromVecIndex_run H, h]

theorem getBinaryProp_run (c s k n : Nat) : call[n + 4, n% "getBinaryProp", .cons (.int c) (.cons (.int s) (.cons (.int k) .nil))] =
    lift ((Char.getBinaryProp c s k).map .bool) := by
  start (Names.getBinaryProp H)
  unfold Char.getBinaryProp
  by_cases hs : 32 ≤ s
  · rw [if_pos hs]
    py_run [decide_eq_true hs, Names.False H, Names.UPROPS_BINARY_1_TOP H, Names.propsVectorTrie H]
  · rw [if_neg hs]
    cases h : Char.propsVectorTrie.get c with
    | error x => py_run [decide_eq_false hs, vectors_get H, h, Names.UPROPS_BINARY_1_TOP H, Names.propsVectorTrie H]
    | ok v => cases h' : Char.binaryPropFromVecIndex v s k <;> py_run [decide_eq_false hs, vectors_get H, h, binaryPropFromVecIndex_run H, h', Names.UPROPS_BINARY_1_TOP H, Names.propsVectorTrie H]

theorem isExtendedPictograph_run (c n : Nat) : call[n + 5, n% "isExtendedPictograph", .cons (.int c) .nil] =
    lift ((Char.isExtendedPictograph c).map .bool) := by
  start (Names.isExtendedPictograph H)
  unfold Char.isExtendedPictograph
  cases h : Char.getBinaryProp c 26 2 <;> py_run [getBinaryProp_run H, h, Names.UPROPS_2_EXTENDED_PICTOGRAPHIC H]

theorem isEmojiComponent_run (c n : Nat) : call[n + 5, n% "isEmojiComponent", .cons (.int c) .nil] =
    lift ((Char.isEmojiComponent c).map .bool) := by
  start (Names.isEmojiComponent H)
  unfold Char.isEmojiComponent
  cases h : Char.getBinaryProp c 27 2 <;> py_run [getBinaryProp_run H, h, Names.UPROPS_2_EMOJI_COMPONENT H]

theorem isEmoji_run (c n : Nat) : call[n + 5, n% "isEmoji", .cons (.int c) .nil] =
    lift ((Char.isEmoji c).map .bool) := by
  start (Names.isEmoji H)
  unfold Char.isEmoji
  cases h : Char.getBinaryProp c 28 2 <;> py_run [getBinaryProp_run H, h, Names.UPROPS_2_EMOJI H]

theorem isEmojiPresentation_run (c n : Nat) : call[n + 5, n% "isEmojiPresentation", .cons (.int c) .nil] =
    lift ((Char.isEmojiPresentation c).map .bool) := by
  start (Names.isEmojiPresentation H)
  unfold Char.isEmojiPresentation
  cases h : Char.getBinaryProp c 29 2 <;> py_run [getBinaryProp_run H, h, Names.UPROPS_2_EMOJI_PRESENTATION H]

theorem isEmojiModifier_run (c n : Nat) : call[n + 5, n% "isEmojiModifier", .cons (.int c) .nil] =
    lift ((Char.isEmojiModifier c).map .bool) := by
  start (Names.isEmojiModifier H)
  unfold Char.isEmojiModifier
  cases h : Char.getBinaryProp c 30 2 <;> py_run [getBinaryProp_run H, h, Names.UPROPS_2_EMOJI_MODIFIER H]

theorem isEmojiModifierBase_run (c n : Nat) : call[n + 5, n% "isEmojiModifierBase", .cons (.int c) .nil] =
    lift ((Char.isEmojiModifierBase c).map .bool) := by
  start (Names.isEmojiModifierBase H)
  unfold Char.isEmojiModifierBase
  cases h : Char.getBinaryProp c 31 2 <;> py_run [getBinaryProp_run H, h, Names.UPROPS_2_EMOJI_MODIFIER_BASE H]

theorem isHexDigit_run (c n : Nat) : call[n + 6, n% "isHexDigit", .cons (.int c) .nil] =
    lift ((Char.isHexDigit c).map .bool) := by
  start (Names.isHexDigit H)
  unfold Char.isHexDigit
  by_cases h1 : (0x41 ≤ c ∧ c < 0x46 + 1) ∨ (0x61 ≤ c ∧ c < 0x66 + 1)
  · rw [if_pos h1]
    have d : (decide (65 ≤ c ∧ c < 70 + 1) || decide (97 ≤ c ∧ c < 102 + 1)) = true := by rw [← Bool.decide_or]; exact decide_eq_true h1
    py_run [range_call H, builtin, in_range, d, Names.True H, Names.CH_U_A H, Names.CH_U_F H, Names.CH_U_a H, Names.CH_U_f H, Names.CH_U_FW_A H, Names.CH_U_FW_F H, Names.CH_U_FW_a H, Names.CH_U_FW_f H]
  · rw [if_neg h1]
    have d : (decide (65 ≤ c ∧ c < 70 + 1) || decide (97 ≤ c ∧ c < 102 + 1)) = false := by rw [← Bool.decide_or]; exact decide_eq_false h1
    by_cases h2 : (0xff21 ≤ c ∧ c < 0xff26 + 1) ∨ (0xff41 ≤ c ∧ c < 0xff46 + 1)
    · rw [if_pos h2]
      have d' : (decide (65313 ≤ c ∧ c < 65318 + 1) || decide (65345 ≤ c ∧ c < 65350 + 1)) = true := by
        rw [← Bool.decide_or]; exact decide_eq_true h2
      py_run [range_call H, builtin, in_range, d, d', Names.True H, Names.CH_U_A H, Names.CH_U_F H, Names.CH_U_a H, Names.CH_U_f H, Names.CH_U_FW_A H, Names.CH_U_FW_F H, Names.CH_U_FW_a H, Names.CH_U_FW_f H]
    · rw [if_neg h2]
      have d' : (decide (65313 ≤ c ∧ c < 65318 + 1) || decide (65345 ≤ c ∧ c < 65350 + 1)) = false := by
        rw [← Bool.decide_or]; exact decide_eq_false h2
      cases h : Char.isDigit c <;> py_run [range_call H, builtin, in_range, d, d', isDigit_run H, h, Names.CH_U_A H, Names.CH_U_F H, Names.CH_U_a H, Names.CH_U_f H, Names.CH_U_FW_A H, Names.CH_U_FW_F H, Names.CH_U_FW_a H, Names.CH_U_FW_f H]

theorem digitValue_run (c n : Nat) : call[n + 5, n% "digitValue", .cons (.int c) .nil] =
    lift ((Char.digitValue c).map fun e => .int e) := by
  start (Names.digitValue H)
  unfold Char.digitValue
  cases h : Char.getNumericTypeValue c with
  | error x => py_run [getNumericTypeValue_run H, h, Names.UPROPS_NTV_DECIMAL_START H]
  | ok v =>
    by_cases hv : (v : Int) - 1 ≤ 9
    · have d : (!intLt (9 : Nat) ((v : Int) - (1 : Nat))) = true := by rw [intLt_eq, ← decide_not]; exact decide_eq_true (Int.not_lt.2 hv)
      py_run [getNumericTypeValue_run H, h, d, Names.UPROPS_NTV_DECIMAL_START H]
      rw [if_pos hv]; rfl
    · have d : (!intLt (9 : Nat) ((v : Int) - (1 : Nat))) = false := by rw [intLt_eq, ← decide_not]; exact decide_eq_false (fun h => hv (Int.not_lt.1 h))
      py_run [getNumericTypeValue_run H, h, d, Names.UPROPS_NTV_DECIMAL_START H]
      rw [if_neg hv]; rfl

theorem ageFromProps_run (p n : Nat) : call[n + 1, n% "ageFromProps", .cons (.int p) .nil] =
    .ok (.list (chain ((Char.ageFromProps p).map fun (e : Nat) => .int e))) := by
  start (Names.ageFromProps H)
  py_run [Char.ageFromProps, chain, List.map, Names.UPROPS_AGE_SHIFT H]

theorem getAge_run (c n : Nat) : call[n + 5, n% "getAge", .cons (.int c) .nil] =
    lift ((Char.getAge c).map fun l => .list (chain (l.map fun (e : Nat) => .int e))) := by
  start (Names.getAge H)
  unfold Char.getAge
  cases h : Char.getUnicodeProperties c 0 <;> py_run [getUnicodeProperties_run H, h, ageFromProps_run H]

theorem mergeScriptCodeOrIndex_run (x n : Nat) : call[n + 1, n% "mergeScriptCodeOrIndex", .cons (.int x) .nil] =
    .ok (.int (Char.mergeScriptCodeOrIndex x)) := by
  start (Names.mergeScriptCodeOrIndex H)
  py_run [Char.mergeScriptCodeOrIndex, Names.UPROPS_SCRIPT_HIGH_MASK H, Names.UPROPS_SCRIPT_HIGH_SHIFT H, Names.UPROPS_SCRIPT_LOW_MASK H]

theorem scriptFromVecIndex_run (v n : Nat) : call[n + 2, n% "scriptFromVecIndex", .cons (.int v) .nil] =
    lift ((Char.scriptFromVecIndex v).map fun e => .int e) := by
  start (Names.scriptFromVecIndex H)
  unfold Char.scriptFromVecIndex
  cases h : Char.unicodePropertiesFromVecIndex v 0 with
  | error x => py_run [unicodePropertiesFromVecIndex_run H, h, mergeScriptCodeOrIndex_run H, Names.UPROPS_SCRIPT_X_MASK H, Names.UPROPS_SCRIPT_X_WITH_COMMON H, Names.UPROPS_SCRIPT_X_WITH_INHERITED H, Names.USCRIPT_COMMON H, Names.UPROPS_SCRIPT_X_WITH_OTHER H, Names.USCRIPT_INHERITED H, Names.scriptExtensions H]
  | ok p =>
    simp only [pyBind_match]
    by_cases h1 : p &&& 0x00f000ff < 0x400000
    · rw [if_pos h1]
      py_run [unicodePropertiesFromVecIndex_run H, h, mergeScriptCodeOrIndex_run H, decide_eq_true h1, Names.UPROPS_SCRIPT_X_MASK H, Names.UPROPS_SCRIPT_X_WITH_COMMON H, Names.UPROPS_SCRIPT_X_WITH_INHERITED H, Names.USCRIPT_COMMON H, Names.UPROPS_SCRIPT_X_WITH_OTHER H, Names.USCRIPT_INHERITED H, Names.scriptExtensions H]
    · rw [if_neg h1]
      have d1 := decide_eq_false h1
      by_cases h2 : p &&& 0x00f000ff < 0x800000
      · rw [if_pos h2]
        py_run [unicodePropertiesFromVecIndex_run H, h, mergeScriptCodeOrIndex_run H, d1, decide_eq_true h2, Names.UPROPS_SCRIPT_X_MASK H, Names.UPROPS_SCRIPT_X_WITH_COMMON H, Names.UPROPS_SCRIPT_X_WITH_INHERITED H, Names.USCRIPT_COMMON H, Names.UPROPS_SCRIPT_X_WITH_OTHER H, Names.USCRIPT_INHERITED H, Names.scriptExtensions H]
      · rw [if_neg h2]
        have d2 := decide_eq_false h2
        by_cases h3 : p &&& 0x00f000ff < 0xc00000
        · rw [if_pos h3]
          py_run [unicodePropertiesFromVecIndex_run H, h, mergeScriptCodeOrIndex_run H, d1, d2, decide_eq_true h3, Names.UPROPS_SCRIPT_X_MASK H, Names.UPROPS_SCRIPT_X_WITH_COMMON H, Names.UPROPS_SCRIPT_X_WITH_INHERITED H, Names.USCRIPT_COMMON H, Names.UPROPS_SCRIPT_X_WITH_OTHER H, Names.USCRIPT_INHERITED H, Names.scriptExtensions H]
        · rw [if_neg h3]
          have d3 := decide_eq_false h3
          cases h' : scriptExtensions.arr.get (Char.mergeScriptCodeOrIndex (p &&& 0x00f000ff)) <;>
            py_run [unicodePropertiesFromVecIndex_run H, h, mergeScriptCodeOrIndex_run H, d1, d2, d3, extensions_index H, h', Names.UPROPS_SCRIPT_X_MASK H, Names.UPROPS_SCRIPT_X_WITH_COMMON H, Names.UPROPS_SCRIPT_X_WITH_INHERITED H, Names.USCRIPT_COMMON H, Names.UPROPS_SCRIPT_X_WITH_OTHER H, Names.USCRIPT_INHERITED H, Names.scriptExtensions H]

theorem getScript_run (c n : Nat) : call[n + 4, n% "getScript", .cons (.int c) .nil] =
    lift ((Char.getScript c).map fun e => .int e) := by
  start (Names.getScript H)
  unfold Char.getScript
  by_cases hc : 0x10FFFF < c
  · rw [if_pos hc]
    py_run [decide_eq_true hc, Names.USCRIPT_INVALID_CODE H, Names.propsVectorTrie H]
  · rw [if_neg hc]
    have d := decide_eq_false hc
    cases h : Char.propsVectorTrie.get c with
    | error x => py_run [d, vectors_get H, h, Names.USCRIPT_INVALID_CODE H, Names.propsVectorTrie H]
    | ok v => cases h' : Char.scriptFromVecIndex v <;> py_run [d, vectors_get H, h, scriptFromVecIndex_run H, h', Names.USCRIPT_INVALID_CODE H, Names.propsVectorTrie H]

/-- Without the argument `column`. -/
theorem getBinaryProp_default (c s n : Nat) : call[n + 4, n% "getBinaryProp", .cons (.int c) (.cons (.int s) .nil)] =
    lift ((Char.getBinaryProp c s).map .bool) := by
  rw [← getBinaryProp_run H c s 1 n]
  rw [fn_call (Names.getBinaryProp H) rfl, fn_call (Names.getBinaryProp H) rfl]
  simp only [run_succ, arguments, eval, bind_match, map_match]

end Verif.PyRun.CharProps
