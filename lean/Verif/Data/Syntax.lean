import Verif.Model.PySyntax
/-!
# Syntax trees of modules with code

Generated by tools/gen_source.py with Python's own parser. Lemmas/SourceChecks proves that they are what Model/PySyntax reads in the texts.
-/
namespace Verif.Data.Syntax
open Verif.PySyntax
set_option maxRecDepth 4000

namespace Utilities

/-- UnicodeData/Utilities.py:12-14 -/
def class_object : Stmt :=
  (.cls (n% "_object") (.cons (.name (n% "object")) .nil) (.seq (.expr (.str [85, 115, 101, 102, 117, 108, 32, 102, 111, 114, 32, 112, 97, 115, 115, 105, 110, 103, 32, 111, 98, 106, 101, 99, 116, 32, 105, 110, 115, 116, 97, 110, 99, 101, 115, 32, 116, 111, 32, 115, 115, 116, 114, 117, 99, 116, 46, 117, 110, 112, 97, 99, 107, 40, 41])) (.seq .pass .skip)))

/-- UnicodeData/Utilities.py:16-18 -/
def isUnicodeNoncharacter : Stmt :=
  (.defn (n% "isUnicodeNoncharacter") (.cons (.name (n% "code")) .nil) (.seq (.ret (.and (.and (.bin .ge (.name (n% "code")) (.num 0xfdd0)) (.or (.bin .le (.name (n% "code")) (.num 0xfdef)) (.bin .eq (.bin .and (.name (n% "code")) (.num 0xfffe)) (.num 0xfffe)))) (.bin .le (.name (n% "code")) (.num 0x10ffff)))) .skip))

/-- UnicodeData/Utilities.py:30-31 -/
def isSurrogate : Stmt :=
  (.defn (n% "isSurrogate") (.cons (.name (n% "code")) .nil) (.seq (.ret (.bin .eq (.bin .and (.name (n% "code")) (.name (n% "_surrogateMask"))) (.name (n% "_firstLead")))) .skip))

/-- UnicodeData/Utilities.py:33-34 -/
def isSurrogateLead : Stmt :=
  (.defn (n% "isSurrogateLead") (.cons (.name (n% "code")) .nil) (.seq (.ret (.bin .eq (.bin .and (.name (n% "code")) (.num 0x400)) (.num 0))) .skip))

/-- UnicodeData/Utilities.py:36-37 -/
def isSurrogateTrail : Stmt :=
  (.defn (n% "isSurrogateTrail") (.cons (.name (n% "code")) .nil) (.seq (.ret (.bin .ne (.bin .and (.name (n% "code")) (.num 0x400)) (.num 0))) .skip))

/-- UnicodeData/Utilities.py:39-40 -/
def isLead : Stmt :=
  (.defn (n% "isLead") (.cons (.name (n% "code")) .nil) (.seq (.ret (.bin .eq (.bin .and (.name (n% "code")) (.name (n% "_leadTrailMask"))) (.name (n% "_firstLead")))) .skip))

/-- UnicodeData/Utilities.py:42-43 -/
def isTrail : Stmt :=
  (.defn (n% "isTrail") (.cons (.name (n% "code")) .nil) (.seq (.ret (.bin .eq (.bin .and (.name (n% "code")) (.name (n% "_leadTrailMask"))) (.name (n% "_firstTrail")))) .skip))

/-- UnicodeData/Utilities.py:45-46 -/
def charFromSurrogates : Stmt :=
  (.defn (n% "charFromSurrogates") (.cons (.name (n% "lead")) (.cons (.name (n% "trail")) .nil)) (.seq (.ret (.bin .sub (.bin .add (.bin .shl (.name (n% "lead")) (.name (n% "_leadShift"))) (.name (n% "trail"))) (.name (n% "_surrogateOffset")))) .skip))

/-- UnicodeData/Utilities.py:48-51 -/
def surrogatesFromChar : Stmt :=
  (.defn (n% "surrogatesFromChar") (.cons (.name (n% "ch")) .nil) (.seq (.assign (.name (n% "lead")) (.bin .add (.bin .shr (.name (n% "ch")) (.name (n% "_leadShift"))) (.name (n% "_leadOffset")))) (.seq (.assign (.name (n% "trail")) (.bin .add (.bin .and (.name (n% "ch")) (.name (n% "_trailMask"))) (.name (n% "_firstTrail")))) (.seq (.ret (.tuple (.cons (.name (n% "lead")) (.cons (.name (n% "trail")) .nil)))) .skip))))

/-- UnicodeData/Utilities.py:53-66 -/
def arithmeticShift : Stmt :=
  (.defn (n% "arithmeticShift") (.cons (.name (n% "value")) (.cons (.name (n% "bitsInWord")) (.cons (.name (n% "bitsInField")) .nil))) (.seq (.expr (.str [32, 32, 32, 32, 65, 114, 105, 116, 104, 109, 101, 116, 105, 99, 32, 114, 105, 103, 104, 116, 32, 115, 104, 105, 102, 116, 115, 32, 116, 104, 101, 32, 116, 111, 112, 32, 98, 105, 116, 115, 32, 105, 110, 32, 97, 32, 119, 111, 114, 100, 46, 10, 10, 32, 32, 32, 32, 58, 112, 97, 114, 97, 109, 32, 118, 97, 108, 117, 101, 58, 32, 116, 104, 101, 32, 118, 97, 108, 117, 101, 32, 116, 111, 32, 98, 101, 32, 115, 104, 105, 102, 116, 101, 100, 10, 32, 32, 32, 32, 58, 112, 97, 114, 97, 109, 32, 98, 105, 116, 115, 73, 110, 87, 111, 114, 100, 58, 32, 116, 104, 101, 32, 110, 117, 109, 98, 101, 114, 32, 111, 102, 32, 98, 105, 116, 115, 32, 105, 110, 32, 97, 32, 119, 111, 114, 100, 10, 32, 32, 32, 32, 58, 112, 97, 114, 97, 109, 32, 98, 105, 116, 115, 73, 110, 70, 105, 101, 108, 100, 58, 32, 116, 104, 101, 32, 110, 117, 109, 98, 101, 114, 32, 111, 102, 32, 116, 111, 112, 32, 98, 105, 116, 115, 10, 32, 32, 32, 32, 58, 114, 101, 116, 117, 114, 110, 115, 58, 32, 116, 104, 101, 32, 115, 105, 103, 110, 101, 100, 32, 118, 97, 108, 117, 101, 32, 111, 102, 32, 116, 104, 101, 32, 116, 111, 112, 32, 98, 105, 116, 115, 10, 32, 32, 32, 32])) (.seq (.assign (.name (n% "signBit")) (.bin .shl (.num 1) (.bin .sub (.name (n% "bitsInWord")) (.num 1)))) (.seq (.assign (.name (n% "shift")) (.bin .sub (.name (n% "bitsInWord")) (.name (n% "bitsInField")))) (.seq (.assign (.name (n% "result")) (.bin .shr (.name (n% "value")) (.name (n% "shift")))) (.seq (.ret (.cond (.bin .ne (.bin .and (.name (n% "value")) (.name (n% "signBit"))) (.num 0)) (.bin .sub (.name (n% "result")) (.bin .shl (.num 1) (.name (n% "bitsInField")))) (.name (n% "result")))) .skip))))))

/-- UnicodeData/Utilities.py:68-104 -/
def highBit : Stmt :=
  (.defn (n% "highBit") (.cons (.name (n% "value")) .nil) (.seq (.expr (.str [32, 32, 32, 32, 82, 101, 116, 117, 114, 110, 32, 116, 104, 101, 32, 98, 105, 116, 32, 110, 117, 109, 98, 101, 114, 32, 111, 102, 32, 116, 104, 101, 32, 104, 105, 103, 104, 101, 115, 116, 32, 98, 105, 116, 32, 115, 101, 116, 32, 105, 110, 32, 97, 32, 118, 97, 108, 117, 101, 46, 10, 10, 32, 32, 32, 32, 58, 112, 97, 114, 97, 109, 32, 118, 97, 108, 117, 101, 58, 32, 116, 104, 101, 32, 118, 97, 108, 117, 101, 46, 32, 67, 97, 110, 32, 98, 101, 32, 117, 112, 32, 116, 111, 32, 54, 52, 32, 98, 105, 116, 115, 32, 108, 111, 110, 103, 10, 32, 32, 32, 32, 58, 114, 101, 116, 117, 114, 110, 115, 58, 32, 116, 104, 101, 32, 98, 105, 116, 32, 110, 117, 109, 98, 101, 114, 44, 32, 99, 111, 117, 110, 116, 105, 110, 103, 32, 102, 114, 111, 109, 32, 116, 104, 101, 32, 108, 111, 119, 32, 111, 114, 100, 101, 114, 32, 98, 105, 116, 10, 32, 32, 32, 32])) (.seq (.assign (.name (n% "bit")) (.num 0)) (.seq (.ifs (.bin .eq (.name (n% "value")) (.num 0)) (.seq (.ret (.name (n% "None"))) .skip) .skip) (.seq (.ifs (.bin .ge (.name (n% "value")) (.bin .shl (.num 1) (.num 32))) (.seq (.aug .shr (.name (n% "value")) (.num 32)) (.seq (.aug .add (.name (n% "bit")) (.num 32)) .skip)) .skip) (.seq (.ifs (.bin .ge (.name (n% "value")) (.bin .shl (.num 1) (.num 16))) (.seq (.aug .shr (.name (n% "value")) (.num 16)) (.seq (.aug .add (.name (n% "bit")) (.num 16)) .skip)) .skip) (.seq (.ifs (.bin .ge (.name (n% "value")) (.bin .shl (.num 1) (.num 8))) (.seq (.aug .shr (.name (n% "value")) (.num 8)) (.seq (.aug .add (.name (n% "bit")) (.num 8)) .skip)) .skip) (.seq (.ifs (.bin .ge (.name (n% "value")) (.bin .shl (.num 1) (.num 4))) (.seq (.aug .shr (.name (n% "value")) (.num 4)) (.seq (.aug .add (.name (n% "bit")) (.num 4)) .skip)) .skip) (.seq (.ifs (.bin .ge (.name (n% "value")) (.bin .shl (.num 1) (.num 2))) (.seq (.aug .shr (.name (n% "value")) (.num 2)) (.seq (.aug .add (.name (n% "bit")) (.num 2)) .skip)) .skip) (.seq (.ifs (.bin .ge (.name (n% "value")) (.bin .shl (.num 1) (.num 1))) (.seq (.aug .shr (.name (n% "value")) (.num 1)) (.seq (.aug .add (.name (n% "bit")) (.num 1)) .skip)) .skip) (.seq (.ret (.name (n% "bit"))) .skip)))))))))))

/-- UnicodeData/Utilities.py:114-116 -/
def listOfCodes : Stmt :=
  (.defn (n% "listOfCodes") (.cons (.name (n% "codes")) .nil) (.seq (.assign (.name (n% "codeList")) (.comp (.fstr [123, 99, 111, 100, 101, 58, 48, 52, 88, 125]) (.name (n% "code")) (.name (n% "codes")))) (.seq (.ret (.call (.attr (.str [44, 32]) (n% "join")) (.cons (.name (n% "codeList")) .nil))) .skip)))

/-- UnicodeData/Utilities.py, all of it. -/
def module : Stmt :=
  (.seq (.expr (.str [85, 105, 116, 105, 108, 105, 116, 121, 32, 114, 111, 117, 116, 105, 110, 101, 115, 44, 32, 101, 116, 99, 46, 10, 10, 67, 114, 101, 97, 116, 101, 100, 32, 111, 110, 32, 77, 97, 121, 32, 50, 56, 44, 32, 50, 48, 50, 48, 10, 10, 64, 97, 117, 116, 104, 111, 114, 32, 69, 114, 105, 99, 32, 77, 97, 100, 101, 114, 10]))
  (.seq (.imp (n% "typing"))
  (.seq class_object
  (.seq isUnicodeNoncharacter
  (.seq (.assign (.name (n% "_firstLead")) (.num 0xd800))
  (.seq (.assign (.name (n% "_firstTrail")) (.num 0xdc00))
  (.seq (.assign (.name (n% "_firstNonBMP")) (.num 0x10000))
  (.seq (.assign (.name (n% "_leadShift")) (.num 10))
  (.seq (.assign (.name (n% "_surrogateMask")) (.num 0xfffff800))
  (.seq (.assign (.name (n% "_leadTrailMask")) (.num 0xfffffc00))
  (.seq (.assign (.name (n% "_trailMask")) (.bin .sub (.num 0xffffffff) (.name (n% "_leadTrailMask"))))
  (.seq (.assign (.name (n% "_surrogateOffset")) (.bin .sub (.bin .add (.bin .shl (.name (n% "_firstLead")) (.name (n% "_leadShift"))) (.name (n% "_firstTrail"))) (.name (n% "_firstNonBMP"))))
  (.seq (.assign (.name (n% "_leadOffset")) (.bin .sub (.name (n% "_firstLead")) (.bin .shr (.name (n% "_firstNonBMP")) (.name (n% "_leadShift")))))
  (.seq isSurrogate
  (.seq isSurrogateLead
  (.seq isSurrogateTrail
  (.seq isLead
  (.seq isTrail
  (.seq charFromSurrogates
  (.seq surrogatesFromChar
  (.seq arithmeticShift
  (.seq highBit
  (.seq listOfCodes .skip)))))))))))))))))))))))

end Utilities

namespace Characters


/-- UnicodeData/Characters.py, all of it. -/
def module : Stmt :=
  (.seq (.expr (.str [67, 111, 110, 115, 116, 97, 110, 116, 115, 32, 102, 111, 114, 32, 115, 111, 109, 101, 32, 117, 115, 101, 102, 117, 108, 32, 99, 111, 100, 101, 32, 112, 111, 105, 110, 116, 115, 46, 32, 84, 97, 107, 101, 110, 32, 102, 114, 111, 109, 32, 117, 112, 114, 111, 112, 115, 46, 104, 32, 105, 110, 32, 73, 67, 85, 10, 10, 67, 114, 101, 97, 116, 101, 100, 32, 111, 110, 32, 77, 97, 121, 32, 53, 44, 32, 50, 48, 50, 48, 10, 10, 64, 97, 117, 116, 104, 111, 114, 32, 69, 114, 105, 99, 32, 77, 97, 100, 101, 114, 10]))
  (.seq (.assign (.name (n% "CH_TAB")) (.num 0x9))
  (.seq (.assign (.name (n% "CH_LF")) (.num 0xa))
  (.seq (.assign (.name (n% "CH_FF")) (.num 0xc))
  (.seq (.assign (.name (n% "CH_CR")) (.num 0xd))
  (.seq (.assign (.name (n% "CH_SPACE")) (.num 0x20))
  (.seq (.assign (.name (n% "CH_U_A")) (.num 0x41))
  (.seq (.assign (.name (n% "CH_U_F")) (.num 0x46))
  (.seq (.assign (.name (n% "CH_U_Z")) (.num 0x5a))
  (.seq (.assign (.name (n% "CH_U_a")) (.num 0x61))
  (.seq (.assign (.name (n% "CH_U_f")) (.num 0x66))
  (.seq (.assign (.name (n% "CH_U_z")) (.num 0x7a))
  (.seq (.assign (.name (n% "CH_DEL")) (.num 0x7f))
  (.seq (.assign (.name (n% "CH_NL")) (.num 0x85))
  (.seq (.assign (.name (n% "CH_NBSP")) (.num 0xa0))
  (.seq (.assign (.name (n% "CH_CGJ")) (.num 0x34f))
  (.seq (.assign (.name (n% "CH_FIGURESP")) (.num 0x2007))
  (.seq (.assign (.name (n% "CH_HAIRSP")) (.num 0x200a))
  (.seq (.assign (.name (n% "CH_ZWNJ")) (.num 0x200c))
  (.seq (.assign (.name (n% "CH_ZWJ")) (.num 0x200d))
  (.seq (.assign (.name (n% "CH_RLM")) (.num 0x200f))
  (.seq (.assign (.name (n% "CH_NNBSP")) (.num 0x202f))
  (.seq (.assign (.name (n% "CH_WJ")) (.num 0x2060))
  (.seq (.assign (.name (n% "CH_INHSWAP")) (.num 0x206a))
  (.seq (.assign (.name (n% "CH_NOMDIG")) (.num 0x206f))
  (.seq (.assign (.name (n% "CH_U_FW_A")) (.num 0xff21))
  (.seq (.assign (.name (n% "CH_U_FW_F")) (.num 0xff26))
  (.seq (.assign (.name (n% "CH_U_FW_Z")) (.num 0xff3a))
  (.seq (.assign (.name (n% "CH_U_FW_a")) (.num 0xff41))
  (.seq (.assign (.name (n% "CH_U_FW_f")) (.num 0xff46))
  (.seq (.assign (.name (n% "CH_U_FW_z")) (.num 0xff5a))
  (.seq (.assign (.name (n% "ZWNBSP")) (.num 0xfeff)) .skip))))))))))))))))))))))))))))))))

end Characters

namespace GeneralCategories


/-- UnicodeData/GeneralCategories.py, all of it. -/
def module : Stmt :=
  (.seq (.expr (.str [66, 97, 115, 101, 100, 32, 111, 110, 32, 85, 67, 104, 97, 114, 67, 97, 116, 101, 103, 111, 114, 121, 32, 102, 114, 111, 109, 32, 117, 99, 104, 97, 114, 46, 104, 32, 105, 110, 32, 73, 67, 85, 10, 10, 67, 114, 101, 97, 116, 101, 100, 32, 111, 110, 32, 77, 97, 121, 32, 51, 44, 32, 50, 48, 50, 48, 10, 10, 64, 97, 117, 116, 104, 111, 114, 32, 69, 114, 105, 99, 32, 77, 97, 100, 101, 114, 10]))
  (.seq (.assign (.name (n% "GC_UNASSIGNED")) (.num 0))
  (.seq (.assign (.name (n% "GC_GENERAL_OTHER_TYPES")) (.num 0))
  (.seq (.assign (.name (n% "GC_UPPERCASE_LETTER")) (.num 1))
  (.seq (.assign (.name (n% "GC_LOWERCASE_LETTER")) (.num 2))
  (.seq (.assign (.name (n% "GC_TITLECASE_LETTER")) (.num 3))
  (.seq (.assign (.name (n% "GC_MODIFIER_LETTER")) (.num 4))
  (.seq (.assign (.name (n% "GC_OTHER_LETTER")) (.num 5))
  (.seq (.assign (.name (n% "GC_NON_SPACING_MARK")) (.num 6))
  (.seq (.assign (.name (n% "GC_ENCLOSING_MARK")) (.num 7))
  (.seq (.assign (.name (n% "GC_COMBINING_SPACING_MARK")) (.num 8))
  (.seq (.assign (.name (n% "GC_DECIMAL_DIGIT_NUMBER")) (.num 9))
  (.seq (.assign (.name (n% "GC_LETTER_NUMBER")) (.num 10))
  (.seq (.assign (.name (n% "GC_OTHER_NUMBER")) (.num 11))
  (.seq (.assign (.name (n% "GC_SPACE_SEPARATOR")) (.num 12))
  (.seq (.assign (.name (n% "GC_LINE_SEPARATOR")) (.num 13))
  (.seq (.assign (.name (n% "GC_PARAGRAPH_SEPARATOR")) (.num 14))
  (.seq (.assign (.name (n% "GC_CONTROL_CHAR")) (.num 15))
  (.seq (.assign (.name (n% "GC_FORMAT_CHAR")) (.num 16))
  (.seq (.assign (.name (n% "GC_PRIVATE_USE_CHAR")) (.num 17))
  (.seq (.assign (.name (n% "GC_SURROGATE")) (.num 18))
  (.seq (.assign (.name (n% "GC_DASH_PUNCTUATION")) (.num 19))
  (.seq (.assign (.name (n% "GC_START_PUNCTUATION")) (.num 20))
  (.seq (.assign (.name (n% "GC_END_PUNCTUATION")) (.num 21))
  (.seq (.assign (.name (n% "GC_CONNECTOR_PUNCTUATION")) (.num 22))
  (.seq (.assign (.name (n% "GC_OTHER_PUNCTUATION")) (.num 23))
  (.seq (.assign (.name (n% "GC_MATH_SYMBOL")) (.num 24))
  (.seq (.assign (.name (n% "GC_CURRENCY_SYMBOL")) (.num 25))
  (.seq (.assign (.name (n% "GC_MODIFIER_SYMBOL")) (.num 26))
  (.seq (.assign (.name (n% "GC_OTHER_SYMBOL")) (.num 27))
  (.seq (.assign (.name (n% "GC_INITIAL_PUNCTUATION")) (.num 28))
  (.seq (.assign (.name (n% "GC_FINAL_PUNCTUATION")) (.num 29))
  (.seq (.assign (.name (n% "GC_CATEFORY_COUNT")) (.num 30))
  (.seq (.assign (.name (n% "GC_CN_MASK")) (.bin .shl (.num 1) (.name (n% "GC_GENERAL_OTHER_TYPES"))))
  (.seq (.assign (.name (n% "GC_LU_MASK")) (.bin .shl (.num 1) (.name (n% "GC_UPPERCASE_LETTER"))))
  (.seq (.assign (.name (n% "GC_LL_MASK")) (.bin .shl (.num 1) (.name (n% "GC_LOWERCASE_LETTER"))))
  (.seq (.assign (.name (n% "GC_LT_MASK")) (.bin .shl (.num 1) (.name (n% "GC_TITLECASE_LETTER"))))
  (.seq (.assign (.name (n% "GC_LM_MASK")) (.bin .shl (.num 1) (.name (n% "GC_MODIFIER_LETTER"))))
  (.seq (.assign (.name (n% "GC_LO_MASK")) (.bin .shl (.num 1) (.name (n% "GC_OTHER_LETTER"))))
  (.seq (.assign (.name (n% "GC_MN_MASK")) (.bin .shl (.num 1) (.name (n% "GC_NON_SPACING_MARK"))))
  (.seq (.assign (.name (n% "GC_ME_MASK")) (.bin .shl (.num 1) (.name (n% "GC_ENCLOSING_MARK"))))
  (.seq (.assign (.name (n% "GC_MC_MASK")) (.bin .shl (.num 1) (.name (n% "GC_COMBINING_SPACING_MARK"))))
  (.seq (.assign (.name (n% "GC_ND_MASK")) (.bin .shl (.num 1) (.name (n% "GC_DECIMAL_DIGIT_NUMBER"))))
  (.seq (.assign (.name (n% "GC_NL_MASK")) (.bin .shl (.num 1) (.name (n% "GC_LETTER_NUMBER"))))
  (.seq (.assign (.name (n% "GC_NO_MASK")) (.bin .shl (.num 1) (.name (n% "GC_OTHER_NUMBER"))))
  (.seq (.assign (.name (n% "GC_ZS_MASK")) (.bin .shl (.num 1) (.name (n% "GC_SPACE_SEPARATOR"))))
  (.seq (.assign (.name (n% "GC_ZL_MASK")) (.bin .shl (.num 1) (.name (n% "GC_LINE_SEPARATOR"))))
  (.seq (.assign (.name (n% "GC_ZP_MASK")) (.bin .shl (.num 1) (.name (n% "GC_PARAGRAPH_SEPARATOR"))))
  (.seq (.assign (.name (n% "GC_CC_MASK")) (.bin .shl (.num 1) (.name (n% "GC_CONTROL_CHAR"))))
  (.seq (.assign (.name (n% "GC_CF_MASK")) (.bin .shl (.num 1) (.name (n% "GC_FORMAT_CHAR"))))
  (.seq (.assign (.name (n% "GC_CO_MASK")) (.bin .shl (.num 1) (.name (n% "GC_PRIVATE_USE_CHAR"))))
  (.seq (.assign (.name (n% "GC_CS_MASK")) (.bin .shl (.num 1) (.name (n% "GC_SURROGATE"))))
  (.seq (.assign (.name (n% "GC_PD_MASK")) (.bin .shl (.num 1) (.name (n% "GC_DASH_PUNCTUATION"))))
  (.seq (.assign (.name (n% "GC_PS_MASK")) (.bin .shl (.num 1) (.name (n% "GC_START_PUNCTUATION"))))
  (.seq (.assign (.name (n% "GC_PE_MASK")) (.bin .shl (.num 1) (.name (n% "GC_END_PUNCTUATION"))))
  (.seq (.assign (.name (n% "GC_PC_MASK")) (.bin .shl (.num 1) (.name (n% "GC_CONNECTOR_PUNCTUATION"))))
  (.seq (.assign (.name (n% "GC_PO_MASK")) (.bin .shl (.num 1) (.name (n% "GC_OTHER_PUNCTUATION"))))
  (.seq (.assign (.name (n% "GC_SM_MASK")) (.bin .shl (.num 1) (.name (n% "GC_MATH_SYMBOL"))))
  (.seq (.assign (.name (n% "GC_SC_MASK")) (.bin .shl (.num 1) (.name (n% "GC_CURRENCY_SYMBOL"))))
  (.seq (.assign (.name (n% "GC_SK_MASK")) (.bin .shl (.num 1) (.name (n% "GC_MODIFIER_SYMBOL"))))
  (.seq (.assign (.name (n% "GC_SO_MASK")) (.bin .shl (.num 1) (.name (n% "GC_OTHER_SYMBOL"))))
  (.seq (.assign (.name (n% "GC_PI_MASK")) (.bin .shl (.num 1) (.name (n% "GC_INITIAL_PUNCTUATION"))))
  (.seq (.assign (.name (n% "GC_PF_MASK")) (.bin .shl (.num 1) (.name (n% "GC_FINAL_PUNCTUATION"))))
  (.seq (.assign (.name (n% "GC_L_MASK")) (.bin .or (.bin .or (.bin .or (.bin .or (.name (n% "GC_LU_MASK")) (.name (n% "GC_LL_MASK"))) (.name (n% "GC_LT_MASK"))) (.name (n% "GC_LM_MASK"))) (.name (n% "GC_LO_MASK"))))
  (.seq (.assign (.name (n% "GC_LC_MASK")) (.bin .or (.bin .or (.name (n% "GC_LU_MASK")) (.name (n% "GC_LL_MASK"))) (.name (n% "GC_LT_MASK"))))
  (.seq (.assign (.name (n% "GC_M_MASK")) (.bin .or (.bin .or (.name (n% "GC_MN_MASK")) (.name (n% "GC_ME_MASK"))) (.name (n% "GC_MC_MASK"))))
  (.seq (.assign (.name (n% "GC_N_MASK")) (.bin .or (.bin .or (.name (n% "GC_ND_MASK")) (.name (n% "GC_NL_MASK"))) (.name (n% "GC_NO_MASK"))))
  (.seq (.assign (.name (n% "GC_Z_MASK")) (.bin .or (.bin .or (.name (n% "GC_ZS_MASK")) (.name (n% "GC_ZL_MASK"))) (.name (n% "GC_ZP_MASK"))))
  (.seq (.assign (.name (n% "GC_C_MASK")) (.bin .or (.bin .or (.bin .or (.bin .or (.name (n% "GC_CN_MASK")) (.name (n% "GC_CC_MASK"))) (.name (n% "GC_CF_MASK"))) (.name (n% "GC_CO_MASK"))) (.name (n% "GC_CS_MASK"))))
  (.seq (.assign (.name (n% "GC_P_MASK")) (.bin .or (.bin .or (.bin .or (.bin .or (.bin .or (.bin .or (.name (n% "GC_PD_MASK")) (.name (n% "GC_PS_MASK"))) (.name (n% "GC_PE_MASK"))) (.name (n% "GC_PC_MASK"))) (.name (n% "GC_PO_MASK"))) (.name (n% "GC_PI_MASK"))) (.name (n% "GC_PF_MASK"))))
  (.seq (.assign (.name (n% "GC_S_MASK")) (.bin .or (.bin .or (.bin .or (.name (n% "GC_SM_MASK")) (.name (n% "GC_SC_MASK"))) (.name (n% "GC_SK_MASK"))) (.name (n% "GC_SO_MASK"))))
  (.seq (.assign (.name (n% "generalCategories")) (.dict (.cons (.item (.name (n% "GC_GENERAL_OTHER_TYPES")) (.str [67, 110])) (.cons (.item (.name (n% "GC_UPPERCASE_LETTER")) (.str [76, 117])) (.cons (.item (.name (n% "GC_LOWERCASE_LETTER")) (.str [76, 108])) (.cons (.item (.name (n% "GC_TITLECASE_LETTER")) (.str [76, 116])) (.cons (.item (.name (n% "GC_MODIFIER_LETTER")) (.str [76, 109])) (.cons (.item (.name (n% "GC_OTHER_LETTER")) (.str [76, 111])) (.cons (.item (.name (n% "GC_NON_SPACING_MARK")) (.str [77, 110])) (.cons (.item (.name (n% "GC_ENCLOSING_MARK")) (.str [77, 101])) (.cons (.item (.name (n% "GC_COMBINING_SPACING_MARK")) (.str [77, 99])) (.cons (.item (.name (n% "GC_DECIMAL_DIGIT_NUMBER")) (.str [78, 100])) (.cons (.item (.name (n% "GC_LETTER_NUMBER")) (.str [78, 108])) (.cons (.item (.name (n% "GC_OTHER_NUMBER")) (.str [78, 111])) (.cons (.item (.name (n% "GC_SPACE_SEPARATOR")) (.str [90, 115])) (.cons (.item (.name (n% "GC_LINE_SEPARATOR")) (.str [90, 108])) (.cons (.item (.name (n% "GC_PARAGRAPH_SEPARATOR")) (.str [90, 112])) (.cons (.item (.name (n% "GC_CONTROL_CHAR")) (.str [67, 99])) (.cons (.item (.name (n% "GC_FORMAT_CHAR")) (.str [67, 102])) (.cons (.item (.name (n% "GC_PRIVATE_USE_CHAR")) (.str [67, 111])) (.cons (.item (.name (n% "GC_SURROGATE")) (.str [67, 115])) (.cons (.item (.name (n% "GC_DASH_PUNCTUATION")) (.str [80, 100])) (.cons (.item (.name (n% "GC_START_PUNCTUATION")) (.str [80, 115])) (.cons (.item (.name (n% "GC_END_PUNCTUATION")) (.str [80, 101])) (.cons (.item (.name (n% "GC_CONNECTOR_PUNCTUATION")) (.str [80, 99])) (.cons (.item (.name (n% "GC_OTHER_PUNCTUATION")) (.str [80, 111])) (.cons (.item (.name (n% "GC_MATH_SYMBOL")) (.str [83, 109])) (.cons (.item (.name (n% "GC_CURRENCY_SYMBOL")) (.str [83, 99])) (.cons (.item (.name (n% "GC_MODIFIER_SYMBOL")) (.str [83, 107])) (.cons (.item (.name (n% "GC_OTHER_SYMBOL")) (.str [83, 111])) (.cons (.item (.name (n% "GC_INITIAL_PUNCTUATION")) (.str [80, 105])) (.cons (.item (.name (n% "GC_FINAL_PUNCTUATION")) (.str [80, 102])) .nil)))))))))))))))))))))))))))))))) .skip))))))))))))))))))))))))))))))))))))))))))))))))))))))))))))))))))))))))

end GeneralCategories

namespace Utrie2

/-- UnicodeData/Utrie2.py:42-50 -/
def UTrie2.__init__ : Stmt :=
  (.defn (n% "__init__") (.cons (.name (n% "self")) (.cons (.name (n% "index")) (.cons (.name (n% "indexLength")) (.cons (.name (n% "index2NullOffset")) (.cons (.name (n% "dataNullOffset")) (.cons (.name (n% "highStart")) (.cons (.name (n% "highValueIndex")) (.cons (.kwarg (n% "initialValue") (.num 0)) .nil)))))))) (.seq (.assign (.attr (.name (n% "self")) (n% "index")) (.name (n% "index"))) (.seq (.assign (.attr (.name (n% "self")) (n% "indexLength")) (.name (n% "indexLength"))) (.seq (.assign (.attr (.name (n% "self")) (n% "dataLength")) (.bin .sub (.call (.name (n% "len")) (.cons (.name (n% "index")) .nil)) (.name (n% "indexLength")))) (.seq (.assign (.attr (.name (n% "self")) (n% "index2NullOffset")) (.name (n% "index2NullOffset"))) (.seq (.assign (.attr (.name (n% "self")) (n% "dataNullOffset")) (.name (n% "dataNullOffset"))) (.seq (.assign (.attr (.name (n% "self")) (n% "highStart")) (.name (n% "highStart"))) (.seq (.assign (.attr (.name (n% "self")) (n% "highValueIndex")) (.name (n% "highValueIndex"))) (.seq (.assign (.attr (.name (n% "self")) (n% "initialValue")) (.name (n% "initialValue"))) .skip)))))))))

/-- UnicodeData/Utrie2.py:52-53 -/
def UTrie2.indexRaw : Stmt :=
  (.defn (n% "indexRaw") (.cons (.name (n% "self")) (.cons (.name (n% "offset")) (.cons (.name (n% "c")) .nil))) (.seq (.ret (.bin .add (.bin .shl (.index (.attr (.name (n% "self")) (n% "index")) (.bin .add (.name (n% "offset")) (.bin .shr (.name (n% "c")) (.attr (.name (n% "self")) (n% "SHIFT_2"))))) (.attr (.name (n% "self")) (n% "INDEX_SHIFT"))) (.bin .and (.name (n% "c")) (.attr (.name (n% "self")) (n% "DATA_MASK"))))) .skip))

/-- UnicodeData/Utrie2.py:63-67 -/
def UTrie2.indexFromSupp : Stmt :=
  (.defn (n% "indexFromSupp") (.cons (.name (n% "self")) (.cons (.name (n% "c")) .nil)) (.seq (.assign (.name (n% "index1")) (.bin .add (.bin .sub (.attr (.name (n% "self")) (n% "INDEX_1_OFFSET")) (.attr (.name (n% "self")) (n% "OMITTED_BMP_INDEX_1_LENGTH"))) (.bin .shr (.name (n% "c")) (.attr (.name (n% "self")) (n% "SHIFT_1"))))) (.seq (.assign (.name (n% "index2")) (.bin .add (.index (.attr (.name (n% "self")) (n% "index")) (.name (n% "index1"))) (.bin .and (.bin .shr (.name (n% "c")) (.attr (.name (n% "self")) (n% "SHIFT_2"))) (.attr (.name (n% "self")) (n% "INDEX_2_MASK"))))) (.seq (.ret (.bin .add (.bin .shl (.index (.attr (.name (n% "self")) (n% "index")) (.name (n% "index2"))) (.attr (.name (n% "self")) (n% "INDEX_SHIFT"))) (.bin .and (.name (n% "c")) (.attr (.name (n% "self")) (n% "DATA_MASK"))))) .skip))))

/-- UnicodeData/Utrie2.py:81-92 -/
def UTrie2.indexFromCodePoint : Stmt :=
  (.defn (n% "indexFromCodePoint") (.cons (.name (n% "self")) (.cons (.name (n% "asciiOffset")) (.cons (.name (n% "c")) .nil))) (.seq (.ifs (.bin .lt (.name (n% "c")) (.num 0xd800)) (.seq (.ret (.call (.attr (.name (n% "self")) (n% "indexRaw")) (.cons (.num 0) (.cons (.name (n% "c")) .nil)))) .skip) .skip) (.seq (.ifs (.bin .le (.name (n% "c")) (.num 0xffff)) (.seq (.assign (.name (n% "offset")) (.cond (.bin .ge (.name (n% "c")) (.num 0xdc00)) (.num 0) (.bin .sub (.attr (.name (n% "self")) (n% "LSCP_INDEX_2_OFFSET")) (.bin .shr (.num 0xd800) (.attr (.name (n% "self")) (n% "SHIFT_2")))))) (.seq (.ret (.call (.attr (.name (n% "self")) (n% "indexRaw")) (.cons (.name (n% "offset")) (.cons (.name (n% "c")) .nil)))) .skip)) .skip) (.seq (.ifs (.bin .ge (.name (n% "c")) (.num 0x10ffff)) (.seq (.ret (.bin .add (.name (n% "asciiOffset")) (.attr (.name (n% "self")) (n% "BAD_UTF8_DATA_OFFSET")))) .skip) .skip) (.seq (.ret (.cond (.bin .ge (.name (n% "c")) (.attr (.name (n% "self")) (n% "highStart"))) (.attr (.name (n% "self")) (n% "highValueIndex")) (.call (.attr (.name (n% "self")) (n% "indexFromSupp")) (.cons (.name (n% "c")) .nil)))) .skip)))))

/-- UnicodeData/Utrie2.py:94-95 -/
def UTrie2.get : Stmt :=
  (.defn (n% "get") (.cons (.name (n% "self")) (.cons (.name (n% "c")) .nil)) (.seq (.ret (.index (.attr (.name (n% "self")) (n% "index")) (.call (.attr (.name (n% "self")) (n% "indexFromCodePoint")) (.cons (.attr (.name (n% "self")) (n% "indexLength")) (.cons (.name (n% "c")) .nil))))) .skip))

/-- UnicodeData/Utrie2.py:97-217 -/
def UTrie2.enumerator : Stmt :=
  (.defn (n% "enumerator") (.cons (.name (n% "self")) (.cons (.kwarg (n% "start") (.num 0)) (.cons (.kwarg (n% "limit") (.num 0x110000)) (.cons (.kwarg (n% "valueFunction") (.name (n% "None"))) (.cons (.dstar (.name (n% "valueFunctionArgs"))) .nil))))) (.seq (.ifs (.not (.name (n% "valueFunction"))) (.seq (.assign (.name (n% "valueFunction")) (.lam (n% "v") (.name (n% "v")))) .skip) .skip) (.seq (.assign (.name (n% "initialValue")) (.call (.name (n% "valueFunction")) (.cons (.attr (.name (n% "self")) (n% "initialValue")) (.cons (.dstar (.name (n% "valueFunctionArgs"))) .nil)))) (.seq (.assign (.name (n% "prevI2Block")) (.neg (.num 1))) (.seq (.assign (.name (n% "prevBlock")) (.neg (.num 1))) (.seq (.assign (.name (n% "prev")) (.name (n% "start"))) (.seq (.assign (.name (n% "prevValue")) (.call (.name (n% "valueFunction")) (.cons (.num 0) (.cons (.dstar (.name (n% "valueFunctionArgs"))) .nil)))) (.seq (.assign (.name (n% "c")) (.name (n% "start"))) (.seq (.while (.and (.bin .lt (.name (n% "c")) (.name (n% "limit"))) (.bin .lt (.name (n% "c")) (.attr (.name (n% "self")) (n% "highStart")))) (.seq (.assign (.name (n% "tempLimit")) (.call (.name (n% "min")) (.cons (.bin .add (.name (n% "c")) (.attr (.name (n% "self")) (n% "CP_PER_INDEX_1_ENTRY"))) (.cons (.name (n% "limit")) .nil)))) (.seq (.ifs (.bin .le (.name (n% "c")) (.num 0xffff)) (.seq (.ifs (.not (.call (.name (n% "isSurrogate")) (.cons (.name (n% "c")) .nil))) (.seq (.assign (.name (n% "i2Block")) (.bin .shr (.name (n% "c")) (.attr (.name (n% "self")) (n% "SHIFT_2")))) (.seq (.ifs (.bin .gt (.name (n% "tempLimit")) (.num 0x10000)) (.seq (.assign (.name (n% "tempLimit")) (.num 0x10000)) .skip) .skip) .skip)) (.seq (.ifs (.call (.name (n% "isSurrogateLead")) (.cons (.name (n% "c")) .nil)) (.seq (.assign (.name (n% "i2Block")) (.attr (.name (n% "self")) (n% "LSCP_INDEX_2_OFFSET"))) (.seq (.assign (.name (n% "tempLimit")) (.call (.name (n% "min")) (.cons (.num 0xdc00) (.cons (.name (n% "limit")) .nil)))) .skip)) (.seq (.assign (.name (n% "i2Block")) (.bin .shr (.num 0xdc00) (.attr (.name (n% "self")) (n% "SHIFT_2")))) (.seq (.assign (.name (n% "tempLimit")) (.call (.name (n% "min")) (.cons (.num 0xe000) (.cons (.name (n% "limit")) .nil)))) .skip))) .skip)) .skip) (.seq (.assign (.name (n% "i2Block")) (.index (.attr (.name (n% "self")) (n% "index")) (.bin .add (.bin .sub (.attr (.name (n% "self")) (n% "INDEX_1_OFFSET")) (.attr (.name (n% "self")) (n% "OMITTED_BMP_INDEX_1_LENGTH"))) (.bin .shr (.name (n% "c")) (.attr (.name (n% "self")) (n% "SHIFT_1")))))) (.seq (.ifs (.and (.bin .eq (.name (n% "i2Block")) (.name (n% "prevI2Block"))) (.bin .ge (.bin .sub (.name (n% "c")) (.name (n% "prev"))) (.attr (.name (n% "self")) (n% "CP_PER_INDEX_1_ENTRY")))) (.seq (.aug .add (.name (n% "c")) (.attr (.name (n% "self")) (n% "CP_PER_INDEX_1_ENTRY"))) (.seq .cont .skip)) .skip) .skip))) (.seq (.assign (.name (n% "prevI2Block")) (.name (n% "i2Block"))) (.seq (.ifs (.bin .eq (.name (n% "i2Block")) (.attr (.name (n% "self")) (n% "index2NullOffset"))) (.seq (.ifs (.bin .ne (.name (n% "prevValue")) (.name (n% "initialValue"))) (.seq (.ifs (.bin .lt (.name (n% "prev")) (.name (n% "c"))) (.seq (.yield (.tuple (.cons (.call (.name (n% "range")) (.cons (.name (n% "prev")) (.cons (.name (n% "c")) .nil))) (.cons (.name (n% "prevValue")) .nil)))) .skip) .skip) (.seq (.assign (.name (n% "prevBlock")) (.attr (.name (n% "self")) (n% "dataNullOffset"))) (.seq (.assign (.name (n% "prev")) (.name (n% "c"))) (.seq (.assign (.name (n% "prevValue")) (.name (n% "initialValue"))) .skip)))) .skip) (.seq (.aug .add (.name (n% "c")) (.attr (.name (n% "self")) (n% "CP_PER_INDEX_1_ENTRY"))) .skip)) (.seq (.ifs (.bin .le (.name (n% "c")) (.num 0xffff)) (.seq (.assign (.name (n% "i2Start")) (.num 0)) (.seq (.assign (.name (n% "i2Limit")) (.bin .sub (.bin .shr (.name (n% "tempLimit")) (.attr (.name (n% "self")) (n% "SHIFT_2"))) (.name (n% "i2Block")))) (.seq (.ifs (.bin .lt (.name (n% "i2Limit")) (.num 0)) (.seq (.assign (.name (n% "i2Limit")) (.num 0)) .skip) .skip) .skip))) (.seq (.assign (.name (n% "i2Start")) (.bin .and (.bin .shr (.name (n% "c")) (.attr (.name (n% "self")) (n% "SHIFT_2"))) (.attr (.name (n% "self")) (n% "INDEX_2_MASK")))) (.seq (.assign (.name (n% "i2Limit")) (.bin .and (.bin .shr (.name (n% "tempLimit")) (.attr (.name (n% "self")) (n% "SHIFT_2"))) (.attr (.name (n% "self")) (n% "INDEX_2_MASK")))) (.seq (.ifs (.bin .ne (.bin .shr (.name (n% "c")) (.attr (.name (n% "self")) (n% "SHIFT_1"))) (.bin .shr (.name (n% "tempLimit")) (.attr (.name (n% "self")) (n% "SHIFT_1")))) (.seq (.assign (.name (n% "i2Limit")) (.attr (.name (n% "self")) (n% "INDEX_2_BLOCK_LENGTH"))) .skip) .skip) .skip)))) (.seq (.for (.name (n% "i2")) (.call (.name (n% "range")) (.cons (.name (n% "i2Start")) (.cons (.bin .add (.name (n% "i2Limit")) (.num 1)) .nil))) (.seq (.assign (.name (n% "block")) (.bin .shl (.index (.attr (.name (n% "self")) (n% "index")) (.bin .add (.name (n% "i2Block")) (.name (n% "i2")))) (.attr (.name (n% "self")) (n% "INDEX_SHIFT")))) (.seq (.ifs (.and (.bin .eq (.name (n% "block")) (.name (n% "prevBlock"))) (.bin .ge (.bin .sub (.name (n% "c")) (.name (n% "prev"))) (.attr (.name (n% "self")) (n% "DATA_BLOCK_LENGTH")))) (.seq (.aug .add (.name (n% "c")) (.attr (.name (n% "self")) (n% "DATA_BLOCK_LENGTH"))) (.seq .cont .skip)) .skip) (.seq (.assign (.name (n% "prevBlock")) (.name (n% "block"))) (.seq (.ifs (.bin .eq (.name (n% "block")) (.attr (.name (n% "self")) (n% "dataNullOffset"))) (.seq (.ifs (.bin .ne (.name (n% "prevValue")) (.name (n% "initialValue"))) (.seq (.ifs (.bin .lt (.name (n% "prev")) (.name (n% "c"))) (.seq (.yield (.tuple (.cons (.call (.name (n% "range")) (.cons (.name (n% "prev")) (.cons (.name (n% "c")) .nil))) (.cons (.name (n% "prevValue")) .nil)))) .skip) .skip) (.seq (.assign (.name (n% "prev")) (.name (n% "c"))) (.seq (.assign (.name (n% "prevValue")) (.name (n% "initialValue"))) .skip))) .skip) (.seq (.aug .add (.name (n% "c")) (.attr (.name (n% "self")) (n% "DATA_BLOCK_LENGTH"))) .skip)) (.seq (.assign (.name (n% "jStart")) (.bin .and (.name (n% "c")) (.attr (.name (n% "self")) (n% "DATA_MASK")))) (.seq (.assign (.name (n% "jLimit")) (.call (.name (n% "min")) (.cons (.attr (.name (n% "self")) (n% "DATA_BLOCK_LENGTH")) (.cons (.bin .sub (.bin .add (.name (n% "jStart")) (.name (n% "tempLimit"))) (.name (n% "c"))) .nil)))) (.seq (.for (.name (n% "j")) (.call (.name (n% "range")) (.cons (.name (n% "jStart")) (.cons (.name (n% "jLimit")) .nil))) (.seq (.assign (.name (n% "value")) (.call (.name (n% "valueFunction")) (.cons (.index (.attr (.name (n% "self")) (n% "index")) (.bin .add (.name (n% "block")) (.name (n% "j")))) (.cons (.dstar (.name (n% "valueFunctionArgs"))) .nil)))) (.seq (.ifs (.bin .ne (.name (n% "value")) (.name (n% "prevValue"))) (.seq (.ifs (.bin .lt (.name (n% "prev")) (.name (n% "c"))) (.seq (.yield (.tuple (.cons (.call (.name (n% "range")) (.cons (.name (n% "prev")) (.cons (.name (n% "c")) .nil))) (.cons (.name (n% "prevValue")) .nil)))) .skip) .skip) (.seq (.assign (.name (n% "prev")) (.name (n% "c"))) (.seq (.assign (.name (n% "prevValue")) (.name (n% "value"))) .skip))) .skip) (.seq (.aug .add (.name (n% "c")) (.num 1)) .skip)))) .skip)))) .skip))))) .skip))) .skip))))) (.seq (.ifs (.bin .gt (.name (n% "c")) (.name (n% "limit"))) (.seq (.assign (.name (n% "c")) (.name (n% "limit"))) .skip) (.seq (.ifs (.bin .lt (.name (n% "c")) (.name (n% "limit"))) (.seq (.assign (.name (n% "value")) (.call (.name (n% "valueFunction")) (.cons (.index (.attr (.name (n% "self")) (n% "index")) (.attr (.name (n% "self")) (n% "highValueIndex"))) (.cons (.dstar (.name (n% "valueFunctionArgs"))) .nil)))) (.seq (.ifs (.bin .ne (.name (n% "value")) (.name (n% "prevValue"))) (.seq (.ifs (.bin .lt (.name (n% "prev")) (.name (n% "c"))) (.seq (.yield (.tuple (.cons (.call (.name (n% "range")) (.cons (.name (n% "prev")) (.cons (.name (n% "c")) .nil))) (.cons (.name (n% "prevValue")) .nil)))) .skip) .skip) (.seq (.assign (.name (n% "prev")) (.name (n% "c"))) (.seq (.assign (.name (n% "prevValue")) (.name (n% "value"))) .skip))) .skip) (.seq (.assign (.name (n% "c")) (.name (n% "limit"))) .skip))) .skip) .skip)) (.seq (.ifs (.bin .lt (.name (n% "prev")) (.name (n% "c"))) (.seq (.yield (.tuple (.cons (.call (.name (n% "range")) (.cons (.name (n% "prev")) (.cons (.name (n% "c")) .nil))) (.cons (.name (n% "prevValue")) .nil)))) .skip) .skip) .skip)))))))))))

/-- UnicodeData/Utrie2.py:13-217 -/
def classUTrie2 : Stmt :=
  (.cls (n% "UTrie2") (.cons (.name (n% "object")) .nil) (.seq (.assign (.name (n% "SHIFT_1")) (.bin .add (.num 6) (.num 5))) (.seq (.assign (.name (n% "SHIFT_2")) (.num 5)) (.seq (.assign (.name (n% "SHIFT_1_2")) (.bin .sub (.name (n% "SHIFT_1")) (.name (n% "SHIFT_2")))) (.seq (.assign (.name (n% "OMITTED_BMP_INDEX_1_LENGTH")) (.bin .shr (.num 0x10000) (.name (n% "SHIFT_1")))) (.seq (.assign (.name (n% "CP_PER_INDEX_1_ENTRY")) (.bin .shl (.num 1) (.name (n% "SHIFT_1")))) (.seq (.assign (.name (n% "INDEX_2_BLOCK_LENGTH")) (.bin .shl (.num 1) (.name (n% "SHIFT_1_2")))) (.seq (.assign (.name (n% "INDEX_2_MASK")) (.bin .sub (.name (n% "INDEX_2_BLOCK_LENGTH")) (.num 1))) (.seq (.assign (.name (n% "DATA_BLOCK_LENGTH")) (.bin .shl (.num 1) (.name (n% "SHIFT_2")))) (.seq (.assign (.name (n% "DATA_MASK")) (.bin .sub (.name (n% "DATA_BLOCK_LENGTH")) (.num 1))) (.seq (.assign (.name (n% "INDEX_SHIFT")) (.num 2)) (.seq (.assign (.name (n% "DATA_GRANULARITY")) (.bin .shl (.num 1) (.name (n% "INDEX_SHIFT")))) (.seq (.assign (.name (n% "INDEX_2_OFFSET")) (.num 0)) (.seq (.assign (.name (n% "LSCP_INDEX_2_OFFSET")) (.bin .shr (.num 0x10000) (.name (n% "SHIFT_2")))) (.seq (.assign (.name (n% "LSCP_INDEX_2_LENGTH")) (.bin .shr (.num 0x400) (.name (n% "SHIFT_2")))) (.seq (.assign (.name (n% "INDEX_2_BMP_LENGTH")) (.bin .add (.name (n% "LSCP_INDEX_2_OFFSET")) (.name (n% "LSCP_INDEX_2_LENGTH")))) (.seq (.assign (.name (n% "UTF8_2B_INDEX_2_OFFSET")) (.name (n% "INDEX_2_BMP_LENGTH"))) (.seq (.assign (.name (n% "UTF8_2B_INDEX_2_LENGTH")) (.bin .shr (.num 0x800) (.num 6))) (.seq (.assign (.name (n% "INDEX_1_OFFSET")) (.bin .add (.name (n% "UTF8_2B_INDEX_2_OFFSET")) (.name (n% "UTF8_2B_INDEX_2_LENGTH")))) (.seq (.assign (.name (n% "BAD_UTF8_DATA_OFFSET")) (.num 0x80)) (.seq (.assign (.name (n% "DATA_START_OFFSET")) (.num 0xc0)) (.seq UTrie2.__init__ (.seq UTrie2.indexRaw (.seq UTrie2.indexFromSupp (.seq UTrie2.indexFromCodePoint (.seq UTrie2.get (.seq UTrie2.enumerator .skip)))))))))))))))))))))))))))

/-- UnicodeData/Utrie2.py, all of it. -/
def module : Stmt :=
  (.seq (.expr (.str [66, 97, 115, 101, 100, 32, 111, 110, 32, 117, 116, 114, 105, 101, 50, 46, 104, 44, 32, 117, 116, 114, 105, 101, 50, 46, 99, 112, 112, 32, 102, 114, 111, 109, 32, 73, 67, 85, 10, 10, 67, 114, 101, 97, 116, 101, 100, 32, 111, 110, 32, 65, 112, 114, 32, 50, 56, 44, 32, 50, 48, 50, 48, 10, 10, 64, 97, 117, 116, 104, 111, 114, 32, 69, 114, 105, 99, 32, 77, 97, 100, 101, 114, 10]))
  (.seq (.imp (n% "typing"))
  (.seq (.imps (n% "Utilities") (.cons (.name (n% "isSurrogate")) (.cons (.name (n% "isSurrogateLead")) .nil)))
  (.seq classUTrie2 .skip))))

end Utrie2

namespace CharProps

/-- UnicodeData/CharProps.py:19-20 -/
def unicodePropertiesFromVecIndex : Stmt :=
  (.defn (n% "unicodePropertiesFromVecIndex") (.cons (.name (n% "vecIndex")) (.cons (.name (n% "column")) .nil)) (.seq (.ret (.index (.name (n% "propsVectors")) (.bin .add (.name (n% "vecIndex")) (.name (n% "column"))))) .skip))

/-- UnicodeData/CharProps.py:22-27 -/
def getUnicodeProperties : Stmt :=
  (.defn (n% "getUnicodeProperties") (.cons (.name (n% "c")) (.cons (.name (n% "column")) .nil)) (.seq (.ifs (.bin .gt (.name (n% "column")) (.name (n% "propsVectorsColumns"))) (.seq (.ret (.num 0)) .skip) .skip) (.seq (.assign (.name (n% "vecIndex")) (.call (.attr (.name (n% "propsVectorTrie")) (n% "get")) (.cons (.name (n% "c")) .nil))) (.seq (.ret (.call (.name (n% "unicodePropertiesFromVecIndex")) (.cons (.name (n% "vecIndex")) (.cons (.name (n% "column")) .nil)))) .skip))))

/-- UnicodeData/CharProps.py:29-30 -/
def generalCategoryFromProps : Stmt :=
  (.defn (n% "generalCategoryFromProps") (.cons (.name (n% "props")) .nil) (.seq (.ret (.bin .and (.name (n% "props")) (.num 0x1f))) .skip))

/-- UnicodeData/CharProps.py:32-34 -/
def getGeneralCategory : Stmt :=
  (.defn (n% "getGeneralCategory") (.cons (.name (n% "c")) .nil) (.seq (.assign (.name (n% "props")) (.call (.attr (.name (n% "propsTrie")) (n% "get")) (.cons (.name (n% "c")) .nil))) (.seq (.ret (.call (.name (n% "generalCategoryFromProps")) (.cons (.name (n% "props")) .nil))) .skip)))

/-- UnicodeData/CharProps.py:36-37 -/
def gcMask : Stmt :=
  (.defn (n% "gcMask") (.cons (.name (n% "gc")) .nil) (.seq (.ret (.bin .shl (.num 1) (.name (n% "gc")))) .skip))

/-- UnicodeData/CharProps.py:39-40 -/
def isLower : Stmt :=
  (.defn (n% "isLower") (.cons (.name (n% "c")) .nil) (.seq (.ret (.bin .eq (.call (.name (n% "getGeneralCategory")) (.cons (.name (n% "c")) .nil)) (.name (n% "GC_LOWERCASE_LETTER")))) .skip))

/-- UnicodeData/CharProps.py:42-43 -/
def isUpper : Stmt :=
  (.defn (n% "isUpper") (.cons (.name (n% "c")) .nil) (.seq (.ret (.bin .eq (.call (.name (n% "getGeneralCategory")) (.cons (.name (n% "c")) .nil)) (.name (n% "GC_UPPERCASE_LETTER")))) .skip))

/-- UnicodeData/CharProps.py:45-46 -/
def isTitle : Stmt :=
  (.defn (n% "isTitle") (.cons (.name (n% "c")) .nil) (.seq (.ret (.bin .eq (.call (.name (n% "getGeneralCategory")) (.cons (.name (n% "c")) .nil)) (.name (n% "GC_TITLECASE_LETTER")))) .skip))

/-- UnicodeData/CharProps.py:48-49 -/
def isDigit : Stmt :=
  (.defn (n% "isDigit") (.cons (.name (n% "c")) .nil) (.seq (.ret (.bin .eq (.call (.name (n% "getGeneralCategory")) (.cons (.name (n% "c")) .nil)) (.name (n% "GC_DECIMAL_DIGIT_NUMBER")))) .skip))

/-- UnicodeData/CharProps.py:51-58 -/
def isHexDigit : Stmt :=
  (.defn (n% "isHexDigit") (.cons (.name (n% "c")) .nil) (.seq (.ifs (.or (.bin .in' (.name (n% "c")) (.call (.name (n% "range")) (.cons (.name (n% "CH_U_A")) (.cons (.bin .add (.name (n% "CH_U_F")) (.num 1)) .nil)))) (.bin .in' (.name (n% "c")) (.call (.name (n% "range")) (.cons (.name (n% "CH_U_a")) (.cons (.bin .add (.name (n% "CH_U_f")) (.num 1)) .nil))))) (.seq (.ret (.name (n% "True"))) .skip) .skip) (.seq (.ifs (.or (.bin .in' (.name (n% "c")) (.call (.name (n% "range")) (.cons (.name (n% "CH_U_FW_A")) (.cons (.bin .add (.name (n% "CH_U_FW_F")) (.num 1)) .nil)))) (.bin .in' (.name (n% "c")) (.call (.name (n% "range")) (.cons (.name (n% "CH_U_FW_a")) (.cons (.bin .add (.name (n% "CH_U_FW_f")) (.num 1)) .nil))))) (.seq (.ret (.name (n% "True"))) .skip) .skip) (.seq (.ret (.call (.name (n% "isDigit")) (.cons (.name (n% "c")) .nil))) .skip))))

/-- UnicodeData/CharProps.py:60-62 -/
def isalpha : Stmt :=
  (.defn (n% "isalpha") (.cons (.name (n% "c")) .nil) (.seq (.assign (.name (n% "gc")) (.call (.name (n% "getGeneralCategory")) (.cons (.name (n% "c")) .nil))) (.seq (.ret (.bin .ne (.bin .and (.call (.name (n% "gcMask")) (.cons (.name (n% "gc")) .nil)) (.name (n% "GC_L_MASK"))) (.num 0))) .skip)))

/-- UnicodeData/CharProps.py:64-66 -/
def isAlphabetic : Stmt :=
  (.defn (n% "isAlphabetic") (.cons (.name (n% "c")) .nil) (.seq (.assign (.name (n% "props")) (.call (.name (n% "getUnicodeProperties")) (.cons (.name (n% "c")) (.cons (.num 1) .nil)))) (.seq (.ret (.bin .ne (.bin .and (.name (n% "props")) (.bin .shl (.num 1) (.name (n% "UPROPS_ALPHABETIC")))) (.num 0))) .skip)))

/-- UnicodeData/CharProps.py:68-70 -/
def isalnum : Stmt :=
  (.defn (n% "isalnum") (.cons (.name (n% "c")) .nil) (.seq (.assign (.name (n% "gc")) (.call (.name (n% "getGeneralCategory")) (.cons (.name (n% "c")) .nil))) (.seq (.ret (.bin .ne (.bin .and (.call (.name (n% "gcMask")) (.cons (.name (n% "gc")) .nil)) (.bin .or (.name (n% "GC_L_MASK")) (.name (n% "GC_ND_MASK")))) (.num 0))) .skip)))

/-- UnicodeData/CharProps.py:72-73 -/
def isalnumPOSIX : Stmt :=
  (.defn (n% "isalnumPOSIX") (.cons (.name (n% "c")) .nil) (.seq (.ret (.or (.call (.name (n% "isAlphabetic")) (.cons (.name (n% "c")) .nil)) (.call (.name (n% "isDigit")) (.cons (.name (n% "c")) .nil)))) .skip))

/-- UnicodeData/CharProps.py:75-76 -/
def isDefined : Stmt :=
  (.defn (n% "isDefined") (.cons (.name (n% "c")) .nil) (.seq (.ret (.bin .ne (.call (.name (n% "getGeneralCategory")) (.cons (.name (n% "c")) .nil)) (.name (n% "GC_UNASSIGNED")))) .skip))

/-- UnicodeData/CharProps.py:78-80 -/
def isbase : Stmt :=
  (.defn (n% "isbase") (.cons (.name (n% "c")) .nil) (.seq (.assign (.name (n% "gc")) (.call (.name (n% "getGeneralCategory")) (.cons (.name (n% "c")) .nil))) (.seq (.ret (.bin .ne (.bin .and (.call (.name (n% "gcMask")) (.cons (.name (n% "gc")) .nil)) (.bin .or (.bin .or (.bin .or (.name (n% "GC_L_MASK")) (.name (n% "GC_N_MASK"))) (.name (n% "GC_MC_MASK"))) (.name (n% "GC_ME_MASK")))) (.num 0))) .skip)))

/-- UnicodeData/CharProps.py:82-84 -/
def iscntrl : Stmt :=
  (.defn (n% "iscntrl") (.cons (.name (n% "c")) .nil) (.seq (.assign (.name (n% "gc")) (.call (.name (n% "getGeneralCategory")) (.cons (.name (n% "c")) .nil))) (.seq (.ret (.bin .ne (.bin .and (.call (.name (n% "gcMask")) (.cons (.name (n% "gc")) .nil)) (.bin .or (.bin .or (.bin .or (.name (n% "GC_CC_MASK")) (.name (n% "GC_CF_MASK"))) (.name (n% "GC_ZL_MASK"))) (.name (n% "GC_ZP_MASK")))) (.num 0))) .skip)))

/-- UnicodeData/CharProps.py:86-87 -/
def isISOControl : Stmt :=
  (.defn (n% "isISOControl") (.cons (.name (n% "c")) .nil) (.seq (.ret (.or (.bin .le (.name (n% "c")) (.num 0x1f)) (.bin .in' (.name (n% "c")) (.call (.name (n% "range")) (.cons (.num 0x7f) (.cons (.bin .add (.num 0x9f) (.num 1)) .nil)))))) .skip))

/-- UnicodeData/CharProps.py:89-91 -/
def isThatControlSpace : Stmt :=
  (.defn (n% "isThatControlSpace") (.cons (.name (n% "c")) .nil) (.seq (.ret (.and (.bin .le (.name (n% "c")) (.num 0x9f)) (.or (.or (.and (.bin .ge (.name (n% "c")) (.name (n% "CH_TAB"))) (.bin .le (.name (n% "c")) (.name (n% "CH_CR")))) (.and (.bin .ge (.name (n% "c")) (.num 0x1c)) (.bin .le (.name (n% "c")) (.num 0x1f)))) (.bin .eq (.name (n% "c")) (.name (n% "CH_NL")))))) .skip))

/-- UnicodeData/CharProps.py:93-95 -/
def isThatASCIIControlSpace : Stmt :=
  (.defn (n% "isThatASCIIControlSpace") (.cons (.name (n% "c")) .nil) (.seq (.ret (.and (.and (.bin .le (.name (n% "c")) (.num 0x1f)) (.bin .ge (.name (n% "c")) (.name (n% "CH_TAB")))) (.or (.bin .le (.name (n% "c")) (.name (n% "CH_CR"))) (.bin .ge (.name (n% "c")) (.num 0x1c))))) .skip))

/-- UnicodeData/CharProps.py:97-99 -/
def isspace : Stmt :=
  (.defn (n% "isspace") (.cons (.name (n% "c")) .nil) (.seq (.assign (.name (n% "gc")) (.call (.name (n% "getGeneralCategory")) (.cons (.name (n% "c")) .nil))) (.seq (.ret (.or (.bin .ne (.bin .and (.call (.name (n% "gcMask")) (.cons (.name (n% "gc")) .nil)) (.name (n% "GC_Z_MASK"))) (.num 0)) (.call (.name (n% "isThatControlSpace")) (.cons (.name (n% "c")) .nil)))) .skip)))

/-- UnicodeData/CharProps.py:101-103 -/
def isJavaSpaceChar : Stmt :=
  (.defn (n% "isJavaSpaceChar") (.cons (.name (n% "c")) .nil) (.seq (.assign (.name (n% "gc")) (.call (.name (n% "getGeneralCategory")) (.cons (.name (n% "c")) .nil))) (.seq (.ret (.bin .ne (.bin .and (.call (.name (n% "gcMask")) (.cons (.name (n% "gc")) .nil)) (.name (n% "GC_Z_MASK"))) (.num 0))) .skip)))

/-- UnicodeData/CharProps.py:105-110 -/
def isWhiteSpace : Stmt :=
  (.defn (n% "isWhiteSpace") (.cons (.name (n% "c")) .nil) (.seq (.ifs (.or (.or (.bin .eq (.name (n% "c")) (.name (n% "CH_NBSP"))) (.bin .eq (.name (n% "c")) (.name (n% "CH_FIGURESP")))) (.bin .eq (.name (n% "c")) (.name (n% "CH_NNBSP")))) (.seq (.ret (.name (n% "False"))) .skip) .skip) (.seq (.assign (.name (n% "gc")) (.call (.name (n% "getGeneralCategory")) (.cons (.name (n% "c")) .nil))) (.seq (.ret (.or (.bin .ne (.bin .and (.call (.name (n% "gcMask")) (.cons (.name (n% "gc")) .nil)) (.name (n% "GC_Z_MASK"))) (.num 0)) (.call (.name (n% "isThatASCIIControlSpace")) (.cons (.name (n% "c")) .nil)))) .skip))))

/-- UnicodeData/CharProps.py:112-117 -/
def isBlank : Stmt :=
  (.defn (n% "isBlank") (.cons (.name (n% "c")) .nil) (.seq (.ifs (.bin .le (.name (n% "c")) (.num 0x9f)) (.seq (.ret (.or (.bin .eq (.name (n% "c")) (.name (n% "CH_TAB"))) (.bin .eq (.name (n% "c")) (.name (n% "CH_SPACE"))))) .skip) .skip) (.seq (.assign (.name (n% "gc")) (.call (.name (n% "getGeneralCategory")) (.cons (.name (n% "c")) .nil))) (.seq (.ret (.bin .eq (.name (n% "gc")) (.name (n% "GC_SPACE_SEPARATOR")))) .skip))))

/-- UnicodeData/CharProps.py:119-121 -/
def isUWhiteSpace : Stmt :=
  (.defn (n% "isUWhiteSpace") (.cons (.name (n% "c")) .nil) (.seq (.assign (.name (n% "props")) (.call (.name (n% "getUnicodeProperties")) (.cons (.name (n% "c")) (.cons (.num 1) .nil)))) (.seq (.ret (.bin .ne (.bin .and (.name (n% "props")) (.bin .shl (.num 1) (.name (n% "UPROPS_WHITE_SPACE")))) (.num 0))) .skip)))

/-- UnicodeData/CharProps.py:123-126 -/
def isPrint : Stmt :=
  (.defn (n% "isPrint") (.cons (.name (n% "c")) .nil) (.seq (.assign (.name (n% "gc")) (.call (.name (n% "getGeneralCategory")) (.cons (.name (n% "c")) .nil))) (.seq (.ret (.bin .eq (.bin .and (.call (.name (n% "gcMask")) (.cons (.name (n% "gc")) .nil)) (.name (n% "GC_C_MASK"))) (.num 0))) .skip)))

/-- UnicodeData/CharProps.py:128-130 -/
def isPrintPOSIX : Stmt :=
  (.defn (n% "isPrintPOSIX") (.cons (.name (n% "c")) .nil) (.seq (.assign (.name (n% "gc")) (.call (.name (n% "getGeneralCategory")) (.cons (.name (n% "c")) .nil))) (.seq (.ret (.or (.bin .eq (.name (n% "gc")) (.name (n% "GC_SPACE_SEPARATOR"))) (.call (.name (n% "isGraphPOSIX")) (.cons (.name (n% "c")) .nil)))) .skip)))

/-- UnicodeData/CharProps.py:132-135 -/
def isgraph : Stmt :=
  (.defn (n% "isgraph") (.cons (.name (n% "c")) .nil) (.seq (.assign (.name (n% "gc")) (.call (.name (n% "getGeneralCategory")) (.cons (.name (n% "c")) .nil))) (.seq (.ret (.bin .eq (.bin .and (.call (.name (n% "gcMask")) (.cons (.name (n% "gc")) .nil)) (.bin .or (.bin .or (.bin .or (.bin .or (.name (n% "GC_CC_MASK")) (.name (n% "GC_CF_MASK"))) (.name (n% "GC_CS_MASK"))) (.name (n% "GC_CN_MASK"))) (.name (n% "GC_Z_MASK")))) (.num 0))) .skip)))

/-- UnicodeData/CharProps.py:137-140 -/
def isGraphPOSIX : Stmt :=
  (.defn (n% "isGraphPOSIX") (.cons (.name (n% "c")) .nil) (.seq (.assign (.name (n% "gc")) (.call (.name (n% "getGeneralCategory")) (.cons (.name (n% "c")) .nil))) (.seq (.ret (.bin .eq (.bin .and (.call (.name (n% "gcMask")) (.cons (.name (n% "gc")) .nil)) (.bin .or (.bin .or (.bin .or (.name (n% "GC_CC_MASK")) (.name (n% "GC_CS_MASK"))) (.name (n% "GC_CN_MASK"))) (.name (n% "GC_Z_MASK")))) (.num 0))) .skip)))

/-- UnicodeData/CharProps.py:142-144 -/
def ispunct : Stmt :=
  (.defn (n% "ispunct") (.cons (.name (n% "c")) .nil) (.seq (.assign (.name (n% "gc")) (.call (.name (n% "getGeneralCategory")) (.cons (.name (n% "c")) .nil))) (.seq (.ret (.bin .ne (.bin .and (.call (.name (n% "gcMask")) (.cons (.name (n% "gc")) .nil)) (.name (n% "GC_P_MASK"))) (.num 0))) .skip)))

/-- UnicodeData/CharProps.py:146-148 -/
def isIDStart : Stmt :=
  (.defn (n% "isIDStart") (.cons (.name (n% "c")) .nil) (.seq (.assign (.name (n% "gc")) (.call (.name (n% "getGeneralCategory")) (.cons (.name (n% "c")) .nil))) (.seq (.ret (.bin .ne (.bin .and (.call (.name (n% "gcMask")) (.cons (.name (n% "gc")) .nil)) (.bin .or (.name (n% "GC_L_MASK")) (.name (n% "GC_NL_MASK")))) (.num 0))) .skip)))

/-- UnicodeData/CharProps.py:150-152 -/
def isIDPart : Stmt :=
  (.defn (n% "isIDPart") (.cons (.name (n% "c")) .nil) (.seq (.assign (.name (n% "gc")) (.call (.name (n% "getGeneralCategory")) (.cons (.name (n% "c")) .nil))) (.seq (.ret (.or (.bin .ne (.bin .and (.call (.name (n% "gcMask")) (.cons (.name (n% "gc")) .nil)) (.bin .or (.bin .or (.bin .or (.bin .or (.bin .or (.name (n% "GC_ND_MASK")) (.name (n% "GC_NL_MASK"))) (.name (n% "GC_L_MASK"))) (.name (n% "GC_PC_MASK"))) (.name (n% "GC_MC_MASK"))) (.name (n% "GC_MN_MASK")))) (.num 0)) (.call (.name (n% "isIDIgnorable")) (.cons (.name (n% "c")) .nil)))) .skip)))

/-- UnicodeData/CharProps.py:154-159 -/
def isIDIgnorable : Stmt :=
  (.defn (n% "isIDIgnorable") (.cons (.name (n% "c")) .nil) (.seq (.ifs (.bin .lt (.name (n% "c")) (.num 0x9f)) (.seq (.expr (.and (.call (.name (n% "isISOControl")) (.cons (.name (n% "c")) .nil)) (.not (.call (.name (n% "isThatASCIIControlSpace")) (.cons (.name (n% "c")) .nil))))) .skip) .skip) (.seq (.assign (.name (n% "gc")) (.call (.name (n% "getGeneralCategory")) (.cons (.name (n% "c")) .nil))) (.seq (.ret (.bin .eq (.name (n% "gc")) (.name (n% "GC_FORMAT_CHAR")))) .skip))))

/-- UnicodeData/CharProps.py:161-163 -/
def isJavaIDStart : Stmt :=
  (.defn (n% "isJavaIDStart") (.cons (.name (n% "c")) .nil) (.seq (.assign (.name (n% "gc")) (.call (.name (n% "getGeneralCategory")) (.cons (.name (n% "c")) .nil))) (.seq (.ret (.bin .ne (.bin .and (.call (.name (n% "gcMask")) (.cons (.name (n% "gc")) .nil)) (.bin .or (.bin .or (.name (n% "GC_L_MASK")) (.name (n% "GC_SC_MASK"))) (.name (n% "GC_PC_MASK")))) (.num 0))) .skip)))

/-- UnicodeData/CharProps.py:165-167 -/
def isJavaIDPart : Stmt :=
  (.defn (n% "isJavaIDPart") (.cons (.name (n% "c")) .nil) (.seq (.assign (.name (n% "gc")) (.call (.name (n% "getGeneralCategory")) (.cons (.name (n% "c")) .nil))) (.seq (.ret (.or (.bin .ne (.bin .and (.call (.name (n% "gcMask")) (.cons (.name (n% "gc")) .nil)) (.bin .or (.bin .or (.bin .or (.bin .or (.bin .or (.bin .or (.name (n% "GC_ND_MASK")) (.name (n% "GC_NL_MASK"))) (.name (n% "GC_L_MASK"))) (.name (n% "GC_SC_MASK"))) (.name (n% "GC_PC_MASK"))) (.name (n% "GC_MC_MASK"))) (.name (n% "GC_MN_MASK")))) (.num 0)) (.call (.name (n% "isIDIgnorable")) (.cons (.name (n% "c")) .nil)))) .skip)))

/-- UnicodeData/CharProps.py:169-171 -/
def digitValue : Stmt :=
  (.defn (n% "digitValue") (.cons (.name (n% "c")) .nil) (.seq (.assign (.name (n% "value")) (.bin .sub (.call (.name (n% "getNumericTypeValue")) (.cons (.name (n% "c")) .nil)) (.name (n% "UPROPS_NTV_DECIMAL_START")))) (.seq (.ret (.cond (.bin .le (.name (n% "value")) (.num 9)) (.name (n% "value")) (.neg (.num 1)))) .skip)))

/-- UnicodeData/CharProps.py:173-174 -/
def numericTypeFromProps : Stmt :=
  (.defn (n% "numericTypeFromProps") (.cons (.name (n% "props")) .nil) (.seq (.ret (.bin .and (.name (n% "props")) (.num 0x1f))) .skip))

/-- UnicodeData/CharProps.py:176-178 -/
def getNumericType : Stmt :=
  (.defn (n% "getNumericType") (.cons (.name (n% "c")) .nil) (.seq (.assign (.name (n% "props")) (.call (.attr (.name (n% "propsTrie")) (n% "get")) (.cons (.name (n% "c")) .nil))) (.seq (.ret (.call (.name (n% "numericTypeFromProps")) (.cons (.name (n% "props")) .nil))) .skip)))

/-- UnicodeData/CharProps.py:180-181 -/
def numericTypeValueFromProps : Stmt :=
  (.defn (n% "numericTypeValueFromProps") (.cons (.name (n% "props")) .nil) (.seq (.ret (.bin .shr (.name (n% "props")) (.name (n% "UPROPS_NUMERIC_TYPE_VALUE_SHIFT")))) .skip))

/-- UnicodeData/CharProps.py:183-185 -/
def getNumericTypeValue : Stmt :=
  (.defn (n% "getNumericTypeValue") (.cons (.name (n% "c")) .nil) (.seq (.assign (.name (n% "props")) (.call (.attr (.name (n% "propsTrie")) (n% "get")) (.cons (.name (n% "c")) .nil))) (.seq (.ret (.bin .shr (.name (n% "props")) (.name (n% "UPROPS_NUMERIC_TYPE_VALUE_SHIFT")))) .skip)))

/-- UnicodeData/CharProps.py:187-263 -/
def numericValueFromProps : Stmt :=
  (.defn (n% "numericValueFromProps") (.cons (.name (n% "props")) .nil) (.seq (.assign (.name (n% "ntv")) (.call (.name (n% "numericTypeValueFromProps")) (.cons (.name (n% "props")) .nil))) (.seq (.ifs (.bin .eq (.name (n% "ntv")) (.name (n% "UPROPS_NTV_NONE"))) (.seq (.ret (.name (n% "None"))) .skip) .skip) (.seq (.ifs (.bin .lt (.name (n% "ntv")) (.name (n% "UPROPS_NTV_DIGIT_START"))) (.seq (.ret (.bin .sub (.name (n% "ntv")) (.name (n% "UPROPS_NTV_DECIMAL_START")))) .skip) .skip) (.seq (.ifs (.bin .lt (.name (n% "ntv")) (.name (n% "UPROPS_NTV_NUMERIC_START"))) (.seq (.ret (.bin .sub (.name (n% "ntv")) (.name (n% "UPROPS_NTV_DIGIT_START")))) .skip) .skip) (.seq (.ifs (.bin .lt (.name (n% "ntv")) (.name (n% "UPROPS_NTV_FRACTION_START"))) (.seq (.ret (.bin .sub (.name (n% "ntv")) (.name (n% "UPROPS_NTV_NUMERIC_START")))) .skip) .skip) (.seq (.ifs (.bin .lt (.name (n% "ntv")) (.name (n% "UPROPS_NTV_LARGE_START"))) (.seq (.assign (.name (n% "numerator")) (.bin .sub (.bin .shr (.name (n% "ntv")) (.num 4)) (.num 12))) (.seq (.assign (.name (n% "denominator")) (.bin .add (.bin .and (.name (n% "ntv")) (.num 0xf)) (.num 1))) (.seq (.ret (.bin .div (.name (n% "numerator")) (.name (n% "denominator")))) .skip))) .skip) (.seq (.ifs (.bin .lt (.name (n% "ntv")) (.name (n% "UPROPS_NTV_BASE60_START"))) (.seq (.assign (.name (n% "mant")) (.bin .sub (.bin .shr (.name (n% "ntv")) (.num 5)) (.num 14))) (.seq (.assign (.name (n% "exp")) (.bin .add (.bin .and (.name (n% "ntv")) (.num 0x1f)) (.num 2))) (.seq (.assign (.name (n% "numValue")) (.name (n% "mant"))) (.seq (.while (.bin .ge (.name (n% "exp")) (.num 4)) (.seq (.aug .mul (.name (n% "numValue")) (.flt 100000 10)) (.seq (.aug .sub (.name (n% "exp")) (.num 4)) .skip))) (.seq (.ifs (.bin .eq (.name (n% "exp")) (.num 3)) (.seq (.aug .mul (.name (n% "numValue")) (.flt 10000 10)) .skip) (.seq (.ifs (.bin .eq (.name (n% "exp")) (.num 2)) (.seq (.aug .mul (.name (n% "numValue")) (.flt 1000 10)) .skip) (.seq (.ifs (.bin .eq (.name (n% "exp")) (.num 1)) (.seq (.aug .mul (.name (n% "numValue")) (.flt 100 10)) .skip) .skip) .skip)) .skip)) (.seq (.ret (.name (n% "numValue"))) .skip)))))) .skip) (.seq (.ifs (.bin .lt (.name (n% "ntv")) (.name (n% "UPROPS_NTV_FRACTION20_START"))) (.seq (.assign (.name (n% "numValue")) (.bin .sub (.bin .shr (.name (n% "ntv")) (.num 2)) (.num 0xbf))) (.seq (.assign (.name (n% "exp")) (.bin .add (.bin .and (.name (n% "ntv")) (.num 3)) (.num 1))) (.seq (.ifs (.bin .eq (.name (n% "exp")) (.num 4)) (.seq (.aug .mul (.name (n% "numValue")) (.bin .mul (.bin .mul (.bin .mul (.num 60) (.num 60)) (.num 60)) (.num 60))) .skip) (.seq (.ifs (.bin .eq (.name (n% "exp")) (.num 3)) (.seq (.aug .mul (.name (n% "numValue")) (.bin .mul (.bin .mul (.num 60) (.num 60)) (.num 60))) .skip) (.seq (.ifs (.bin .eq (.name (n% "exp")) (.num 2)) (.seq (.aug .mul (.name (n% "numValue")) (.bin .mul (.num 60) (.num 60))) .skip) (.seq (.ifs (.bin .eq (.name (n% "exp")) (.num 1)) (.seq (.aug .mul (.name (n% "numValue")) (.num 60)) .skip) .skip) .skip)) .skip)) .skip)) (.seq (.ret (.name (n% "numValue"))) .skip)))) .skip) (.seq (.ifs (.bin .lt (.name (n% "ntv")) (.name (n% "UPROPS_NTV_FRACTION32_START"))) (.seq (.assign (.name (n% "frac20")) (.bin .sub (.name (n% "ntv")) (.name (n% "UPROPS_NTV_FRACTION20_START")))) (.seq (.assign (.name (n% "numerator")) (.bin .add (.bin .mul (.num 2) (.bin .and (.name (n% "frac20")) (.num 3))) (.num 1))) (.seq (.assign (.name (n% "denominator")) (.bin .shl (.num 20) (.bin .shr (.name (n% "frac20")) (.num 2)))) (.seq (.ret (.bin .div (.name (n% "numerator")) (.name (n% "denominator")))) .skip)))) .skip) (.seq (.ifs (.bin .lt (.name (n% "ntv")) (.name (n% "UPROPS_NTV_RESERVED_START"))) (.seq (.assign (.name (n% "frac32")) (.bin .sub (.name (n% "ntv")) (.name (n% "UPROPS_NTV_FRACTION32_START")))) (.seq (.assign (.name (n% "numerator")) (.bin .add (.bin .mul (.num 2) (.bin .and (.name (n% "frac32")) (.num 3))) (.num 1))) (.seq (.assign (.name (n% "denominator")) (.bin .shl (.num 32) (.bin .shr (.name (n% "frac32")) (.num 2)))) (.seq (.ret (.bin .div (.name (n% "numerator")) (.name (n% "denominator")))) .skip)))) .skip) (.seq (.ret (.name (n% "None"))) .skip))))))))))))

/-- UnicodeData/CharProps.py:265-267 -/
def getNumericValue : Stmt :=
  (.defn (n% "getNumericValue") (.cons (.name (n% "c")) .nil) (.seq (.assign (.name (n% "props")) (.call (.attr (.name (n% "propsTrie")) (n% "get")) (.cons (.name (n% "c")) .nil))) (.seq (.ret (.call (.name (n% "numericValueFromProps")) (.cons (.name (n% "props")) .nil))) .skip)))

/-- UnicodeData/CharProps.py:269-271 -/
def ageFromProps : Stmt :=
  (.defn (n% "ageFromProps") (.cons (.name (n% "props")) .nil) (.seq (.assign (.name (n% "age")) (.bin .shr (.name (n% "props")) (.name (n% "UPROPS_AGE_SHIFT")))) (.seq (.ret (.list (.cons (.bin .shr (.name (n% "age")) (.num 4)) (.cons (.bin .and (.name (n% "age")) (.num 0xf)) (.cons (.num 0) (.cons (.num 0) .nil)))))) .skip)))

/-- UnicodeData/CharProps.py:273-275 -/
def getAge : Stmt :=
  (.defn (n% "getAge") (.cons (.name (n% "c")) .nil) (.seq (.assign (.name (n% "props")) (.call (.name (n% "getUnicodeProperties")) (.cons (.name (n% "c")) (.cons (.num 0) .nil)))) (.seq (.ret (.call (.name (n% "ageFromProps")) (.cons (.name (n% "props")) .nil))) .skip)))

/-- UnicodeData/CharProps.py:277-280 -/
def mergeScriptCodeOrIndex : Stmt :=
  (.defn (n% "mergeScriptCodeOrIndex") (.cons (.name (n% "scriptX")) .nil) (.seq (.ret (.bin .or (.bin .shr (.bin .and (.name (n% "scriptX")) (.name (n% "UPROPS_SCRIPT_HIGH_MASK"))) (.name (n% "UPROPS_SCRIPT_HIGH_SHIFT"))) (.bin .and (.name (n% "scriptX")) (.name (n% "UPROPS_SCRIPT_LOW_MASK"))))) .skip))

/-- UnicodeData/CharProps.py:282-296 -/
def scriptFromVecIndex : Stmt :=
  (.defn (n% "scriptFromVecIndex") (.cons (.name (n% "vecIndex")) .nil) (.seq (.assign (.name (n% "props")) (.call (.name (n% "unicodePropertiesFromVecIndex")) (.cons (.name (n% "vecIndex")) (.cons (.num 0) .nil)))) (.seq (.assign (.name (n% "scriptX")) (.bin .and (.name (n% "props")) (.name (n% "UPROPS_SCRIPT_X_MASK")))) (.seq (.assign (.name (n% "codeOrIndex")) (.call (.name (n% "mergeScriptCodeOrIndex")) (.cons (.name (n% "scriptX")) .nil))) (.seq (.ifs (.bin .lt (.name (n% "scriptX")) (.name (n% "UPROPS_SCRIPT_X_WITH_COMMON"))) (.seq (.ret (.name (n% "codeOrIndex"))) .skip) .skip) (.seq (.ifs (.bin .lt (.name (n% "scriptX")) (.name (n% "UPROPS_SCRIPT_X_WITH_INHERITED"))) (.seq (.ret (.name (n% "USCRIPT_COMMON"))) .skip) .skip) (.seq (.ifs (.bin .lt (.name (n% "scriptX")) (.name (n% "UPROPS_SCRIPT_X_WITH_OTHER"))) (.seq (.ret (.name (n% "USCRIPT_INHERITED"))) .skip) .skip) (.seq (.ret (.index (.name (n% "scriptExtensions")) (.name (n% "codeOrIndex")))) .skip))))))))

/-- UnicodeData/CharProps.py:298-304 -/
def getScript : Stmt :=
  (.defn (n% "getScript") (.cons (.name (n% "c")) .nil) (.seq (.ifs (.bin .gt (.name (n% "c")) (.num 0x10ffff)) (.seq (.ret (.name (n% "USCRIPT_INVALID_CODE"))) .skip) .skip) (.seq (.assign (.name (n% "vecIndex")) (.call (.attr (.name (n% "propsVectorTrie")) (n% "get")) (.cons (.name (n% "c")) .nil))) (.seq (.ret (.call (.name (n% "scriptFromVecIndex")) (.cons (.name (n% "vecIndex")) .nil))) .skip))))

/-- UnicodeData/CharProps.py:306-308 -/
def blockFromVecIndex : Stmt :=
  (.defn (n% "blockFromVecIndex") (.cons (.name (n% "vecIndex")) .nil) (.seq (.assign (.name (n% "props")) (.call (.name (n% "unicodePropertiesFromVecIndex")) (.cons (.name (n% "vecIndex")) (.cons (.num 0) .nil)))) (.seq (.ret (.bin .shr (.bin .and (.name (n% "props")) (.name (n% "UPROPS_BLOCK_MASK"))) (.name (n% "UPROPS_BLOCK_SHIFT")))) .skip)))

/-- UnicodeData/CharProps.py:310-312 -/
def getBlock : Stmt :=
  (.defn (n% "getBlock") (.cons (.name (n% "c")) .nil) (.seq (.assign (.name (n% "vecIndex")) (.call (.attr (.name (n% "propsVectorTrie")) (n% "get")) (.cons (.name (n% "c")) .nil))) (.seq (.ret (.call (.name (n% "blockFromVecIndex")) (.cons (.name (n% "vecIndex")) .nil))) .skip)))

/-- UnicodeData/CharProps.py:314-317 -/
def eastAsianWidthFromVecIndex : Stmt :=
  (.defn (n% "eastAsianWidthFromVecIndex") (.cons (.name (n% "vecIndex")) .nil) (.seq (.assign (.name (n% "props")) (.call (.name (n% "unicodePropertiesFromVecIndex")) (.cons (.name (n% "vecIndex")) (.cons (.num 0) .nil)))) (.seq (.ret (.bin .shr (.bin .and (.name (n% "props")) (.name (n% "UPROPS_EA_MASK"))) (.name (n% "UPROPS_EA_SHIFT")))) .skip)))

/-- UnicodeData/CharProps.py:319-321 -/
def getEastAsianWidth : Stmt :=
  (.defn (n% "getEastAsianWidth") (.cons (.name (n% "c")) .nil) (.seq (.assign (.name (n% "vecIndex")) (.call (.attr (.name (n% "propsVectorTrie")) (n% "get")) (.cons (.name (n% "c")) .nil))) (.seq (.ret (.call (.name (n% "eastAsianWidthFromVecIndex")) (.cons (.name (n% "vecIndex")) .nil))) .skip)))

/-- UnicodeData/CharProps.py:323-325 -/
def lineBreakFromVecIndex : Stmt :=
  (.defn (n% "lineBreakFromVecIndex") (.cons (.name (n% "vecIndex")) .nil) (.seq (.assign (.name (n% "props")) (.call (.name (n% "unicodePropertiesFromVecIndex")) (.cons (.name (n% "vecIndex")) (.cons (.num 2) .nil)))) (.seq (.ret (.bin .shr (.bin .and (.name (n% "props")) (.name (n% "UPROPS_LB_MASK"))) (.name (n% "UPROPS_LB_SHIFT")))) .skip)))

/-- UnicodeData/CharProps.py:327-329 -/
def getLineBreak : Stmt :=
  (.defn (n% "getLineBreak") (.cons (.name (n% "c")) .nil) (.seq (.assign (.name (n% "vecIndex")) (.call (.attr (.name (n% "propsVectorTrie")) (n% "get")) (.cons (.name (n% "c")) .nil))) (.seq (.ret (.call (.name (n% "lineBreakFromVecIndex")) (.cons (.name (n% "vecIndex")) .nil))) .skip)))

/-- UnicodeData/CharProps.py:331-333 -/
def sentenceBreakFromVecIndex : Stmt :=
  (.defn (n% "sentenceBreakFromVecIndex") (.cons (.name (n% "vecIndex")) .nil) (.seq (.assign (.name (n% "props")) (.call (.name (n% "unicodePropertiesFromVecIndex")) (.cons (.name (n% "vecIndex")) (.cons (.num 2) .nil)))) (.seq (.ret (.bin .shr (.bin .and (.name (n% "props")) (.name (n% "UPROPS_SB_MASK"))) (.name (n% "UPROPS_SB_SHIFT")))) .skip)))

/-- UnicodeData/CharProps.py:335-337 -/
def getSentenceBreak : Stmt :=
  (.defn (n% "getSentenceBreak") (.cons (.name (n% "c")) .nil) (.seq (.assign (.name (n% "vecIndex")) (.call (.attr (.name (n% "propsVectorTrie")) (n% "get")) (.cons (.name (n% "c")) .nil))) (.seq (.ret (.call (.name (n% "sentenceBreakFromVecIndex")) (.cons (.name (n% "vecIndex")) .nil))) .skip)))

/-- UnicodeData/CharProps.py:339-341 -/
def wordBreakFromVecIndex : Stmt :=
  (.defn (n% "wordBreakFromVecIndex") (.cons (.name (n% "vecIndex")) .nil) (.seq (.assign (.name (n% "props")) (.call (.name (n% "unicodePropertiesFromVecIndex")) (.cons (.name (n% "vecIndex")) (.cons (.num 2) .nil)))) (.seq (.ret (.bin .shr (.bin .and (.name (n% "props")) (.name (n% "UPROPS_WB_MASK"))) (.name (n% "UPROPS_WB_SHIFT")))) .skip)))

/-- UnicodeData/CharProps.py:343-345 -/
def getWordBreak : Stmt :=
  (.defn (n% "getWordBreak") (.cons (.name (n% "c")) .nil) (.seq (.assign (.name (n% "vecIndex")) (.call (.attr (.name (n% "propsVectorTrie")) (n% "get")) (.cons (.name (n% "c")) .nil))) (.seq (.ret (.call (.name (n% "wordBreakFromVecIndex")) (.cons (.name (n% "vecIndex")) .nil))) .skip)))

/-- UnicodeData/CharProps.py:347-349 -/
def graphemeClusterBreakFromVecIndex : Stmt :=
  (.defn (n% "graphemeClusterBreakFromVecIndex") (.cons (.name (n% "vecIndex")) .nil) (.seq (.assign (.name (n% "props")) (.call (.name (n% "unicodePropertiesFromVecIndex")) (.cons (.name (n% "vecIndex")) (.cons (.num 2) .nil)))) (.seq (.ret (.bin .shr (.bin .and (.name (n% "props")) (.name (n% "UPROPS_GCB_MASK"))) (.name (n% "UPROPS_GCB_SHIFT")))) .skip)))

/-- UnicodeData/CharProps.py:351-353 -/
def getGraphemeClusterBreak : Stmt :=
  (.defn (n% "getGraphemeClusterBreak") (.cons (.name (n% "c")) .nil) (.seq (.assign (.name (n% "vecIndex")) (.call (.attr (.name (n% "propsVectorTrie")) (n% "get")) (.cons (.name (n% "c")) .nil))) (.seq (.ret (.call (.name (n% "graphemeClusterBreakFromVecIndex")) (.cons (.name (n% "vecIndex")) .nil))) .skip)))

/-- UnicodeData/CharProps.py:355-357 -/
def decompTypeFromVecIndex : Stmt :=
  (.defn (n% "decompTypeFromVecIndex") (.cons (.name (n% "vecIndex")) .nil) (.seq (.assign (.name (n% "props")) (.call (.name (n% "unicodePropertiesFromVecIndex")) (.cons (.name (n% "vecIndex")) (.cons (.num 2) .nil)))) (.seq (.ret (.bin .and (.name (n% "props")) (.name (n% "UPROPS_DT_MASK")))) .skip)))

/-- UnicodeData/CharProps.py:359-361 -/
def getDecompType : Stmt :=
  (.defn (n% "getDecompType") (.cons (.name (n% "c")) .nil) (.seq (.assign (.name (n% "vecIndex")) (.call (.attr (.name (n% "propsVectorTrie")) (n% "get")) (.cons (.name (n% "c")) .nil))) (.seq (.ret (.call (.name (n% "decompTypeFromVecIndex")) (.cons (.name (n% "vecIndex")) .nil))) .skip)))

/-- UnicodeData/CharProps.py:363-365 -/
def binaryPropFromVecIndex : Stmt :=
  (.defn (n% "binaryPropFromVecIndex") (.cons (.name (n% "vecIndex")) (.cons (.name (n% "propShift")) (.cons (.name (n% "column")) .nil))) (.seq (.assign (.name (n% "props")) (.call (.name (n% "unicodePropertiesFromVecIndex")) (.cons (.name (n% "vecIndex")) (.cons (.name (n% "column")) .nil)))) (.seq (.ret (.bin .ne (.bin .and (.name (n% "props")) (.bin .shl (.num 1) (.name (n% "propShift")))) (.num 0))) .skip)))

/-- UnicodeData/CharProps.py:367-372 -/
def getBinaryProp : Stmt :=
  (.defn (n% "getBinaryProp") (.cons (.name (n% "c")) (.cons (.name (n% "propShift")) (.cons (.kwarg (n% "column") (.num 1)) .nil))) (.seq (.ifs (.bin .ge (.name (n% "propShift")) (.name (n% "UPROPS_BINARY_1_TOP"))) (.seq (.ret (.name (n% "False"))) .skip) .skip) (.seq (.assign (.name (n% "vecIndex")) (.call (.attr (.name (n% "propsVectorTrie")) (n% "get")) (.cons (.name (n% "c")) .nil))) (.seq (.ret (.call (.name (n% "binaryPropFromVecIndex")) (.cons (.name (n% "vecIndex")) (.cons (.name (n% "propShift")) (.cons (.name (n% "column")) .nil))))) .skip))))

/-- UnicodeData/CharProps.py:374-375 -/
def isExtendedPictograph : Stmt :=
  (.defn (n% "isExtendedPictograph") (.cons (.name (n% "c")) .nil) (.seq (.ret (.call (.name (n% "getBinaryProp")) (.cons (.name (n% "c")) (.cons (.name (n% "UPROPS_2_EXTENDED_PICTOGRAPHIC")) (.cons (.num 2) .nil))))) .skip))

/-- UnicodeData/CharProps.py:377-378 -/
def isEmojiComponent : Stmt :=
  (.defn (n% "isEmojiComponent") (.cons (.name (n% "c")) .nil) (.seq (.ret (.call (.name (n% "getBinaryProp")) (.cons (.name (n% "c")) (.cons (.name (n% "UPROPS_2_EMOJI_COMPONENT")) (.cons (.num 2) .nil))))) .skip))

/-- UnicodeData/CharProps.py:380-381 -/
def isEmoji : Stmt :=
  (.defn (n% "isEmoji") (.cons (.name (n% "c")) .nil) (.seq (.ret (.call (.name (n% "getBinaryProp")) (.cons (.name (n% "c")) (.cons (.name (n% "UPROPS_2_EMOJI")) (.cons (.num 2) .nil))))) .skip))

/-- UnicodeData/CharProps.py:383-384 -/
def isEmojiPresentation : Stmt :=
  (.defn (n% "isEmojiPresentation") (.cons (.name (n% "c")) .nil) (.seq (.ret (.call (.name (n% "getBinaryProp")) (.cons (.name (n% "c")) (.cons (.name (n% "UPROPS_2_EMOJI_PRESENTATION")) (.cons (.num 2) .nil))))) .skip))

/-- UnicodeData/CharProps.py:386-387 -/
def isEmojiModifier : Stmt :=
  (.defn (n% "isEmojiModifier") (.cons (.name (n% "c")) .nil) (.seq (.ret (.call (.name (n% "getBinaryProp")) (.cons (.name (n% "c")) (.cons (.name (n% "UPROPS_2_EMOJI_MODIFIER")) (.cons (.num 2) .nil))))) .skip))

/-- UnicodeData/CharProps.py:389-390 -/
def isEmojiModifierBase : Stmt :=
  (.defn (n% "isEmojiModifierBase") (.cons (.name (n% "c")) .nil) (.seq (.ret (.call (.name (n% "getBinaryProp")) (.cons (.name (n% "c")) (.cons (.name (n% "UPROPS_2_EMOJI_MODIFIER_BASE")) (.cons (.num 2) .nil))))) .skip))

/-- UnicodeData/CharProps.py, all of it. -/
def module : Stmt :=
  (.seq (.imp (n% "typing"))
  (.seq (.imps (n% "Utrie2") (.cons (.name (n% "UTrie2")) .nil))
  (.seq (.imps (n% "CharPropsData") .nil)
  (.seq (.imps (n% "uprops_h") .nil)
  (.seq (.imps (n% "uscript_h") .nil)
  (.seq (.imps (n% "Characters") .nil)
  (.seq (.imps (n% "GeneralCategories") .nil)
  (.seq (.assign (.name (n% "propsTrie")) (.call (.name (n% "UTrie2")) (.cons (.name (n% "propsTrie_index")) (.cons (.name (n% "propsTrie_index_length")) (.cons (.name (n% "propsTrie_index_2_null_offset")) (.cons (.name (n% "propsTrie_data_null_offset")) (.cons (.name (n% "propsTrie_high_start")) (.cons (.name (n% "propsTrie_high_value_index")) .nil))))))))
  (.seq (.assign (.name (n% "propsVectorTrie")) (.call (.name (n% "UTrie2")) (.cons (.name (n% "propsVectorsTrie_index")) (.cons (.name (n% "propsVectorsTrie_index_length")) (.cons (.name (n% "propsVectorsTrie_index_2_null_offset")) (.cons (.name (n% "propsVectorsTrie_data_null_offset")) (.cons (.name (n% "propsVectorsTrie_high_start")) (.cons (.name (n% "propsVectorsTrie_high_value_index")) .nil))))))))
  (.seq unicodePropertiesFromVecIndex
  (.seq getUnicodeProperties
  (.seq generalCategoryFromProps
  (.seq getGeneralCategory
  (.seq gcMask
  (.seq isLower
  (.seq isUpper
  (.seq isTitle
  (.seq isDigit
  (.seq isHexDigit
  (.seq isalpha
  (.seq isAlphabetic
  (.seq isalnum
  (.seq isalnumPOSIX
  (.seq isDefined
  (.seq isbase
  (.seq iscntrl
  (.seq isISOControl
  (.seq isThatControlSpace
  (.seq isThatASCIIControlSpace
  (.seq isspace
  (.seq isJavaSpaceChar
  (.seq isWhiteSpace
  (.seq isBlank
  (.seq isUWhiteSpace
  (.seq isPrint
  (.seq isPrintPOSIX
  (.seq isgraph
  (.seq isGraphPOSIX
  (.seq ispunct
  (.seq isIDStart
  (.seq isIDPart
  (.seq isIDIgnorable
  (.seq isJavaIDStart
  (.seq isJavaIDPart
  (.seq digitValue
  (.seq numericTypeFromProps
  (.seq getNumericType
  (.seq numericTypeValueFromProps
  (.seq getNumericTypeValue
  (.seq numericValueFromProps
  (.seq getNumericValue
  (.seq ageFromProps
  (.seq getAge
  (.seq mergeScriptCodeOrIndex
  (.seq scriptFromVecIndex
  (.seq getScript
  (.seq blockFromVecIndex
  (.seq getBlock
  (.seq eastAsianWidthFromVecIndex
  (.seq getEastAsianWidth
  (.seq lineBreakFromVecIndex
  (.seq getLineBreak
  (.seq sentenceBreakFromVecIndex
  (.seq getSentenceBreak
  (.seq wordBreakFromVecIndex
  (.seq getWordBreak
  (.seq graphemeClusterBreakFromVecIndex
  (.seq getGraphemeClusterBreak
  (.seq decompTypeFromVecIndex
  (.seq getDecompType
  (.seq binaryPropFromVecIndex
  (.seq getBinaryProp
  (.seq isExtendedPictograph
  (.seq isEmojiComponent
  (.seq isEmoji
  (.seq isEmojiPresentation
  (.seq isEmojiModifier
  (.seq isEmojiModifierBase .skip))))))))))))))))))))))))))))))))))))))))))))))))))))))))))))))))))))))))))))))

end CharProps

namespace BidiProps

/-- UnicodeData/BidiProps.py:51-52 -/
def getClassFromProps : Stmt :=
  (.defn (n% "getClassFromProps") (.cons (.name (n% "props")) .nil) (.seq (.ret (.bin .and (.name (n% "props")) (.name (n% "UBIDI_CLASS_MASK")))) .skip))

/-- UnicodeData/BidiProps.py:54-55 -/
def getFlagFromProps : Stmt :=
  (.defn (n% "getFlagFromProps") (.cons (.name (n% "props")) (.cons (.name (n% "shift")) .nil)) (.seq (.ret (.bin .ne (.bin .and (.bin .shr (.name (n% "props")) (.name (n% "shift"))) (.num 1)) (.num 0))) .skip))

/-- UnicodeData/BidiProps.py:57-58 -/
def getMirrorDeltaFromProps : Stmt :=
  (.defn (n% "getMirrorDeltaFromProps") (.cons (.name (n% "props")) .nil) (.seq (.ret (.call (.name (n% "arithmeticShift")) (.cons (.name (n% "props")) (.cons (.num 16) (.cons (.name (n% "UBIDI_MIRROR_DELTA_BITS")) .nil))))) .skip))

/-- UnicodeData/BidiProps.py:72-73 -/
def getMirrorCodePointFromProps : Stmt :=
  (.defn (n% "getMirrorCodePointFromProps") (.cons (.name (n% "m")) .nil) (.seq (.ret (.bin .and (.name (n% "m")) (.num 0x1fffff))) .skip))

/-- UnicodeData/BidiProps.py:75-76 -/
def getMirrorIndexFromProps : Stmt :=
  (.defn (n% "getMirrorIndexFromProps") (.cons (.name (n% "m")) .nil) (.seq (.ret (.bin .shr (.name (n% "m")) (.name (n% "UBIDI_MIRROR_INDEX_SHIFT")))) .skip))

/-- UnicodeData/BidiProps.py:78-80 -/
def getCharDirection : Stmt :=
  (.defn (n% "getCharDirection") (.cons (.name (n% "c")) .nil) (.seq (.assign (.name (n% "props")) (.call (.attr (.name (n% "bidiPropsTrie")) (n% "get")) (.cons (.name (n% "c")) .nil))) (.seq (.ret (.call (.name (n% "getClassFromProps")) (.cons (.name (n% "props")) .nil))) .skip)))

/-- UnicodeData/BidiProps.py:82-84 -/
def isMirrored : Stmt :=
  (.defn (n% "isMirrored") (.cons (.name (n% "c")) .nil) (.seq (.assign (.name (n% "props")) (.call (.attr (.name (n% "bidiPropsTrie")) (n% "get")) (.cons (.name (n% "c")) .nil))) (.seq (.ret (.call (.name (n% "getFlagFromProps")) (.cons (.name (n% "props")) (.cons (.name (n% "UBIDI_IS_MIRRORED_SHIFT")) .nil)))) .skip)))

/-- UnicodeData/BidiProps.py:86-102 -/
def getMirrorFromProps : Stmt :=
  (.defn (n% "getMirrorFromProps") (.cons (.name (n% "c")) (.cons (.name (n% "props")) .nil)) (.seq (.assign (.name (n% "delta")) (.call (.name (n% "getMirrorDeltaFromProps")) (.cons (.name (n% "props")) .nil))) (.seq (.ifs (.bin .ne (.name (n% "delta")) (.name (n% "UBIDI_ESC_MIRROR_DELTA"))) (.seq (.ret (.bin .add (.name (n% "c")) (.name (n% "delta")))) .skip) .skip) (.seq (.for (.name (n% "m")) (.name (n% "ubidi_props_mirrors")) (.seq (.assign (.name (n% "c2")) (.call (.name (n% "getMirrorCodePointFromProps")) (.cons (.name (n% "m")) .nil))) (.seq (.ifs (.bin .eq (.name (n% "c")) (.name (n% "c2"))) (.seq (.assign (.name (n% "mirrorIndex")) (.call (.name (n% "getMirrorIndexFromProps")) (.cons (.name (n% "m")) .nil))) (.seq (.ret (.call (.name (n% "getMirrorCodePointFromProps")) (.cons (.index (.name (n% "ubidi_props_mirrors")) (.name (n% "mirrorIndex"))) .nil))) .skip)) .skip) (.seq (.ifs (.bin .lt (.name (n% "c")) (.name (n% "c2"))) (.seq .brk .skip) .skip) .skip)))) (.seq (.ret (.name (n% "c"))) .skip)))))

/-- UnicodeData/BidiProps.py:104-106 -/
def getMirror : Stmt :=
  (.defn (n% "getMirror") (.cons (.name (n% "c")) .nil) (.seq (.assign (.name (n% "props")) (.call (.attr (.name (n% "bidiPropsTrie")) (n% "get")) (.cons (.name (n% "c")) .nil))) (.seq (.ret (.call (.name (n% "getMirrorFromProps")) (.cons (.name (n% "c")) (.cons (.name (n% "props")) .nil)))) .skip)))

/-- UnicodeData/BidiProps.py:108-110 -/
def isBidiControl : Stmt :=
  (.defn (n% "isBidiControl") (.cons (.name (n% "c")) .nil) (.seq (.assign (.name (n% "props")) (.call (.attr (.name (n% "bidiPropsTrie")) (n% "get")) (.cons (.name (n% "c")) .nil))) (.seq (.ret (.call (.name (n% "getFlagFromProps")) (.cons (.name (n% "props")) (.cons (.name (n% "UBIDI_BIDI_CONTROL_SHIFT")) .nil)))) .skip)))

/-- UnicodeData/BidiProps.py:112-114 -/
def isJoinControl : Stmt :=
  (.defn (n% "isJoinControl") (.cons (.name (n% "c")) .nil) (.seq (.assign (.name (n% "props")) (.call (.attr (.name (n% "bidiPropsTrie")) (n% "get")) (.cons (.name (n% "c")) .nil))) (.seq (.ret (.call (.name (n% "getFlagFromProps")) (.cons (.name (n% "props")) (.cons (.name (n% "UBIDI_JOIN_CONTROL_SHIFT")) .nil)))) .skip)))

/-- UnicodeData/BidiProps.py:116-118 -/
def getJoiningType : Stmt :=
  (.defn (n% "getJoiningType") (.cons (.name (n% "c")) .nil) (.seq (.assign (.name (n% "props")) (.call (.attr (.name (n% "bidiPropsTrie")) (n% "get")) (.cons (.name (n% "c")) .nil))) (.seq (.ret (.bin .shr (.bin .and (.name (n% "props")) (.name (n% "UBIDI_JT_MASK"))) (.name (n% "UBIDI_JT_SHIFT")))) .skip)))

/-- UnicodeData/BidiProps.py:120-133 -/
def getJoiningGroup : Stmt :=
  (.defn (n% "getJoiningGroup") (.cons (.name (n% "c")) .nil) (.seq (.assign (.name (n% "start")) (.index (.name (n% "ubidi_props_indexes")) (.name (n% "UBIDI_IX_JG_START")))) (.seq (.assign (.name (n% "limit")) (.index (.name (n% "ubidi_props_indexes")) (.name (n% "UBIDI_IX_JG_LIMIT")))) (.seq (.ifs (.bin .in' (.name (n% "c")) (.call (.name (n% "range")) (.cons (.name (n% "start")) (.cons (.name (n% "limit")) .nil)))) (.seq (.ret (.index (.name (n% "ubidi_props_jgArray")) (.bin .sub (.name (n% "c")) (.name (n% "start"))))) .skip) .skip) (.seq (.assign (.name (n% "start")) (.index (.name (n% "ubidi_props_indexes")) (.name (n% "UBIDI_IX_JG_START2")))) (.seq (.assign (.name (n% "limit")) (.index (.name (n% "ubidi_props_indexes")) (.name (n% "UBIDI_IX_JG_LIMIT2")))) (.seq (.ifs (.bin .in' (.name (n% "c")) (.call (.name (n% "range")) (.cons (.name (n% "start")) (.cons (.name (n% "limit")) .nil)))) (.seq (.ret (.index (.name (n% "ubidi_props_jgArray2")) (.bin .sub (.name (n% "c")) (.name (n% "start"))))) .skip) .skip) (.seq (.ret (.name (n% "U_JG_NO_JOINING_GROUP"))) .skip))))))))

/-- UnicodeData/BidiProps.py:135-137 -/
def getPairedBracketType : Stmt :=
  (.defn (n% "getPairedBracketType") (.cons (.name (n% "c")) .nil) (.seq (.assign (.name (n% "props")) (.call (.attr (.name (n% "bidiPropsTrie")) (n% "get")) (.cons (.name (n% "c")) .nil))) (.seq (.ret (.bin .shr (.bin .and (.name (n% "props")) (.name (n% "UBIDI_BPT_MASK"))) (.name (n% "UBIDI_BPT_SHIFT")))) .skip)))

/-- UnicodeData/BidiProps.py:139-144 -/
def getPairedBracket : Stmt :=
  (.defn (n% "getPairedBracket") (.cons (.name (n% "c")) .nil) (.seq (.assign (.name (n% "props")) (.call (.attr (.name (n% "bidiPropsTrie")) (n% "get")) (.cons (.name (n% "c")) .nil))) (.seq (.ifs (.bin .eq (.bin .and (.name (n% "props")) (.name (n% "UBIDI_BPT_MASK"))) (.num 0)) (.seq (.ret (.name (n% "c"))) .skip) .skip) (.seq (.ret (.call (.name (n% "getMirrorFromProps")) (.cons (.name (n% "c")) (.cons (.name (n% "props")) .nil)))) .skip))))

/-- UnicodeData/BidiProps.py, all of it. -/
def module : Stmt :=
  (.seq (.expr (.str [66, 97, 115, 101, 100, 32, 111, 110, 32, 117, 98, 105, 100, 105, 95, 112, 114, 111, 112, 115, 46, 104, 44, 32, 117, 98, 105, 100, 105, 95, 112, 114, 111, 112, 115, 46, 99, 112, 112, 32, 102, 114, 111, 109, 32, 73, 67, 85, 10, 10, 67, 114, 101, 97, 116, 101, 100, 32, 111, 110, 32, 77, 97, 121, 32, 49, 44, 32, 50, 48, 50, 48, 10, 10, 64, 97, 117, 116, 104, 111, 114, 32, 69, 114, 105, 99, 32, 77, 97, 100, 101, 114, 10]))
  (.seq (.imps (n% "BidiPropsData") .nil)
  (.seq (.imps (n% "Utrie2") (.cons (.name (n% "UTrie2")) .nil))
  (.seq (.imps (n% "uchar_h") .nil)
  (.seq (.imps (n% "Utilities") (.cons (.name (n% "arithmeticShift")) .nil))
  (.seq (.assign (.name (n% "UBIDI_IX_INDEX_TOP")) (.num 0))
  (.seq (.assign (.name (n% "UBIDI_IX_LENGTH")) (.num 1))
  (.seq (.assign (.name (n% "UBIDI_IX_TRIE_SIZE")) (.num 2))
  (.seq (.assign (.name (n% "UBIDI_IX_MIRROR_LENGTH")) (.num 3))
  (.seq (.assign (.name (n% "UBIDI_IX_JG_START")) (.num 4))
  (.seq (.assign (.name (n% "UBIDI_IX_JG_LIMIT")) (.num 5))
  (.seq (.assign (.name (n% "UBIDI_IX_JG_START2")) (.num 6))
  (.seq (.assign (.name (n% "UBIDI_IX_JG_LIMIT2")) (.num 7))
  (.seq (.assign (.name (n% "UBIDI_MAX_VALUES_INDEX")) (.tuple (.cons (.num 15) .nil)))
  (.seq (.assign (.name (n% "UBIDI_IX_TOP")) (.num 16))
  (.seq (.assign (.name (n% "UBIDI_CLASS_SHIFT")) (.num 0))
  (.seq (.assign (.name (n% "UBIDI_JT_SHIFT")) (.num 5))
  (.seq (.assign (.name (n% "UBIDI_BPT_SHIFT")) (.num 8))
  (.seq (.assign (.name (n% "UBIDI_JOIN_CONTROL_SHIFT")) (.num 10))
  (.seq (.assign (.name (n% "UBIDI_BIDI_CONTROL_SHIFT")) (.num 11))
  (.seq (.assign (.name (n% "UBIDI_IS_MIRRORED_SHIFT")) (.num 12))
  (.seq (.assign (.name (n% "UBIDI_MIRROR_DELTA_SHIFT")) (.num 13))
  (.seq (.assign (.name (n% "UBIDI_MIRROR_DELTA_BITS")) (.bin .sub (.num 16) (.name (n% "UBIDI_MIRROR_DELTA_SHIFT"))))
  (.seq (.assign (.name (n% "UBIDI_MAX_JG_SHIFT")) (.num 16))
  (.seq (.assign (.name (n% "UBIDI_CLASS_MASK")) (.num 0x1f))
  (.seq (.assign (.name (n% "UBIDI_JT_MASK")) (.num 0xe0))
  (.seq (.assign (.name (n% "UBIDI_BPT_MASK")) (.num 0x300))
  (.seq (.assign (.name (n% "UBIDI_MAX_JG_MASK")) (.num 0xff0000))
  (.seq getClassFromProps
  (.seq getFlagFromProps
  (.seq getMirrorDeltaFromProps
  (.seq (.assign (.name (n% "UBIDI_ESC_MIRROR_DELTA")) (.neg (.num 4)))
  (.seq (.assign (.name (n% "UBIDI_MIN_MIRROR_DELTA")) (.neg (.num 3)))
  (.seq (.assign (.name (n% "UBIDI_MAX_MIRROR_DELTA")) (.num 3))
  (.seq (.assign (.name (n% "UBIDI_MIRROR_INDEX_SHIFT")) (.num 21))
  (.seq (.assign (.name (n% "UBIDI_MAX_MIRROR_INDEX")) (.num 0x7ff))
  (.seq (.assign (.name (n% "bidiPropsTrie")) (.call (.name (n% "UTrie2")) (.cons (.name (n% "ubidi_props_trieIndex")) (.cons (.name (n% "ubidi_props_trie_index_length")) (.cons (.name (n% "ubidi_props_trie_index_2_null_offset")) (.cons (.name (n% "ubidi_props_trie_data_null_offset")) (.cons (.name (n% "ubidi_props_trie_high_start")) (.cons (.name (n% "ubidi_props_trie_high_value_index")) .nil))))))))
  (.seq getMirrorCodePointFromProps
  (.seq getMirrorIndexFromProps
  (.seq getCharDirection
  (.seq isMirrored
  (.seq getMirrorFromProps
  (.seq getMirror
  (.seq isBidiControl
  (.seq isJoinControl
  (.seq getJoiningType
  (.seq getJoiningGroup
  (.seq getPairedBracketType
  (.seq getPairedBracket .skip)))))))))))))))))))))))))))))))))))))))))))))))))

end BidiProps

namespace CaseProps

/-- UnicodeData/CaseProps.py:120-121 -/
def getDeltaFromProps : Stmt :=
  (.defn (n% "getDeltaFromProps") (.cons (.name (n% "props")) .nil) (.seq (.ret (.call (.name (n% "arithmeticShift")) (.cons (.name (n% "props")) (.cons (.name (n% "UCASE_PROPS_BITS")) (.cons (.name (n% "UCASE_DELTA_BITS")) .nil))))) .skip))

/-- UnicodeData/CaseProps.py:123-124 -/
def getTypeFromProps : Stmt :=
  (.defn (n% "getTypeFromProps") (.cons (.name (n% "props")) .nil) (.seq (.ret (.bin .and (.name (n% "props")) (.name (n% "UCASE_TYPE_MASK")))) .skip))

/-- UnicodeData/CaseProps.py:126-127 -/
def getTypeAndIgnorableFromProps : Stmt :=
  (.defn (n% "getTypeAndIgnorableFromProps") (.cons (.name (n% "props")) .nil) (.seq (.ret (.bin .and (.name (n% "props")) (.bin .or (.name (n% "UCASE_TYPE_MASK")) (.name (n% "UCASE_IGNORABLE"))))) .skip))

/-- UnicodeData/CaseProps.py:129-130 -/
def isUpperOrTitle : Stmt :=
  (.defn (n% "isUpperOrTitle") (.cons (.name (n% "props")) .nil) (.seq (.ret (.bin .ne (.bin .and (.name (n% "props")) (.bin .and (.name (n% "UCASE_UPPER")) (.name (n% "UCASE_TITLE")))) (.num 0))) .skip))

/-- UnicodeData/CaseProps.py:132-133 -/
def hasException : Stmt :=
  (.defn (n% "hasException") (.cons (.name (n% "props")) .nil) (.seq (.ret (.bin .ne (.bin .and (.name (n% "props")) (.name (n% "UCASE_EXCEPTION"))) (.num 0))) .skip))

/-- UnicodeData/CaseProps.py:135-136 -/
def hasSlot : Stmt :=
  (.defn (n% "hasSlot") (.cons (.name (n% "flags")) (.cons (.name (n% "index")) .nil)) (.seq (.ret (.bin .ne (.bin .and (.name (n% "flags")) (.bin .shl (.num 1) (.name (n% "index")))) (.num 0))) .skip))

/-- UnicodeData/CaseProps.py:138-139 -/
def slotOffset : Stmt :=
  (.defn (n% "slotOffset") (.cons (.name (n% "flags")) (.cons (.name (n% "index")) .nil)) (.seq (.ret (.index (.name (n% "flagsOffset")) (.bin .and (.name (n% "flags")) (.bin .sub (.bin .shl (.num 1) (.name (n% "index"))) (.num 1))))) .skip))

/-- UnicodeData/CaseProps.py:141-148 -/
def getSlotValue : Stmt :=
  (.defn (n% "getSlotValue") (.cons (.name (n% "excWord")) (.cons (.name (n% "index")) (.cons (.name (n% "exceptionIndex")) .nil))) (.seq (.assign (.name (n% "slot_offset")) (.call (.name (n% "slotOffset")) (.cons (.name (n% "excWord")) (.cons (.name (n% "index")) .nil)))) (.seq (.ifs (.bin .eq (.bin .and (.name (n% "excWord")) (.name (n% "UCASE_EXC_DOUBLE_SLOTS"))) (.num 0)) (.seq (.aug .add (.name (n% "exceptionIndex")) (.name (n% "slot_offset"))) (.seq (.ret (.tuple (.cons (.index (.name (n% "ucase_props_exceptions")) (.name (n% "exceptionIndex"))) (.cons (.name (n% "slot_offset")) .nil)))) .skip)) .skip) (.seq (.aug .add (.name (n% "exceptionIndex")) (.bin .mul (.num 2) (.name (n% "slot_offset")))) (.seq (.ret (.tuple (.cons (.bin .or (.bin .shl (.index (.name (n% "ucase_props_exceptions")) (.name (n% "exceptionIndex"))) (.num 16)) (.index (.name (n% "ucase_props_exceptions")) (.bin .add (.name (n% "exceptionIndex")) (.num 1)))) (.cons (.bin .add (.bin .mul (.num 2) (.name (n% "slot_offset"))) (.num 1)) .nil)))) .skip)))))

/-- UnicodeData/CaseProps.py:150-168 -/
def toLower : Stmt :=
  (.defn (n% "toLower") (.cons (.name (n% "c")) .nil) (.seq (.assign (.name (n% "props")) (.call (.attr (.name (n% "casePropsTrie")) (n% "get")) (.cons (.name (n% "c")) .nil))) (.seq (.ifs (.not (.call (.name (n% "hasException")) (.cons (.name (n% "props")) .nil))) (.seq (.ifs (.call (.name (n% "isUpperOrTitle")) (.cons (.name (n% "props")) .nil)) (.seq (.aug .add (.name (n% "c")) (.call (.name (n% "getDeltaFromProps")) (.cons (.name (n% "props")) .nil))) .skip) .skip) .skip) (.seq (.assign (.name (n% "exceptionIndex")) (.bin .shr (.name (n% "props")) (.name (n% "UCASE_EXC_SHIFT")))) (.seq (.assign (.name (n% "excWord")) (.index (.name (n% "ucase_props_exceptions")) (.name (n% "exceptionIndex")))) (.seq (.aug .add (.name (n% "exceptionIndex")) (.num 1)) (.seq (.ifs (.and (.call (.name (n% "hasSlot")) (.cons (.name (n% "excWord")) (.cons (.name (n% "UCASE_EXC_DELTA")) .nil))) (.call (.name (n% "isUpperOrTitle")) (.cons (.name (n% "props")) .nil))) (.seq (.assign (.tuple (.cons (.name (n% "delta")) (.cons (.name (n% "_")) .nil))) (.call (.name (n% "getSlotValue")) (.cons (.name (n% "excWord")) (.cons (.name (n% "UCASE_EXC_DELTA")) (.cons (.name (n% "exceptionIndex")) .nil))))) (.seq (.ret (.cond (.bin .eq (.bin .and (.name (n% "excWord")) (.name (n% "UCASE_EXC_DELTA_IS_NEGATIVE"))) (.num 0)) (.bin .add (.name (n% "c")) (.name (n% "delta"))) (.bin .sub (.name (n% "c")) (.name (n% "delta"))))) .skip)) .skip) (.seq (.ifs (.call (.name (n% "hasSlot")) (.cons (.name (n% "excWord")) (.cons (.name (n% "UCASE_EXC_LOWER")) .nil))) (.seq (.assign (.tuple (.cons (.name (n% "c")) (.cons (.name (n% "_")) .nil))) (.call (.name (n% "getSlotValue")) (.cons (.name (n% "excWord")) (.cons (.name (n% "UCASE_EXC_LOWER")) (.cons (.name (n% "exceptionIndex")) .nil))))) .skip) .skip) .skip)))))) (.seq (.ret (.name (n% "c"))) .skip))))

/-- UnicodeData/CaseProps.py:170-187 -/
def toUpper : Stmt :=
  (.defn (n% "toUpper") (.cons (.name (n% "c")) .nil) (.seq (.assign (.name (n% "props")) (.call (.attr (.name (n% "casePropsTrie")) (n% "get")) (.cons (.name (n% "c")) .nil))) (.seq (.ifs (.not (.call (.name (n% "hasException")) (.cons (.name (n% "props")) .nil))) (.seq (.ifs (.bin .eq (.call (.name (n% "getTypeFromProps")) (.cons (.name (n% "props")) .nil)) (.name (n% "UCASE_LOWER"))) (.seq (.aug .add (.name (n% "c")) (.call (.name (n% "getDeltaFromProps")) (.cons (.name (n% "props")) .nil))) .skip) .skip) .skip) (.seq (.assign (.name (n% "exceptionIndex")) (.bin .shr (.name (n% "props")) (.name (n% "UCASE_EXC_SHIFT")))) (.seq (.assign (.name (n% "excWord")) (.index (.name (n% "ucase_props_exceptions")) (.name (n% "exceptionIndex")))) (.seq (.aug .add (.name (n% "exceptionIndex")) (.num 1)) (.seq (.ifs (.and (.call (.name (n% "hasSlot")) (.cons (.name (n% "excWord")) (.cons (.name (n% "UCASE_EXC_DELTA")) .nil))) (.bin .eq (.call (.name (n% "getTypeFromProps")) (.cons (.name (n% "props")) .nil)) (.name (n% "UCASE_LOWER")))) (.seq (.assign (.tuple (.cons (.name (n% "delta")) (.cons (.name (n% "_")) .nil))) (.call (.name (n% "getSlotValue")) (.cons (.name (n% "excWord")) (.cons (.name (n% "UCASE_EXC_DELTA")) (.cons (.name (n% "exceptionIndex")) .nil))))) (.seq (.ret (.cond (.bin .eq (.bin .and (.name (n% "excWord")) (.name (n% "UCASE_EXC_DELTA_IS_NEGATIVE"))) (.num 0)) (.bin .add (.name (n% "c")) (.name (n% "delta"))) (.bin .sub (.name (n% "c")) (.name (n% "delta"))))) .skip)) .skip) (.seq (.ifs (.call (.name (n% "hasSlot")) (.cons (.name (n% "excWord")) (.cons (.name (n% "UCASE_EXC_UPPER")) .nil))) (.seq (.assign (.tuple (.cons (.name (n% "c")) (.cons (.name (n% "_")) .nil))) (.call (.name (n% "getSlotValue")) (.cons (.name (n% "excWord")) (.cons (.name (n% "UCASE_EXC_UPPER")) (.cons (.name (n% "exceptionIndex")) .nil))))) .skip) .skip) .skip)))))) (.seq (.ret (.name (n% "c"))) .skip))))

/-- UnicodeData/CaseProps.py:189-207 -/
def toTitle : Stmt :=
  (.defn (n% "toTitle") (.cons (.name (n% "c")) .nil) (.seq (.assign (.name (n% "props")) (.call (.attr (.name (n% "casePropsTrie")) (n% "get")) (.cons (.name (n% "c")) .nil))) (.seq (.ifs (.not (.call (.name (n% "hasException")) (.cons (.name (n% "props")) .nil))) (.seq (.ifs (.bin .eq (.call (.name (n% "getTypeFromProps")) (.cons (.name (n% "props")) .nil)) (.name (n% "UCASE_LOWER"))) (.seq (.aug .add (.name (n% "c")) (.call (.name (n% "getDeltaFromProps")) (.cons (.name (n% "props")) .nil))) .skip) .skip) .skip) (.seq (.assign (.name (n% "exceptionIndex")) (.bin .shr (.name (n% "props")) (.name (n% "UCASE_EXC_SHIFT")))) (.seq (.assign (.name (n% "excWord")) (.index (.name (n% "ucase_props_exceptions")) (.name (n% "exceptionIndex")))) (.seq (.aug .add (.name (n% "exceptionIndex")) (.num 1)) (.seq (.ifs (.and (.call (.name (n% "hasSlot")) (.cons (.name (n% "excWord")) (.cons (.name (n% "UCASE_EXC_DELTA")) .nil))) (.bin .eq (.call (.name (n% "getTypeFromProps")) (.cons (.name (n% "props")) .nil)) (.name (n% "UCASE_LOWER")))) (.seq (.assign (.tuple (.cons (.name (n% "delta")) (.cons (.name (n% "_")) .nil))) (.call (.name (n% "getSlotValue")) (.cons (.name (n% "excWord")) (.cons (.name (n% "UCASE_EXC_DELTA")) (.cons (.name (n% "exceptionIndex")) .nil))))) (.seq (.ret (.cond (.bin .eq (.bin .and (.name (n% "excWord")) (.name (n% "UCASE_EXC_DELTA_IS_NEGATIVE"))) (.num 0)) (.bin .add (.name (n% "c")) (.name (n% "delta"))) (.bin .sub (.name (n% "c")) (.name (n% "delta"))))) .skip)) .skip) (.seq (.for (.name (n% "slot")) (.list (.cons (.name (n% "UCASE_EXC_TITLE")) (.cons (.name (n% "UCASE_EXC_UPPER")) .nil))) (.seq (.ifs (.call (.name (n% "hasSlot")) (.cons (.name (n% "excWord")) (.cons (.name (n% "slot")) .nil))) (.seq (.ret (.index (.call (.name (n% "getSlotValue")) (.cons (.name (n% "excWord")) (.cons (.name (n% "slot")) (.cons (.name (n% "exceptionIndex")) .nil)))) (.num 0))) .skip) .skip) .skip)) .skip)))))) (.seq (.ret (.name (n% "c"))) .skip))))

/-- UnicodeData/CaseProps.py:210-246 -/
def toFullLower : Stmt :=
  (.defn (n% "toFullLower") (.cons (.name (n% "c")) .nil) (.seq (.assign (.name (n% "result")) (.call (.name (n% "chr")) (.cons (.name (n% "c")) .nil))) (.seq (.assign (.name (n% "props")) (.call (.attr (.name (n% "casePropsTrie")) (n% "get")) (.cons (.name (n% "c")) .nil))) (.seq (.ifs (.not (.call (.name (n% "hasException")) (.cons (.name (n% "props")) .nil))) (.seq (.ifs (.call (.name (n% "isUpperOrTitle")) (.cons (.name (n% "props")) .nil)) (.seq (.ret (.call (.name (n% "chr")) (.cons (.bin .add (.name (n% "c")) (.call (.name (n% "getDeltaFromProps")) (.cons (.name (n% "props")) .nil))) .nil))) .skip) .skip) .skip) (.seq (.assign (.name (n% "exceptionIndex")) (.bin .shr (.name (n% "props")) (.name (n% "UCASE_EXC_SHIFT")))) (.seq (.assign (.name (n% "excWord")) (.index (.name (n% "ucase_props_exceptions")) (.name (n% "exceptionIndex")))) (.seq (.aug .add (.name (n% "exceptionIndex")) (.num 1)) (.seq (.assign (.name (n% "exceptionIndex2")) (.name (n% "exceptionIndex"))) (.seq (.ifs (.bin .ne (.bin .and (.name (n% "excWord")) (.name (n% "UCASE_EXC_CONDITIONAL_SPECIAL"))) (.num 0)) (.seq (.ifs (.bin .eq (.name (n% "c")) (.num 0x130)) (.seq (.ret (.str [105, 775])) .skip) .skip) .skip) (.seq (.ifs (.call (.name (n% "hasSlot")) (.cons (.name (n% "excWord")) (.cons (.name (n% "UCASE_EXC_FULL_MAPPINGS")) .nil))) (.seq (.assign (.tuple (.cons (.name (n% "full")) (.cons (.name (n% "offset")) .nil))) (.call (.name (n% "getSlotValue")) (.cons (.name (n% "excWord")) (.cons (.name (n% "UCASE_EXC_FULL_MAPPINGS")) (.cons (.name (n% "exceptionIndex")) .nil))))) (.seq (.aug .and (.name (n% "full")) (.name (n% "UCASE_FULL_LOWER"))) (.seq (.ifs (.bin .ne (.name (n% "full")) (.num 0)) (.seq (.assign (.name (n% "chars")) (.list .nil)) (.seq (.aug .add (.name (n% "exceptionIndex")) (.bin .add (.name (n% "offset")) (.num 1))) (.seq (.for (.name (n% "i")) (.call (.name (n% "range")) (.cons (.name (n% "full")) .nil)) (.seq (.expr (.call (.attr (.name (n% "chars")) (n% "append")) (.cons (.call (.name (n% "chr")) (.cons (.index (.name (n% "ucase_props_exceptions")) (.bin .add (.name (n% "exceptionIndex")) (.name (n% "i")))) .nil)) .nil))) .skip)) (.seq (.ret (.call (.attr (.str []) (n% "join")) (.cons (.name (n% "chars")) .nil))) .skip)))) .skip) .skip))) .skip) .skip)) (.seq (.ifs (.and (.call (.name (n% "hasSlot")) (.cons (.name (n% "excWord")) (.cons (.name (n% "UCASE_EXC_DELTA")) .nil))) (.call (.name (n% "isUpperOrTitle")) (.cons (.name (n% "props")) .nil))) (.seq (.assign (.tuple (.cons (.name (n% "delta")) (.cons (.name (n% "_")) .nil))) (.call (.name (n% "getSlotValue")) (.cons (.name (n% "excWord")) (.cons (.name (n% "UCASE_EXC_DELTA")) (.cons (.name (n% "exceptionIndex2")) .nil))))) (.seq (.ret (.call (.name (n% "chr")) (.cons (.cond (.bin .eq (.bin .and (.name (n% "excWord")) (.name (n% "UCASE_EXC_DELTA_IS_NEGATIVE"))) (.num 0)) (.bin .add (.name (n% "c")) (.name (n% "delta"))) (.bin .sub (.name (n% "c")) (.name (n% "delta")))) .nil))) .skip)) .skip) (.seq (.ifs (.call (.name (n% "hasSlot")) (.cons (.name (n% "excWord")) (.cons (.name (n% "UCASE_EXC_LOWER")) .nil))) (.seq (.assign (.tuple (.cons (.name (n% "ch")) (.cons (.name (n% "_")) .nil))) (.call (.name (n% "getSlotValue")) (.cons (.name (n% "excWord")) (.cons (.name (n% "UCASE_EXC_LOWER")) (.cons (.name (n% "exceptionIndex2")) .nil))))) (.seq (.ret (.call (.name (n% "chr")) (.cons (.name (n% "ch")) .nil))) .skip)) .skip) .skip)))))))) (.seq (.ret (.name (n% "result"))) .skip)))))

/-- UnicodeData/CaseProps.py:249-305 -/
def toUpperOrTitle : Stmt :=
  (.defn (n% "toUpperOrTitle") (.cons (.name (n% "c")) (.cons (.name (n% "upperNotTitle")) .nil)) (.seq (.assign (.name (n% "result")) (.call (.name (n% "chr")) (.cons (.name (n% "c")) .nil))) (.seq (.assign (.name (n% "props")) (.call (.attr (.name (n% "casePropsTrie")) (n% "get")) (.cons (.name (n% "c")) .nil))) (.seq (.ifs (.not (.call (.name (n% "hasException")) (.cons (.name (n% "props")) .nil))) (.seq (.ifs (.bin .eq (.call (.name (n% "getTypeFromProps")) (.cons (.name (n% "props")) .nil)) (.name (n% "UCASE_LOWER"))) (.seq (.assign (.name (n% "result")) (.call (.name (n% "chr")) (.cons (.bin .add (.name (n% "c")) (.call (.name (n% "getDeltaFromProps")) (.cons (.name (n% "props")) .nil))) .nil))) .skip) .skip) .skip) (.seq (.assign (.name (n% "exceptionIndex")) (.bin .shr (.name (n% "props")) (.name (n% "UCASE_EXC_SHIFT")))) (.seq (.assign (.name (n% "excWord")) (.index (.name (n% "ucase_props_exceptions")) (.name (n% "exceptionIndex")))) (.seq (.aug .add (.name (n% "exceptionIndex")) (.num 1)) (.seq (.assign (.name (n% "exceptionIndex2")) (.name (n% "exceptionIndex"))) (.seq (.ifs (.bin .ne (.bin .and (.name (n% "excWord")) (.name (n% "UCASE_EXC_CONDITIONAL_SPECIAL"))) (.num 0)) (.seq (.ifs (.bin .eq (.name (n% "c")) (.num 0x587)) (.seq (.ret (.cond (.name (n% "upperNotTitle")) (.str [1333, 1362]) (.str [1333, 1410]))) .skip) .skip) .skip) (.seq (.ifs (.call (.name (n% "hasSlot")) (.cons (.name (n% "excWord")) (.cons (.name (n% "UCASE_EXC_FULL_MAPPINGS")) .nil))) (.seq (.assign (.tuple (.cons (.name (n% "full")) (.cons (.name (n% "offset")) .nil))) (.call (.name (n% "getSlotValue")) (.cons (.name (n% "excWord")) (.cons (.name (n% "UCASE_EXC_FULL_MAPPINGS")) (.cons (.name (n% "exceptionIndex")) .nil))))) (.seq (.aug .add (.name (n% "exceptionIndex")) (.bin .add (.bin .add (.name (n% "offset")) (.num 1)) (.bin .and (.name (n% "full")) (.name (n% "UCASE_FULL_LOWER"))))) (.seq (.aug .shr (.name (n% "full")) (.num 4)) (.seq (.aug .add (.name (n% "exceptionIndex")) (.bin .and (.name (n% "full")) (.num 0xf))) (.seq (.aug .shr (.name (n% "full")) (.num 4)) (.seq (.ifs (.name (n% "upperNotTitle")) (.seq (.aug .and (.name (n% "full")) (.num 0xf)) .skip) (.seq (.aug .add (.name (n% "exceptionIndex")) (.bin .and (.name (n% "full")) (.num 0xf))) (.seq (.assign (.name (n% "full")) (.bin .and (.bin .shr (.name (n% "full")) (.num 4)) (.num 0xf))) .skip))) (.seq (.ifs (.bin .ne (.name (n% "full")) (.num 0)) (.seq (.assign (.name (n% "chars")) (.list .nil)) (.seq (.for (.name (n% "i")) (.call (.name (n% "range")) (.cons (.name (n% "full")) .nil)) (.seq (.expr (.call (.attr (.name (n% "chars")) (n% "append")) (.cons (.call (.name (n% "chr")) (.cons (.index (.name (n% "ucase_props_exceptions")) (.bin .add (.name (n% "exceptionIndex")) (.name (n% "i")))) .nil)) .nil))) .skip)) (.seq (.ret (.call (.attr (.str []) (n% "join")) (.cons (.name (n% "chars")) .nil))) .skip))) .skip) .skip))))))) .skip) .skip)) (.seq (.ifs (.and (.call (.name (n% "hasSlot")) (.cons (.name (n% "excWord")) (.cons (.name (n% "UCASE_EXC_DELTA")) .nil))) (.bin .eq (.call (.name (n% "getTypeFromProps")) (.cons (.name (n% "props")) .nil)) (.name (n% "UCASE_LOWER")))) (.seq (.assign (.tuple (.cons (.name (n% "delta")) (.cons (.name (n% "_")) .nil))) (.call (.name (n% "getSlotValue")) (.cons (.name (n% "excWord")) (.cons (.name (n% "UCASE_EXC_DELTA")) (.cons (.name (n% "exceptionIndex2")) .nil))))) (.seq (.ret (.call (.name (n% "chr")) (.cons (.cond (.bin .eq (.bin .and (.name (n% "excWord")) (.name (n% "UCASE_EXC_DELTA_IS_NEGATIVE"))) (.num 0)) (.bin .add (.name (n% "c")) (.name (n% "delta"))) (.bin .sub (.name (n% "c")) (.name (n% "delta")))) .nil))) .skip)) .skip) (.seq (.ifs (.and (.not (.name (n% "upperNotTitle"))) (.call (.name (n% "hasSlot")) (.cons (.name (n% "excWord")) (.cons (.name (n% "UCASE_EXC_TITLE")) .nil)))) (.seq (.assign (.name (n% "idx")) (.name (n% "UCASE_EXC_TITLE"))) .skip) (.seq (.ifs (.call (.name (n% "hasSlot")) (.cons (.name (n% "excWord")) (.cons (.name (n% "UCASE_EXC_UPPER")) .nil))) (.seq (.assign (.name (n% "idx")) (.name (n% "UCASE_EXC_UPPER"))) .skip) (.seq (.ret (.name (n% "result"))) .skip)) .skip)) (.seq (.assign (.tuple (.cons (.name (n% "ch")) (.cons (.name (n% "_")) .nil))) (.call (.name (n% "getSlotValue")) (.cons (.name (n% "excWord")) (.cons (.name (n% "idx")) (.cons (.name (n% "exceptionIndex2")) .nil))))) (.seq (.ret (.call (.name (n% "chr")) (.cons (.name (n% "ch")) .nil))) .skip)))))))))) (.seq (.ret (.name (n% "result"))) .skip)))))

/-- UnicodeData/CaseProps.py:307-308 -/
def toFullUpper : Stmt :=
  (.defn (n% "toFullUpper") (.cons (.name (n% "c")) .nil) (.seq (.ret (.call (.name (n% "toUpperOrTitle")) (.cons (.name (n% "c")) (.cons (.name (n% "True")) .nil)))) .skip))

/-- UnicodeData/CaseProps.py:310-311 -/
def toFullTitle : Stmt :=
  (.defn (n% "toFullTitle") (.cons (.name (n% "c")) .nil) (.seq (.ret (.call (.name (n% "toUpperOrTitle")) (.cons (.name (n% "c")) (.cons (.name (n% "False")) .nil)))) .skip))

/-- UnicodeData/CaseProps.py, all of it. -/
def module : Stmt :=
  (.seq (.expr (.str [66, 97, 115, 101, 100, 32, 111, 110, 32, 117, 99, 97, 115, 101, 46, 104, 44, 32, 117, 99, 97, 115, 101, 95, 112, 114, 111, 112, 115, 46, 99, 112, 112, 32, 102, 114, 111, 109, 32, 73, 67, 85, 10, 10, 67, 114, 101, 97, 116, 101, 100, 32, 111, 110, 32, 77, 97, 121, 32, 56, 44, 32, 50, 48, 50, 48, 10, 10, 64, 97, 117, 116, 104, 111, 114, 32, 69, 114, 105, 99, 32, 77, 97, 100, 101, 114, 10]))
  (.seq (.imps (n% "CasePropsData") .nil)
  (.seq (.imps (n% "Utrie2") (.cons (.name (n% "UTrie2")) .nil))
  (.seq (.imps (n% "Utilities") (.cons (.name (n% "arithmeticShift")) .nil))
  (.seq (.assign (.name (n% "UCASE_IX_INDEX_TOP")) (.num 0))
  (.seq (.assign (.name (n% "UCASE_IX_LENGTH")) (.num 1))
  (.seq (.assign (.name (n% "UCASE_IX_TRIE_SIZE")) (.num 2))
  (.seq (.assign (.name (n% "UCASE_IX_EXC_LENGTH")) (.num 3))
  (.seq (.assign (.name (n% "UCASE_IX_UNFOLD_LENGTH")) (.num 4))
  (.seq (.assign (.name (n% "UCASE_IX_MAX_FULL_LENGTH")) (.num 15))
  (.seq (.assign (.name (n% "UCASE_IX_TOP")) (.num 16))
  (.seq (.assign (.name (n% "UCASE_TYPE_MASK")) (.num 3))
  (.seq (.assign (.name (n% "UCASE_NONE")) (.num 0))
  (.seq (.assign (.name (n% "UCASE_LOWER")) (.num 1))
  (.seq (.assign (.name (n% "UCASE_UPPER")) (.num 2))
  (.seq (.assign (.name (n% "UCASE_TITLE")) (.num 3))
  (.seq (.assign (.name (n% "UCASE_IGNORABLE")) (.num 4))
  (.seq (.assign (.name (n% "UCASE_EXCEPTION")) (.num 8))
  (.seq (.assign (.name (n% "UCASE_SENSITIVE")) (.num 0x10))
  (.seq (.assign (.name (n% "UCASE_DOT_MASK")) (.num 0x60))
  (.seq (.assign (.name (n% "UCASE_NO_DOT")) (.num 0))
  (.seq (.assign (.name (n% "UCASE_SOFT_DOTTED")) (.num 0x20))
  (.seq (.assign (.name (n% "UCASE_ABOVE")) (.num 0x40))
  (.seq (.assign (.name (n% "UCASE_OTHER_ACCENT")) (.num 0x60))
  (.seq (.assign (.name (n% "UCASE_PROPS_BITS")) (.num 16))
  (.seq (.assign (.name (n% "UCASE_DELTA_BITS")) (.num 9))
  (.seq (.assign (.name (n% "UCASE_DELTA_SHIFT")) (.num 7))
  (.seq (.assign (.name (n% "UCASE_DELTA_MASK")) (.num 0xff80))
  (.seq (.assign (.name (n% "UCASE_MAX_DELTA")) (.num 0xff))
  (.seq (.assign (.name (n% "UCASE_MIN_DELTA")) (.bin .sub (.neg (.name (n% "UCASE_MAX_DELTA"))) (.num 1)))
  (.seq (.assign (.name (n% "UCASE_EXC_SHIFT")) (.num 4))
  (.seq (.assign (.name (n% "UCASE_EXC_MASK")) (.num 0xfff0))
  (.seq (.assign (.name (n% "UCASE_MAX_EXCEPTIONS")) (.bin .add (.bin .shr (.name (n% "UCASE_EXC_MASK")) (.name (n% "UCASE_EXC_SHIFT"))) (.num 1)))
  (.seq (.assign (.name (n% "UCASE_EXC_LOWER")) (.num 0))
  (.seq (.assign (.name (n% "UCASE_EXC_FOLD")) (.num 1))
  (.seq (.assign (.name (n% "UCASE_EXC_UPPER")) (.num 2))
  (.seq (.assign (.name (n% "UCASE_EXC_TITLE")) (.num 3))
  (.seq (.assign (.name (n% "UCASE_EXC_DELTA")) (.num 4))
  (.seq (.assign (.name (n% "UCASE_EXC_5")) (.num 5))
  (.seq (.assign (.name (n% "UCASE_EXC_CLOSURE")) (.num 6))
  (.seq (.assign (.name (n% "UCASE_EXC_FULL_MAPPINGS")) (.num 7))
  (.seq (.assign (.name (n% "UCASE_EXC_ALL_SLOTS")) (.num 8))
  (.seq (.assign (.name (n% "UCASE_EXC_DOUBLE_SLOTS")) (.num 0x100))
  (.seq (.assign (.name (n% "UCASE_EXC_NO_SIMPLE_CASE_FOLDING")) (.num 0x200))
  (.seq (.assign (.name (n% "UCASE_EXC_DELTA_IS_NEGATIVE")) (.num 0x400))
  (.seq (.assign (.name (n% "UCASE_EXC_SENSITIVE")) (.num 0x800))
  (.seq (.assign (.name (n% "UCASE_EXC_DOT_SHIFT")) (.num 7))
  (.seq (.assign (.name (n% "UCASE_EXC_DOT_MASK")) (.bin .shl (.name (n% "UCASE_DOT_MASK")) (.name (n% "UCASE_EXC_DOT_SHIFT"))))
  (.seq (.assign (.name (n% "UCASE_EXC_NO_DOT")) (.num 0))
  (.seq (.assign (.name (n% "UCASE_EXC_SOFT_DOTTED")) (.num 0x1000))
  (.seq (.assign (.name (n% "UCASE_EXC_ABOVE")) (.num 0x2000))
  (.seq (.assign (.name (n% "UCASE_EXC_OTHER_ACCENT")) (.num 0x3000))
  (.seq (.assign (.name (n% "UCASE_EXC_CONDITIONAL_SPECIAL")) (.num 0x4000))
  (.seq (.assign (.name (n% "UCASE_EXC_CONDITIONAL_FOLD")) (.num 0x8000))
  (.seq (.assign (.name (n% "UCASE_FULL_LOWER")) (.num 0xf))
  (.seq (.assign (.name (n% "UCASE_FULL_FOLDING")) (.num 0xf0))
  (.seq (.assign (.name (n% "UCASE_FULL_UPPER")) (.num 0xf00))
  (.seq (.assign (.name (n% "UCASE_FULL_TITLE")) (.num 0xf000))
  (.seq (.assign (.name (n% "UCASE_FULL_MAPPINGS_MAX_LENGTH")) (.bin .mul (.num 4) (.num 0xf)))
  (.seq (.assign (.name (n% "UCASE_CLOSURE_MAX_LENGTH")) (.num 0xf))
  (.seq (.assign (.name (n% "UCASE_UNFOLD_ROWS")) (.num 0))
  (.seq (.assign (.name (n% "UCASE_UNFOLD_ROW_WIDTH")) (.num 1))
  (.seq (.assign (.name (n% "UCASE_UNFOLD_STRING_WIDTH")) (.num 2))
  (.seq (.assign (.name (n% "flagsOffset")) (.list (.cons (.num 0) (.cons (.num 1) (.cons (.num 1) (.cons (.num 2) (.cons (.num 1) (.cons (.num 2) (.cons (.num 2) (.cons (.num 3) (.cons (.num 1) (.cons (.num 2) (.cons (.num 2) (.cons (.num 3) (.cons (.num 2) (.cons (.num 3) (.cons (.num 3) (.cons (.num 4) (.cons (.num 1) (.cons (.num 2) (.cons (.num 2) (.cons (.num 3) (.cons (.num 2) (.cons (.num 3) (.cons (.num 3) (.cons (.num 4) (.cons (.num 2) (.cons (.num 3) (.cons (.num 3) (.cons (.num 4) (.cons (.num 3) (.cons (.num 4) (.cons (.num 4) (.cons (.num 5) (.cons (.num 1) (.cons (.num 2) (.cons (.num 2) (.cons (.num 3) (.cons (.num 2) (.cons (.num 3) (.cons (.num 3) (.cons (.num 4) (.cons (.num 2) (.cons (.num 3) (.cons (.num 3) (.cons (.num 4) (.cons (.num 3) (.cons (.num 4) (.cons (.num 4) (.cons (.num 5) (.cons (.num 2) (.cons (.num 3) (.cons (.num 3) (.cons (.num 4) (.cons (.num 3) (.cons (.num 4) (.cons (.num 4) (.cons (.num 5) (.cons (.num 3) (.cons (.num 4) (.cons (.num 4) (.cons (.num 5) (.cons (.num 4) (.cons (.num 5) (.cons (.num 5) (.cons (.num 6) (.cons (.num 1) (.cons (.num 2) (.cons (.num 2) (.cons (.num 3) (.cons (.num 2) (.cons (.num 3) (.cons (.num 3) (.cons (.num 4) (.cons (.num 2) (.cons (.num 3) (.cons (.num 3) (.cons (.num 4) (.cons (.num 3) (.cons (.num 4) (.cons (.num 4) (.cons (.num 5) (.cons (.num 2) (.cons (.num 3) (.cons (.num 3) (.cons (.num 4) (.cons (.num 3) (.cons (.num 4) (.cons (.num 4) (.cons (.num 5) (.cons (.num 3) (.cons (.num 4) (.cons (.num 4) (.cons (.num 5) (.cons (.num 4) (.cons (.num 5) (.cons (.num 5) (.cons (.num 6) (.cons (.num 2) (.cons (.num 3) (.cons (.num 3) (.cons (.num 4) (.cons (.num 3) (.cons (.num 4) (.cons (.num 4) (.cons (.num 5) (.cons (.num 3) (.cons (.num 4) (.cons (.num 4) (.cons (.num 5) (.cons (.num 4) (.cons (.num 5) (.cons (.num 5) (.cons (.num 6) (.cons (.num 3) (.cons (.num 4) (.cons (.num 4) (.cons (.num 5) (.cons (.num 4) (.cons (.num 5) (.cons (.num 5) (.cons (.num 6) (.cons (.num 4) (.cons (.num 5) (.cons (.num 5) (.cons (.num 6) (.cons (.num 5) (.cons (.num 6) (.cons (.num 6) (.cons (.num 7) (.cons (.num 1) (.cons (.num 2) (.cons (.num 2) (.cons (.num 3) (.cons (.num 2) (.cons (.num 3) (.cons (.num 3) (.cons (.num 4) (.cons (.num 2) (.cons (.num 3) (.cons (.num 3) (.cons (.num 4) (.cons (.num 3) (.cons (.num 4) (.cons (.num 4) (.cons (.num 5) (.cons (.num 2) (.cons (.num 3) (.cons (.num 3) (.cons (.num 4) (.cons (.num 3) (.cons (.num 4) (.cons (.num 4) (.cons (.num 5) (.cons (.num 3) (.cons (.num 4) (.cons (.num 4) (.cons (.num 5) (.cons (.num 4) (.cons (.num 5) (.cons (.num 5) (.cons (.num 6) (.cons (.num 2) (.cons (.num 3) (.cons (.num 3) (.cons (.num 4) (.cons (.num 3) (.cons (.num 4) (.cons (.num 4) (.cons (.num 5) (.cons (.num 3) (.cons (.num 4) (.cons (.num 4) (.cons (.num 5) (.cons (.num 4) (.cons (.num 5) (.cons (.num 5) (.cons (.num 6) (.cons (.num 3) (.cons (.num 4) (.cons (.num 4) (.cons (.num 5) (.cons (.num 4) (.cons (.num 5) (.cons (.num 5) (.cons (.num 6) (.cons (.num 4) (.cons (.num 5) (.cons (.num 5) (.cons (.num 6) (.cons (.num 5) (.cons (.num 6) (.cons (.num 6) (.cons (.num 7) (.cons (.num 2) (.cons (.num 3) (.cons (.num 3) (.cons (.num 4) (.cons (.num 3) (.cons (.num 4) (.cons (.num 4) (.cons (.num 5) (.cons (.num 3) (.cons (.num 4) (.cons (.num 4) (.cons (.num 5) (.cons (.num 4) (.cons (.num 5) (.cons (.num 5) (.cons (.num 6) (.cons (.num 3) (.cons (.num 4) (.cons (.num 4) (.cons (.num 5) (.cons (.num 4) (.cons (.num 5) (.cons (.num 5) (.cons (.num 6) (.cons (.num 4) (.cons (.num 5) (.cons (.num 5) (.cons (.num 6) (.cons (.num 5) (.cons (.num 6) (.cons (.num 6) (.cons (.num 7) (.cons (.num 3) (.cons (.num 4) (.cons (.num 4) (.cons (.num 5) (.cons (.num 4) (.cons (.num 5) (.cons (.num 5) (.cons (.num 6) (.cons (.num 4) (.cons (.num 5) (.cons (.num 5) (.cons (.num 6) (.cons (.num 5) (.cons (.num 6) (.cons (.num 6) (.cons (.num 7) (.cons (.num 4) (.cons (.num 5) (.cons (.num 5) (.cons (.num 6) (.cons (.num 5) (.cons (.num 6) (.cons (.num 6) (.cons (.num 7) (.cons (.num 5) (.cons (.num 6) (.cons (.num 6) (.cons (.num 7) (.cons (.num 6) (.cons (.num 7) (.cons (.num 7) (.cons (.num 8) .nil))))))))))))))))))))))))))))))))))))))))))))))))))))))))))))))))))))))))))))))))))))))))))))))))))))))))))))))))))))))))))))))))))))))))))))))))))))))))))))))))))))))))))))))))))))))))))))))))))))))))))))))))))))))))))))))))))))))))))))))))))))))))))))))))))
  (.seq getDeltaFromProps
  (.seq getTypeFromProps
  (.seq getTypeAndIgnorableFromProps
  (.seq isUpperOrTitle
  (.seq hasException
  (.seq hasSlot
  (.seq slotOffset
  (.seq getSlotValue
  (.seq toLower
  (.seq toUpper
  (.seq toTitle
  (.seq toFullLower
  (.seq toUpperOrTitle
  (.seq toFullUpper
  (.seq toFullTitle
  (.seq (.assign (.name (n% "casePropsTrie")) (.call (.name (n% "UTrie2")) (.cons (.name (n% "ucase_props_trieIndex")) (.cons (.name (n% "ucase_props_trie_index_length")) (.cons (.name (n% "ucase_props_trie_index_2_null_offset")) (.cons (.name (n% "ucase_props_trie_data_null_offset")) (.cons (.name (n% "ucase_props_trie_high_start")) (.cons (.name (n% "ucase_props_trie_high_value_index")) .nil)))))))) .skip))))))))))))))))))))))))))))))))))))))))))))))))))))))))))))))))))))))))))))))))

end CaseProps

namespace CPTrie

/-- UnicodeData/CPTrie.py:111-118 -/
def TrieHeader.__init__ : Stmt :=
  (.defn (n% "__init__") (.cons (.name (n% "self")) .nil) (.seq (.assign (.attr (.name (n% "self")) (n% "sig")) (.num 0)) (.seq (.assign (.attr (.name (n% "self")) (n% "options")) (.num 0)) (.seq (.assign (.attr (.name (n% "self")) (n% "indexLength")) (.num 0)) (.seq (.assign (.attr (.name (n% "self")) (n% "dataLength")) (.num 0)) (.seq (.assign (.attr (.name (n% "self")) (n% "index3NullOffset")) (.num 0)) (.seq (.assign (.attr (.name (n% "self")) (n% "dataNullOffset")) (.num 0)) (.seq (.assign (.attr (.name (n% "self")) (n% "shiftedHighStart")) (.num 0)) .skip))))))))

/-- UnicodeData/CPTrie.py:110-118 -/
def classTrieHeader : Stmt :=
  (.cls (n% "TrieHeader") .nil (.seq TrieHeader.__init__ .skip))

/-- UnicodeData/CPTrie.py:151-161 -/
def CPTrie.__init__ : Stmt :=
  (.defn (n% "__init__") (.cons (.name (n% "self")) (.cons (.name (n% "index")) (.cons (.name (n% "data")) (.cons (.name (n% "trieType")) (.cons (.name (n% "valueWidth")) (.cons (.name (n% "index3NullOffset")) (.cons (.name (n% "dataNullOffset")) (.cons (.name (n% "highStart")) (.cons (.name (n% "shifted12HighStart")) .nil))))))))) (.seq (.assign (.attr (.name (n% "self")) (n% "trieType")) (.name (n% "trieType"))) (.seq (.assign (.attr (.name (n% "self")) (n% "valueWidth")) (.name (n% "valueWidth"))) (.seq (.assign (.attr (.name (n% "self")) (n% "indexLength")) (.index (.name (n% "index")) (.num 0))) (.seq (.assign (.attr (.name (n% "self")) (n% "dataLength")) (.call (.name (n% "len")) (.cons (.name (n% "data")) .nil))) (.seq (.assign (.attr (.name (n% "self")) (n% "index3NullOffset")) (.name (n% "index3NullOffset"))) (.seq (.assign (.attr (.name (n% "self")) (n% "dataNullOffset")) (.name (n% "dataNullOffset"))) (.seq (.assign (.attr (.name (n% "self")) (n% "highStart")) (.name (n% "highStart"))) (.seq (.assign (.attr (.name (n% "self")) (n% "shifted12HighStart")) (.name (n% "shifted12HighStart"))) (.seq (.assign (.attr (.name (n% "self")) (n% "index")) (.name (n% "index"))) (.seq (.assign (.attr (.name (n% "self")) (n% "data")) (.name (n% "data"))) .skip)))))))))))

/-- UnicodeData/CPTrie.py:163-195 -/
def CPTrie.createFromData : Stmt :=
  (.deco (.name (n% "classmethod")) (.defn (n% "createFromData") (.cons (.name (n% "cls")) (.cons (.name (n% "trieData")) .nil)) (.seq (.assign (.name (n% "th")) (.call (.attr (.name (n% "sstruct")) (n% "unpack")) (.cons (.attr (.name (n% "cls")) (n% "_trieHeaderFormat")) (.cons (.slice (.name (n% "trieData")) .nil (.attr (.name (n% "cls")) (n% "_trieHeaderLength"))) (.cons (.call (.name (n% "TrieHeader")) .nil) .nil))))) (.seq (.assign (.name (n% "trieHeader")) (.call (.attr (.name (n% "typing")) (n% "cast")) (.cons (.name (n% "TrieHeader")) (.cons (.name (n% "th")) .nil)))) (.seq (.assign (.name (n% "trieType")) (.bin .and (.bin .shr (.attr (.name (n% "trieHeader")) (n% "options")) (.num 6)) (.num 3))) (.seq (.assign (.name (n% "valueWidth")) (.bin .and (.attr (.name (n% "trieHeader")) (n% "options")) (.name (n% "UCPTRIE_OPTIONS_VALUE_BITS_MASK")))) (.seq (.assign (.name (n% "indexLength")) (.attr (.name (n% "trieHeader")) (n% "indexLength"))) (.seq (.assign (.name (n% "dataLength")) (.bin .or (.bin .shl (.bin .and (.attr (.name (n% "trieHeader")) (n% "options")) (.name (n% "UCPTRIE_OPTIONS_DATA_LENGTH_MASK"))) (.num 4)) (.attr (.name (n% "trieHeader")) (n% "dataLength")))) (.seq (.assign (.name (n% "index3NullOffset")) (.attr (.name (n% "trieHeader")) (n% "index3NullOffset"))) (.seq (.assign (.name (n% "dataNullOffset")) (.bin .or (.bin .shl (.bin .and (.attr (.name (n% "trieHeader")) (n% "options")) (.name (n% "UCPTRIE_OPTIONS_DATA_NULL_OFFSET_MASK"))) (.num 8)) (.attr (.name (n% "trieHeader")) (n% "dataNullOffset")))) (.seq (.assign (.name (n% "highStart")) (.bin .shl (.attr (.name (n% "trieHeader")) (n% "shiftedHighStart")) (.name (n% "UCPTRIE_SHIFT_2")))) (.seq (.assign (.name (n% "shifted12HighStart")) (.bin .shr (.bin .add (.name (n% "highStart")) (.num 0xfff)) (.num 12))) (.seq (.assign (.name (n% "indexFormat")) (.fstr [123, 105, 110, 100, 101, 120, 76, 101, 110, 103, 116, 104, 125, 72])) (.seq (.assign (.name (n% "indexStart")) (.attr (.name (n% "cls")) (n% "_trieHeaderLength"))) (.seq (.assign (.name (n% "indexLimit")) (.bin .add (.name (n% "indexStart")) (.call (.attr (.name (n% "struct")) (n% "calcsize")) (.cons (.name (n% "indexFormat")) .nil)))) (.seq (.assign (.name (n% "index")) (.call (.attr (.name (n% "struct")) (n% "unpack")) (.cons (.name (n% "indexFormat")) (.cons (.slice (.name (n% "trieData")) (.name (n% "indexStart")) (.name (n% "indexLimit"))) .nil)))) (.seq (.assign (.name (n% "dataStart")) (.name (n% "indexLimit"))) (.seq (.ifs (.bin .eq (.name (n% "valueWidth")) (.name (n% "UCPTRIE_VALUE_BITS_16"))) (.seq (.assign (.name (n% "dataType")) (.str [72])) .skip) (.seq (.ifs (.bin .eq (.name (n% "valueWidth")) (.name (n% "UCPTRIE_VALUE_BITS_32"))) (.seq (.assign (.name (n% "dataType")) (.str [73])) .skip) (.seq (.assign (.name (n% "dataType")) (.str [66])) .skip)) .skip)) (.seq (.assign (.name (n% "dataFormat")) (.fstr [123, 100, 97, 116, 97, 76, 101, 110, 103, 116, 104, 125, 123, 100, 97, 116, 97, 84, 121, 112, 101, 125])) (.seq (.assign (.name (n% "dataLimit")) (.bin .add (.name (n% "dataStart")) (.call (.attr (.name (n% "struct")) (n% "calcsize")) (.cons (.name (n% "dataFormat")) .nil)))) (.seq (.assign (.name (n% "data")) (.call (.attr (.name (n% "struct")) (n% "unpack")) (.cons (.name (n% "dataFormat")) (.cons (.slice (.name (n% "trieData")) (.name (n% "dataStart")) (.name (n% "dataLimit"))) .nil)))) (.seq (.ret (.call (.name (n% "CPTrie")) (.cons (.name (n% "index")) (.cons (.name (n% "data")) (.cons (.name (n% "trieType")) (.cons (.name (n% "valueWidth")) (.cons (.name (n% "index3NullOffset")) (.cons (.name (n% "dataNullOffset")) (.cons (.name (n% "highStart")) (.cons (.name (n% "shifted12HighStart")) .nil)))))))))) .skip))))))))))))))))))))))

/-- UnicodeData/CPTrie.py:197-198 -/
def CPTrie.fastIndex : Stmt :=
  (.defn (n% "fastIndex") (.cons (.name (n% "self")) (.cons (.name (n% "c")) .nil)) (.seq (.ret (.bin .add (.index (.attr (.name (n% "self")) (n% "index")) (.bin .shr (.name (n% "c")) (.name (n% "UCPTRIE_FAST_SHIFT")))) (.bin .and (.name (n% "c")) (.name (n% "UCPTRIE_FAST_DATA_MASK"))))) .skip))

/-- UnicodeData/CPTrie.py:200-221 -/
def CPTrie.internalSmallIndex : Stmt :=
  (.defn (n% "internalSmallIndex") (.cons (.name (n% "self")) (.cons (.name (n% "c")) .nil)) (.seq (.assign (.name (n% "i1")) (.bin .shr (.name (n% "c")) (.name (n% "UCPTRIE_SHIFT_1")))) (.seq (.ifs (.bin .eq (.attr (.name (n% "self")) (n% "trieType")) (.name (n% "UCPTRIE_TYPE_FAST"))) (.seq (.aug .add (.name (n% "i1")) (.bin .sub (.name (n% "UCPTRIE_BMP_INDEX_LENGTH")) (.name (n% "UCPTRIE_OMITTED_BMP_INDEX_1_LENGTH")))) .skip) (.seq (.aug .add (.name (n% "i1")) (.name (n% "UCPTRIE_SMALL_INDEX_LENGTH"))) .skip)) (.seq (.assign (.name (n% "i3Block")) (.index (.attr (.name (n% "self")) (n% "index")) (.bin .add (.index (.attr (.name (n% "self")) (n% "index")) (.name (n% "i1"))) (.bin .and (.bin .shr (.name (n% "c")) (.name (n% "UCPTRIE_SHIFT_2"))) (.name (n% "UCPTRIE_INDEX_2_MASK")))))) (.seq (.assign (.name (n% "i3")) (.bin .and (.bin .shr (.name (n% "c")) (.name (n% "UCPTRIE_SHIFT_3"))) (.name (n% "UCPTRIE_INDEX_3_MASK")))) (.seq (.ifs (.bin .eq (.bin .and (.name (n% "i3Block")) (.num 0x8000)) (.num 0)) (.seq (.assign (.name (n% "dataBlock")) (.index (.attr (.name (n% "self")) (n% "index")) (.bin .add (.name (n% "i3Block")) (.name (n% "i3"))))) .skip) (.seq (.assign (.name (n% "i3Block")) (.bin .add (.bin .add (.bin .and (.name (n% "i3Block")) (.num 0x7fff)) (.bin .and (.name (n% "i3")) (.inv (.num 7)))) (.bin .shr (.name (n% "i3")) (.num 3)))) (.seq (.aug .and (.name (n% "i3")) (.num 7)) (.seq (.assign (.name (n% "dataBlock")) (.bin .and (.bin .shl (.index (.attr (.name (n% "self")) (n% "index")) (.name (n% "i3Block"))) (.bin .add (.num 2) (.bin .mul (.num 2) (.name (n% "i3"))))) (.num 0x30000))) (.seq (.aug .or (.name (n% "dataBlock")) (.index (.attr (.name (n% "self")) (n% "index")) (.bin .add (.bin .add (.name (n% "i3Block")) (.num 1)) (.name (n% "i3"))))) .skip))))) (.seq (.ret (.bin .add (.name (n% "dataBlock")) (.bin .and (.name (n% "c")) (.name (n% "UCPTRIE_SMALL_DATA_MASK"))))) .skip)))))))

/-- UnicodeData/CPTrie.py:223-226 -/
def CPTrie.smallIndex : Stmt :=
  (.defn (n% "smallIndex") (.cons (.name (n% "self")) (.cons (.name (n% "c")) .nil)) (.seq (.ifs (.bin .ge (.name (n% "c")) (.attr (.name (n% "self")) (n% "highStart"))) (.seq (.ret (.bin .sub (.attr (.name (n% "self")) (n% "dataLength")) (.name (n% "UCPTRIE_HIGH_VALUE_NEG_DATA_OFFSET")))) .skip) .skip) (.seq (.ret (.call (.attr (.name (n% "self")) (n% "internalSmallIndex")) (.cons (.name (n% "c")) .nil))) .skip)))

/-- UnicodeData/CPTrie.py:228-235 -/
def CPTrie.cpIndex : Stmt :=
  (.defn (n% "cpIndex") (.cons (.name (n% "self")) (.cons (.name (n% "fastMax")) (.cons (.name (n% "c")) .nil))) (.seq (.ifs (.bin .le (.name (n% "c")) (.name (n% "fastMax"))) (.seq (.ret (.call (.attr (.name (n% "self")) (n% "fastIndex")) (.cons (.name (n% "c")) .nil))) .skip) .skip) (.seq (.ifs (.bin .le (.name (n% "c")) (.num 0x10ffff)) (.seq (.ret (.call (.attr (.name (n% "self")) (n% "smallIndex")) (.cons (.name (n% "c")) .nil))) .skip) .skip) (.seq (.ret (.bin .sub (.attr (.name (n% "self")) (n% "dataLength")) (.name (n% "UCPTRIE_ERROR_VALUE_NEG_DATA_OFFSET")))) .skip))))

/-- UnicodeData/CPTrie.py:237-244 -/
def CPTrie.get : Stmt :=
  (.defn (n% "get") (.cons (.name (n% "self")) (.cons (.name (n% "c")) .nil)) (.seq (.ifs (.bin .le (.name (n% "c")) (.num 0x7f)) (.seq (.assign (.name (n% "dataIndex")) (.name (n% "c"))) .skip) (.seq (.assign (.name (n% "fastMax")) (.cond (.bin .eq (.attr (.name (n% "self")) (n% "trieType")) (.name (n% "UCPTRIE_TYPE_FAST"))) (.num 0xffff) (.name (n% "UCPTRIE_SMALL_MAX")))) (.seq (.assign (.name (n% "dataIndex")) (.call (.attr (.name (n% "self")) (n% "cpIndex")) (.cons (.name (n% "fastMax")) (.cons (.name (n% "c")) .nil)))) .skip))) (.seq (.ret (.index (.attr (.name (n% "self")) (n% "data")) (.name (n% "dataIndex")))) .skip)))

/-- UnicodeData/CPTrie.py:246-351 -/
def CPTrie.enumerator : Stmt :=
  (.defn (n% "enumerator") (.cons (.name (n% "self")) (.cons (.kwarg (n% "start") (.num 0)) (.cons (.kwarg (n% "limit") (.num 0x110000)) .nil))) (.seq (.ifs (.or (.bin .ge (.name (n% "start")) (.num 0x110000)) (.bin .ge (.name (n% "start")) (.attr (.name (n% "self")) (n% "highStart")))) (.seq (.ret (.name (n% "None"))) .skip) .skip) (.seq (.assign (.name (n% "prevI3Block")) (.neg (.num 1))) (.seq (.assign (.name (n% "prevBlock")) (.neg (.num 1))) (.seq (.assign (.name (n% "prev")) (.name (n% "start"))) (.seq (.assign (.name (n% "nullValue")) (.index (.attr (.name (n% "self")) (n% "data")) (.attr (.name (n% "self")) (n% "dataNullOffset")))) (.seq (.assign (.name (n% "prevValue")) (.name (n% "nullValue"))) (.seq (.assign (.name (n% "c")) (.name (n% "start"))) (.seq (.while (.and (.bin .lt (.name (n% "c")) (.name (n% "limit"))) (.bin .lt (.name (n% "c")) (.attr (.name (n% "self")) (n% "highStart")))) (.seq (.ifs (.and (.bin .le (.name (n% "c")) (.num 0xffff)) (.or (.bin .eq (.attr (.name (n% "self")) (n% "trieType")) (.name (n% "UCPTRIE_TYPE_FAST"))) (.bin .le (.name (n% "c")) (.name (n% "UCPTRIE_SMALL_MAX"))))) (.seq (.assign (.name (n% "i3Block")) (.num 0)) (.seq (.assign (.name (n% "i3Start")) (.bin .shr (.name (n% "c")) (.name (n% "UCPTRIE_FAST_SHIFT")))) (.seq (.assign (.name (n% "dataBlockLength")) (.name (n% "UCPTRIE_FAST_DATA_BLOCK_LENGTH"))) .skip))) (.seq (.assign (.name (n% "i1")) (.bin .shr (.name (n% "c")) (.name (n% "UCPTRIE_SHIFT_1")))) (.seq (.ifs (.bin .eq (.attr (.name (n% "self")) (n% "trieType")) (.name (n% "UCPTRIE_TYPE_FAST"))) (.seq (.assert (.and (.bin .lt (.num 0xffff) (.name (n% "c"))) (.bin .lt (.name (n% "c")) (.attr (.name (n% "self")) (n% "highStart"))))) (.seq (.aug .add (.name (n% "i1")) (.bin .sub (.name (n% "UCPTRIE_BMP_INDEX_LENGTH")) (.name (n% "UCPTRIE_OMITTED_BMP_INDEX_1_LENGTH")))) .skip)) (.seq (.assert (.and (.bin .lt (.name (n% "c")) (.attr (.name (n% "self")) (n% "highStart"))) (.bin .gt (.attr (.name (n% "self")) (n% "highStart")) (.name (n% "UCPTRIE_SMALL_LIMIT"))))) (.seq (.aug .add (.name (n% "i1")) (.name (n% "UCPTRIE_SMALL_INDEX_LENGTH"))) .skip))) (.seq (.assign (.name (n% "i3Block")) (.index (.attr (.name (n% "self")) (n% "index")) (.bin .add (.index (.attr (.name (n% "self")) (n% "index")) (.name (n% "i1"))) (.bin .and (.bin .shr (.name (n% "c")) (.name (n% "UCPTRIE_SHIFT_2"))) (.name (n% "UCPTRIE_INDEX_2_MASK")))))) (.seq (.ifs (.and (.bin .eq (.name (n% "i3Block")) (.name (n% "prevI3Block"))) (.bin .ge (.bin .sub (.name (n% "c")) (.name (n% "start"))) (.name (n% "UCPTRIE_CP_PER_INDEX_2_ENTRY")))) (.seq (.assert (.bin .eq (.bin .and (.name (n% "c")) (.bin .sub (.name (n% "UCPTRIE_CP_PER_INDEX_2_ENTRY")) (.num 1))) (.num 0))) (.seq (.aug .add (.name (n% "c")) (.name (n% "UCPTRIE_CP_PER_INDEX_2_ENTRY"))) (.seq .cont .skip))) .skip) (.seq (.assign (.name (n% "prevI3Block")) (.name (n% "i3Block"))) (.seq (.ifs (.bin .eq (.name (n% "i3Block")) (.attr (.name (n% "self")) (n% "index3NullOffset"))) (.seq (.ifs (.bin .ne (.name (n% "nullValue")) (.name (n% "prevValue"))) (.seq (.ifs (.bin .lt (.name (n% "prev")) (.name (n% "c"))) (.seq (.yield (.tuple (.cons (.call (.name (n% "range")) (.cons (.name (n% "prev")) (.cons (.name (n% "c")) .nil))) (.cons (.name (n% "prevValue")) .nil)))) .skip) .skip) (.seq (.assign (.name (n% "prev")) (.name (n% "c"))) (.seq (.assign (.name (n% "prevValue")) (.name (n% "nullValue"))) .skip))) .skip) (.seq (.assign (.name (n% "prevBlock")) (.attr (.name (n% "self")) (n% "dataNullOffset"))) (.seq (.assign (.name (n% "c")) (.bin .and (.bin .add (.name (n% "c")) (.name (n% "UCPTRIE_CP_PER_INDEX_2_ENTRY"))) (.inv (.bin .sub (.name (n% "UCPTRIE_CP_PER_INDEX_2_ENTRY")) (.num 1))))) (.seq .cont .skip)))) .skip) (.seq (.assign (.name (n% "i3Start")) (.bin .and (.bin .shr (.name (n% "c")) (.name (n% "UCPTRIE_SHIFT_3"))) (.name (n% "UCPTRIE_INDEX_3_MASK")))) (.seq (.assign (.name (n% "dataBlockLength")) (.name (n% "UCPTRIE_SMALL_DATA_BLOCK_LENGTH"))) .skip))))))))) (.seq (.for (.name (n% "i3")) (.call (.name (n% "range")) (.cons (.name (n% "i3Start")) (.cons (.name (n% "dataBlockLength")) .nil))) (.seq (.ifs (.bin .ge (.name (n% "c")) (.name (n% "limit"))) (.seq .brk .skip) .skip) (.seq (.ifs (.bin .eq (.bin .and (.name (n% "i3Block")) (.num 0x8000)) (.num 0)) (.seq (.assign (.name (n% "block")) (.index (.attr (.name (n% "self")) (n% "index")) (.bin .add (.name (n% "i3Block")) (.name (n% "i3"))))) .skip) (.seq (.assign (.name (n% "group")) (.bin .add (.bin .add (.bin .and (.name (n% "i3Block")) (.num 0x7fff)) (.bin .and (.name (n% "i3")) (.inv (.num 7)))) (.bin .shr (.name (n% "i3")) (.num 3)))) (.seq (.assign (.name (n% "gi")) (.bin .and (.name (n% "i3")) (.num 7))) (.seq (.assign (.name (n% "block")) (.bin .and (.bin .shl (.index (.attr (.name (n% "self")) (n% "index")) (.name (n% "group"))) (.bin .add (.num 2) (.bin .mul (.num 2) (.name (n% "gi"))))) (.num 0x30000))) (.seq (.aug .or (.name (n% "block")) (.index (.attr (.name (n% "self")) (n% "index")) (.bin .add (.bin .add (.name (n% "group")) (.name (n% "gi"))) (.num 1)))) .skip))))) (.seq (.ifs (.and (.bin .eq (.name (n% "block")) (.name (n% "prevBlock"))) (.bin .ge (.bin .sub (.name (n% "c")) (.name (n% "start"))) (.name (n% "dataBlockLength")))) (.seq (.assert (.bin .eq (.bin .and (.name (n% "c")) (.bin .sub (.name (n% "dataBlockLength")) (.num 1))) (.num 0))) (.seq (.aug .add (.name (n% "c")) (.name (n% "dataBlockLength"))) .skip)) (.seq (.assign (.name (n% "dataMask")) (.bin .sub (.name (n% "dataBlockLength")) (.num 1))) (.seq (.assign (.name (n% "prevBlock")) (.name (n% "block"))) (.seq (.ifs (.bin .eq (.name (n% "block")) (.attr (.name (n% "self")) (n% "dataNullOffset"))) (.seq (.ifs (.bin .ne (.name (n% "nullValue")) (.name (n% "prevValue"))) (.seq (.ifs (.bin .lt (.name (n% "prev")) (.name (n% "c"))) (.seq (.yield (.tuple (.cons (.call (.name (n% "range")) (.cons (.name (n% "prev")) (.cons (.name (n% "c")) .nil))) (.cons (.name (n% "prevValue")) .nil)))) .skip) .skip) (.seq (.assign (.name (n% "prev")) (.name (n% "c"))) (.seq (.assign (.name (n% "prevValue")) (.name (n% "nullValue"))) .skip))) .skip) (.seq (.assign (.name (n% "c")) (.bin .and (.bin .add (.name (n% "c")) (.name (n% "dataBlockLength"))) (.inv (.name (n% "dataMask"))))) .skip)) (.seq (.assign (.name (n% "di")) (.bin .add (.name (n% "block")) (.bin .and (.name (n% "c")) (.name (n% "dataMask"))))) (.seq (.assign (.name (n% "value")) (.index (.attr (.name (n% "self")) (n% "data")) (.name (n% "di")))) (.seq (.ifs (.bin .ne (.name (n% "prevValue")) (.name (n% "value"))) (.seq (.ifs (.bin .lt (.name (n% "prev")) (.name (n% "c"))) (.seq (.yield (.tuple (.cons (.call (.name (n% "range")) (.cons (.name (n% "prev")) (.cons (.name (n% "c")) .nil))) (.cons (.name (n% "prevValue")) .nil)))) .skip) .skip) (.seq (.assign (.name (n% "prev")) (.name (n% "c"))) (.seq (.assign (.name (n% "prevValue")) (.name (n% "value"))) .skip))) .skip) (.seq (.aug .add (.name (n% "c")) (.num 1)) (.seq (.aug .add (.name (n% "di")) (.num 1)) (.seq (.while (.and (.bin .lt (.name (n% "c")) (.name (n% "limit"))) (.bin .ne (.bin .and (.name (n% "c")) (.name (n% "dataMask"))) (.num 0))) (.seq (.assign (.name (n% "value")) (.index (.attr (.name (n% "self")) (n% "data")) (.name (n% "di")))) (.seq (.ifs (.bin .ne (.name (n% "value")) (.name (n% "prevValue"))) (.seq (.ifs (.bin .lt (.name (n% "prev")) (.name (n% "c"))) (.seq (.yield (.tuple (.cons (.call (.name (n% "range")) (.cons (.name (n% "prev")) (.cons (.name (n% "c")) .nil))) (.cons (.name (n% "prevValue")) .nil)))) .skip) .skip) (.seq (.assign (.name (n% "prev")) (.name (n% "c"))) (.seq (.assign (.name (n% "prevValue")) (.name (n% "value"))) .skip))) .skip) (.seq (.aug .add (.name (n% "c")) (.num 1)) (.seq (.aug .add (.name (n% "di")) (.num 1)) .skip))))) .skip))))))) .skip)))) .skip)))) .skip))) (.seq (.ifs (.bin .gt (.name (n% "c")) (.name (n% "limit"))) (.seq (.assign (.name (n% "c")) (.name (n% "limit"))) .skip) (.seq (.ifs (.bin .lt (.name (n% "c")) (.name (n% "limit"))) (.seq (.assign (.name (n% "di")) (.bin .sub (.call (.name (n% "len")) (.cons (.attr (.name (n% "self")) (n% "data")) .nil)) (.name (n% "UCPTRIE_HIGH_VALUE_NEG_DATA_OFFSET")))) (.seq (.assign (.name (n% "highValue")) (.index (.attr (.name (n% "self")) (n% "data")) (.name (n% "di")))) (.seq (.ifs (.bin .ne (.name (n% "highValue")) (.name (n% "prevValue"))) (.seq (.ifs (.bin .lt (.name (n% "prev")) (.name (n% "c"))) (.seq (.yield (.tuple (.cons (.call (.name (n% "range")) (.cons (.name (n% "prev")) (.cons (.name (n% "c")) .nil))) (.cons (.name (n% "prevValue")) .nil)))) .skip) .skip) .skip) .skip) .skip))) .skip) .skip)) (.seq (.ifs (.bin .lt (.name (n% "prev")) (.name (n% "c"))) (.seq (.yield (.tuple (.cons (.call (.name (n% "range")) (.cons (.name (n% "prev")) (.cons (.name (n% "c")) .nil))) (.cons (.name (n% "prevValue")) .nil)))) .skip) .skip) .skip)))))))))))

/-- UnicodeData/CPTrie.py:120-351 -/
def classCPTrie : Stmt :=
  (.cls (n% "CPTrie") (.cons (.name (n% "object")) .nil) (.seq (.assign (.name (n% "_trieHeaderFormat")) (.str [10, 32, 32, 32, 32, 35, 32, 34, 84, 114, 105, 51, 34, 32, 105, 110, 32, 98, 105, 103, 45, 101, 110, 100, 105, 97, 110, 32, 85, 83, 45, 65, 83, 67, 73, 73, 32, 40, 48, 120, 53, 52, 55, 50, 54, 57, 51, 51, 41, 10, 32, 32, 32, 32, 115, 105, 103, 58, 32, 73, 10, 32, 32, 32, 32, 10, 32, 32, 32, 32, 35, 32, 79, 112, 116, 105, 111, 110, 115, 32, 98, 105, 116, 32, 102, 105, 101, 108, 100, 58, 10, 32, 32, 32, 32, 35, 32, 66, 105, 116, 115, 32, 49, 53, 46, 46, 49, 50, 58, 32, 68, 97, 116, 97, 32, 108, 101, 110, 103, 116, 104, 32, 98, 105, 116, 115, 32, 49, 57, 46, 46, 49, 54, 46, 10, 32, 32, 32, 32, 35, 32, 66, 105, 116, 115, 32, 49, 49, 46, 46, 56, 58, 32, 68, 97, 116, 97, 32, 110, 117, 108, 108, 32, 98, 108, 111, 99, 107, 32, 111, 102, 102, 115, 101, 116, 32, 98, 105, 116, 115, 32, 49, 57, 46, 46, 49, 54, 46, 10, 32, 32, 32, 32, 35, 32, 66, 105, 116, 115, 32, 55, 46, 46, 54, 58, 32, 85, 67, 80, 84, 114, 105, 101, 84, 121, 112, 101, 10, 32, 32, 32, 32, 35, 32, 66, 105, 116, 115, 32, 53, 46, 46, 51, 58, 32, 82, 101, 115, 101, 114, 118, 101, 100, 32, 40, 48, 41, 46, 10, 32, 32, 32, 32, 35, 32, 66, 105, 116, 115, 32, 50, 46, 46, 48, 58, 32, 85, 67, 80, 84, 114, 105, 101, 86, 97, 108, 117, 101, 87, 105, 100, 116, 104, 10, 32, 32, 32, 32, 111, 112, 116, 105, 111, 110, 115, 58, 32, 72, 10, 32, 32, 32, 32, 10, 32, 32, 32, 32, 35, 32, 84, 111, 116, 97, 108, 32, 108, 101, 110, 103, 116, 104, 32, 111, 102, 32, 116, 104, 101, 32, 105, 110, 100, 101, 120, 32, 116, 97, 98, 108, 101, 115, 46, 10, 32, 32, 32, 32, 105, 110, 100, 101, 120, 76, 101, 110, 103, 116, 104, 58, 32, 72, 10, 32, 32, 32, 32, 10, 32, 32, 32, 32, 35, 32, 68, 97, 116, 97, 32, 108, 101, 110, 103, 116, 104, 32, 98, 105, 116, 115, 32, 49, 53, 46, 46, 48, 46, 10, 32, 32, 32, 32, 100, 97, 116, 97, 76, 101, 110, 103, 116, 104, 58, 32, 72, 10, 32, 32, 32, 32, 10, 32, 32, 32, 32, 35, 32, 73, 110, 100, 101, 120, 45, 51, 32, 110, 117, 108, 108, 32, 98, 108, 111, 99, 107, 32, 111, 102, 102, 115, 101, 116, 44, 32, 48, 120, 55, 102, 102, 102, 32, 111, 114, 32, 48, 120, 102, 102, 102, 102, 32, 105, 102, 32, 110, 111, 110, 101, 46, 10, 32, 32, 32, 32, 105, 110, 100, 101, 120, 51, 78, 117, 108, 108, 79, 102, 102, 115, 101, 116, 58, 32, 72, 10, 32, 32, 32, 32, 10, 32, 32, 32, 32, 35, 32, 68, 97, 116, 97, 32, 110, 117, 108, 108, 32, 98, 108, 111, 99, 107, 32, 111, 102, 102, 115, 101, 116, 32, 98, 105, 116, 115, 32, 49, 53, 46, 46, 48, 44, 32, 48, 120, 102, 102, 102, 102, 102, 32, 105, 102, 32, 110, 111, 110, 101, 46, 32, 10, 32, 32, 32, 32, 100, 97, 116, 97, 78, 117, 108, 108, 79, 102, 102, 115, 101, 116, 58, 32, 72, 10, 32, 32, 32, 32, 10, 32, 32, 32, 32, 35, 32, 70, 105, 114, 115, 116, 32, 99, 111, 100, 101, 32, 112, 111, 105, 110, 116, 32, 111, 102, 32, 116, 104, 101, 32, 115, 105, 110, 103, 108, 101, 45, 118, 97, 108, 117, 101, 32, 114, 97, 110, 103, 101, 32, 101, 110, 100, 105, 110, 103, 32, 119, 105, 116, 104, 32, 85, 43, 49, 48, 102, 102, 102, 102, 44, 10, 32, 32, 32, 32, 35, 32, 114, 111, 117, 110, 100, 101, 100, 32, 117, 112, 32, 97, 110, 100, 32, 116, 104, 101, 110, 32, 115, 104, 105, 102, 116, 101, 100, 32, 114, 105, 103, 104, 116, 32, 98, 121, 32, 85, 67, 80, 84, 82, 73, 69, 95, 83, 72, 73, 70, 84, 95, 50, 46, 10, 32, 32, 32, 32, 115, 104, 105, 102, 116, 101, 100, 72, 105, 103, 104, 83, 116, 97, 114, 116, 58, 32, 72, 10, 32, 32, 32, 32])) (.seq (.assign (.name (n% "_trieHeaderLength")) (.call (.attr (.name (n% "sstruct")) (n% "calcsize")) (.cons (.name (n% "_trieHeaderFormat")) .nil))) (.seq CPTrie.__init__ (.seq CPTrie.createFromData (.seq CPTrie.fastIndex (.seq CPTrie.internalSmallIndex (.seq CPTrie.smallIndex (.seq CPTrie.cpIndex (.seq CPTrie.get (.seq CPTrie.enumerator .skip)))))))))))

/-- UnicodeData/CPTrie.py, all of it. -/
def module : Stmt :=
  (.seq (.expr (.str [66, 97, 115, 101, 100, 32, 111, 110, 32, 117, 99, 112, 116, 114, 105, 101, 46, 99, 112, 112, 32, 102, 114, 111, 109, 32, 73, 67, 85, 10, 10, 67, 114, 101, 97, 116, 101, 100, 32, 111, 110, 32, 77, 97, 121, 32, 49, 52, 44, 32, 50, 48, 50, 48, 10, 10, 64, 97, 117, 116, 104, 111, 114, 32, 69, 114, 105, 99, 32, 77, 97, 100, 101, 114, 10]))
  (.seq (.imp (n% "typing"))
  (.seq (.imp (n% "struct"))
  (.seq (.imp (n% "misc"))
  (.seq (.assign (.name (n% "UCPTRIE_SIG")) (.num 0x54726933))
  (.seq (.assign (.name (n% "UCPTRIE_FAST_SHIFT")) (.num 6))
  (.seq (.assign (.name (n% "UCPTRIE_FAST_DATA_BLOCK_LENGTH")) (.bin .shl (.num 1) (.name (n% "UCPTRIE_FAST_SHIFT"))))
  (.seq (.assign (.name (n% "UCPTRIE_FAST_DATA_MASK")) (.bin .sub (.name (n% "UCPTRIE_FAST_DATA_BLOCK_LENGTH")) (.num 1)))
  (.seq (.assign (.name (n% "UCPTRIE_SMALL_MAX")) (.num 0xfff))
  (.seq (.assign (.name (n% "UCPTRIE_ERROR_VALUE_NEG_DATA_OFFSET")) (.num 1))
  (.seq (.assign (.name (n% "UCPTRIE_HIGH_VALUE_NEG_DATA_OFFSET")) (.num 2))
  (.seq (.assign (.name (n% "UCPTRIE_BMP_INDEX_LENGTH")) (.bin .shr (.num 0x10000) (.name (n% "UCPTRIE_FAST_SHIFT"))))
  (.seq (.assign (.name (n% "UCPTRIE_SMALL_LIMIT")) (.num 0x1000))
  (.seq (.assign (.name (n% "UCPTRIE_SMALL_INDEX_LENGTH")) (.bin .shr (.name (n% "UCPTRIE_SMALL_LIMIT")) (.name (n% "UCPTRIE_FAST_SHIFT"))))
  (.seq (.assign (.name (n% "UCPTRIE_SHIFT_3")) (.num 4))
  (.seq (.assign (.name (n% "UCPTRIE_SHIFT_2")) (.bin .add (.num 5) (.name (n% "UCPTRIE_SHIFT_3"))))
  (.seq (.assign (.name (n% "UCPTRIE_SHIFT_1")) (.bin .add (.num 5) (.name (n% "UCPTRIE_SHIFT_2"))))
  (.seq (.assign (.name (n% "UCPTRIE_SHIFT_2_3")) (.bin .sub (.name (n% "UCPTRIE_SHIFT_2")) (.name (n% "UCPTRIE_SHIFT_3"))))
  (.seq (.assign (.name (n% "UCPTRIE_SHIFT_1_2")) (.bin .sub (.name (n% "UCPTRIE_SHIFT_1")) (.name (n% "UCPTRIE_SHIFT_2"))))
  (.seq (.assign (.name (n% "UCPTRIE_OMITTED_BMP_INDEX_1_LENGTH")) (.bin .shr (.num 0x10000) (.name (n% "UCPTRIE_SHIFT_1"))))
  (.seq (.assign (.name (n% "UCPTRIE_INDEX_2_BLOCK_LENGTH")) (.bin .shl (.num 1) (.name (n% "UCPTRIE_SHIFT_1_2"))))
  (.seq (.assign (.name (n% "UCPTRIE_INDEX_2_MASK")) (.bin .sub (.name (n% "UCPTRIE_INDEX_2_BLOCK_LENGTH")) (.num 1)))
  (.seq (.assign (.name (n% "UCPTRIE_CP_PER_INDEX_2_ENTRY")) (.bin .shl (.num 1) (.name (n% "UCPTRIE_SHIFT_2"))))
  (.seq (.assign (.name (n% "UCPTRIE_INDEX_3_BLOCK_LENGTH")) (.bin .shl (.num 1) (.name (n% "UCPTRIE_SHIFT_2_3"))))
  (.seq (.assign (.name (n% "UCPTRIE_INDEX_3_MASK")) (.bin .sub (.name (n% "UCPTRIE_INDEX_3_BLOCK_LENGTH")) (.num 1)))
  (.seq (.assign (.name (n% "UCPTRIE_SMALL_DATA_BLOCK_LENGTH")) (.bin .shl (.num 1) (.name (n% "UCPTRIE_SHIFT_3"))))
  (.seq (.assign (.name (n% "UCPTRIE_SMALL_DATA_MASK")) (.bin .sub (.name (n% "UCPTRIE_SMALL_DATA_BLOCK_LENGTH")) (.num 1)))
  (.seq (.assign (.name (n% "UCPTRIE_TYPE_ANY")) (.neg (.num 1)))
  (.seq (.assign (.name (n% "UCPTRIE_TYPE_FAST")) (.num 0))
  (.seq (.assign (.name (n% "UCPTRIE_TYPE_SMALL")) (.num 1))
  (.seq (.assign (.name (n% "UCPTRIE_VALUE_BITS_ANY")) (.neg (.num 1)))
  (.seq (.assign (.name (n% "UCPTRIE_VALUE_BITS_16")) (.num 0))
  (.seq (.assign (.name (n% "UCPTRIE_VALUE_BITS_32")) (.num 1))
  (.seq (.assign (.name (n% "UCPTRIE_VALUE_BITS_8")) (.num 2))
  (.seq (.assign (.name (n% "UCPTRIE_OPTIONS_DATA_LENGTH_MASK")) (.num 0xf000))
  (.seq (.assign (.name (n% "UCPTRIE_OPTIONS_DATA_NULL_OFFSET_MASK")) (.num 0xf00))
  (.seq (.assign (.name (n% "UCPTRIE_OPTIONS_RESERVED_MASK")) (.num 0x38))
  (.seq (.assign (.name (n% "UCPTRIE_OPTIONS_VALUE_BITS_MASK")) (.num 7))
  (.seq (.assign (.name (n% "UCPTRIE_NO_INDEX3_NULL_OFFSET")) (.num 0x7fff))
  (.seq (.assign (.name (n% "UCPTRIE_NO_DATA_NULL_OFFSET")) (.num 0xfffff))
  (.seq classTrieHeader
  (.seq classCPTrie .skip))))))))))))))))))))))))))))))))))))))))))

end CPTrie

namespace Normalizer2

/-- UnicodeData/Normalizer2.py:100-120 -/
def Normalizer2.__init__ : Stmt :=
  (.defn (n% "__init__") (.cons (.name (n% "self")) (.cons (.name (n% "trie")) (.cons (.name (n% "indexes")) (.cons (.name (n% "extraData")) .nil)))) (.seq (.assign (.attr (.name (n% "self")) (n% "trie")) (.name (n% "trie"))) (.seq (.assign (.attr (.name (n% "self")) (n% "minDecompNoCP")) (.index (.name (n% "indexes")) (.name (n% "IX_MIN_DECOMP_NO_CP")))) (.seq (.assign (.attr (.name (n% "self")) (n% "minCompNoMaybeCP")) (.index (.name (n% "indexes")) (.name (n% "IX_MIN_COMP_NO_MAYBE_CP")))) (.seq (.assign (.attr (.name (n% "self")) (n% "minLcccCP")) (.index (.name (n% "indexes")) (.name (n% "IX_MIN_LCCC_CP")))) (.seq (.assign (.attr (.name (n% "self")) (n% "minYesNo")) (.index (.name (n% "indexes")) (.name (n% "IX_MIN_YES_NO")))) (.seq (.assign (.attr (.name (n% "self")) (n% "minYesNoMappingsOnly")) (.index (.name (n% "indexes")) (.name (n% "IX_MIN_YES_NO_MAPPINGS_ONLY")))) (.seq (.assign (.attr (.name (n% "self")) (n% "minNoNo")) (.index (.name (n% "indexes")) (.name (n% "IX_MIN_NO_NO")))) (.seq (.assign (.attr (.name (n% "self")) (n% "minNoNoCompBoundaryBefore")) (.index (.name (n% "indexes")) (.name (n% "IX_MIN_NO_NO_COMP_BOUNDARY_BEFORE")))) (.seq (.assign (.attr (.name (n% "self")) (n% "minNoNoCompNoMaybeCC")) (.index (.name (n% "indexes")) (.name (n% "IX_MIN_NO_NO_COMP_NO_MAYBE_CC")))) (.seq (.assign (.attr (.name (n% "self")) (n% "minNoNoEmpty")) (.index (.name (n% "indexes")) (.name (n% "IX_MIN_NO_NO_EMPTY")))) (.seq (.assign (.attr (.name (n% "self")) (n% "limitNoNo")) (.index (.name (n% "indexes")) (.name (n% "IX_LIMIT_NO_NO")))) (.seq (.assign (.attr (.name (n% "self")) (n% "minMaybeYes")) (.index (.name (n% "indexes")) (.name (n% "IX_MIN_MAYBE_YES")))) (.seq (.assert (.bin .eq (.bin .and (.attr (.name (n% "self")) (n% "minMaybeYes")) (.num 7)) (.num 0))) (.seq (.assign (.attr (.name (n% "self")) (n% "centerNoNoDelta")) (.bin .sub (.bin .sub (.bin .shr (.attr (.name (n% "self")) (n% "minMaybeYes")) (.name (n% "DELTA_SHIFT"))) (.name (n% "MAX_DELTA"))) (.num 1))) (.seq (.assign (.name (n% "extraDataStart")) (.bin .shr (.bin .sub (.name (n% "MIN_NORMAL_MAYBE_YES")) (.index (.name (n% "indexes")) (.name (n% "IX_MIN_MAYBE_YES")))) (.name (n% "OFFSET_SHIFT")))) (.seq (.assign (.attr (.name (n% "self")) (n% "maybeYesCompositions")) (.slice (.name (n% "extraData")) .nil (.name (n% "extraDataStart")))) (.seq (.assign (.attr (.name (n% "self")) (n% "extraData")) (.slice (.name (n% "extraData")) (.name (n% "extraDataStart")) .nil)) .skip))))))))))))))))))

/-- UnicodeData/Normalizer2.py:122-127 -/
def Normalizer2.createFromHardCodedData : Stmt :=
  (.deco (.name (n% "classmethod")) (.defn (n% "createFromHardCodedData") (.cons (.name (n% "cls")) .nil) (.seq (.assign (.name (n% "trie")) (.call (.name (n% "CPTrie")) (.cons (.name (n% "norm2_nfc_data_trieIndex")) (.cons (.name (n% "norm2_nfc_data_trieData")) (.cons (.name (n% "norm2_nfc_data_type")) (.cons (.name (n% "norm2_nfc_data_valueWidth")) (.cons (.name (n% "norm2_nfc_data_index3NullOffset")) (.cons (.name (n% "norm2_nfc_data_dataNullOffset")) (.cons (.name (n% "norm2_nfc_data_highStart")) (.cons (.name (n% "norm2_nfc_data_shifted12HighStart")) .nil)))))))))) (.seq (.ret (.call (.name (n% "Normalizer2")) (.cons (.name (n% "trie")) (.cons (.name (n% "norm2_nfc_data_indexes")) (.cons (.name (n% "norm2_nfc_data_extraData")) .nil))))) .skip))))

/-- UnicodeData/Normalizer2.py:129-154 -/
def Normalizer2.createFromFileData : Stmt :=
  (.deco (.name (n% "classmethod")) (.defn (n% "createFromFileData") (.cons (.name (n% "cls")) (.cons (.name (n% "package")) .nil)) (.seq (.assign (.name (n% "icuData")) (.call (.name (n% "ICUData")) .nil)) (.seq (.assign (.tuple (.cons (.name (n% "dataOffset")) (.cons (.name (n% "dataHeader")) .nil))) (.call (.attr (.name (n% "icuData")) (n% "getDataOffsetAndHeader")) (.cons (.fstr [123, 112, 97, 99, 107, 97, 103, 101, 125, 46, 110, 114, 109]) .nil))) (.seq (.assign (.name (n% "baseOffset")) (.bin .add (.name (n% "dataOffset")) (.attr (.name (n% "dataHeader")) (n% "headerLength")))) (.seq (.assign (.name (n% "indicesStart")) (.name (n% "baseOffset"))) (.seq (.assign (.tuple (.cons (.name (n% "indicesCount")) .nil)) (.call (.attr (.name (n% "struct")) (n% "unpack")) (.cons (.str [73]) (.cons (.call (.attr (.name (n% "icuData")) (n% "getData")) (.cons (.name (n% "indicesStart")) (.cons (.bin .add (.name (n% "indicesStart")) (.num 4)) .nil))) .nil)))) (.seq (.aug .floorDiv (.name (n% "indicesCount")) (.num 4)) (.seq (.assign (.name (n% "indicesLimit")) (.bin .add (.name (n% "indicesStart")) (.bin .mul (.name (n% "indicesCount")) (.num 4)))) (.seq (.assign (.name (n% "indicesFormat")) (.fstr [123, 105, 110, 100, 105, 99, 101, 115, 67, 111, 117, 110, 116, 125, 73])) (.seq (.assign (.name (n% "indices")) (.call (.attr (.name (n% "struct")) (n% "unpack")) (.cons (.name (n% "indicesFormat")) (.cons (.call (.attr (.name (n% "icuData")) (n% "getData")) (.cons (.name (n% "indicesStart")) (.cons (.name (n% "indicesLimit")) .nil))) .nil)))) (.seq (.assign (.name (n% "trieStart")) (.bin .add (.index (.name (n% "indices")) (.name (n% "IX_NORM_TRIE_OFFSET"))) (.name (n% "baseOffset")))) (.seq (.assign (.name (n% "trieLimit")) (.bin .add (.index (.name (n% "indices")) (.name (n% "IX_EXTRA_DATA_OFFSET"))) (.name (n% "baseOffset")))) (.seq (.assign (.name (n% "trie")) (.call (.attr (.name (n% "CPTrie")) (n% "createFromData")) (.cons (.call (.attr (.name (n% "icuData")) (n% "getData")) (.cons (.name (n% "trieStart")) (.cons (.name (n% "trieLimit")) .nil))) .nil))) (.seq (.assign (.name (n% "extraDataStart")) (.name (n% "trieLimit"))) (.seq (.assign (.name (n% "extraDataLimit")) (.bin .add (.index (.name (n% "indices")) (.name (n% "IX_SMALL_FCD_OFFSET"))) (.name (n% "baseOffset")))) (.seq (.assign (.name (n% "extraDataLength")) (.bin .floorDiv (.bin .sub (.name (n% "extraDataLimit")) (.name (n% "extraDataStart"))) (.num 2))) (.seq (.assign (.name (n% "extraDataFormat")) (.fstr [123, 101, 120, 116, 114, 97, 68, 97, 116, 97, 76, 101, 110, 103, 116, 104, 125, 72])) (.seq (.assign (.name (n% "extraData")) (.call (.attr (.name (n% "struct")) (n% "unpack")) (.cons (.name (n% "extraDataFormat")) (.cons (.call (.attr (.name (n% "icuData")) (n% "getData")) (.cons (.name (n% "extraDataStart")) (.cons (.name (n% "extraDataLimit")) .nil))) .nil)))) (.seq (.ret (.call (.name (n% "Normalizer2")) (.cons (.name (n% "trie")) (.cons (.name (n% "indices")) (.cons (.name (n% "extraData")) .nil))))) .skip))))))))))))))))))))

/-- UnicodeData/Normalizer2.py:156-157 -/
def Normalizer2.getNorm16 : Stmt :=
  (.defn (n% "getNorm16") (.cons (.name (n% "self")) (.cons (.name (n% "c")) .nil)) (.seq (.ret (.cond (.call (.name (n% "isLead")) (.cons (.name (n% "c")) .nil)) (.name (n% "INERT")) (.call (.attr (.attr (.name (n% "self")) (n% "trie")) (n% "get")) (.cons (.name (n% "c")) .nil)))) .skip))

/-- UnicodeData/Normalizer2.py:159-160 -/
def Normalizer2.getRawNorm16 : Stmt :=
  (.defn (n% "getRawNorm16") (.cons (.name (n% "self")) (.cons (.name (n% "c")) .nil)) (.seq (.ret (.call (.attr (.attr (.name (n% "self")) (n% "trie")) (n% "get")) (.cons (.name (n% "c")) .nil))) .skip))

/-- UnicodeData/Normalizer2.py:162-163 -/
def Normalizer2.isMaybeOrNonZeroCC : Stmt :=
  (.defn (n% "isMaybeOrNonZeroCC") (.cons (.name (n% "self")) (.cons (.name (n% "norm16")) .nil)) (.seq (.ret (.bin .ge (.name (n% "norm16")) (.attr (.name (n% "self")) (n% "minMaybeYes")))) .skip))

/-- UnicodeData/Normalizer2.py:165-166 -/
def Normalizer2.isDecompNoAlgorithmic : Stmt :=
  (.defn (n% "isDecompNoAlgorithmic") (.cons (.name (n% "self")) (.cons (.name (n% "norm16")) .nil)) (.seq (.ret (.bin .ge (.name (n% "norm16")) (.attr (.name (n% "self")) (n% "limitNoNo")))) .skip))

/-- UnicodeData/Normalizer2.py:168-169 -/
def Normalizer2.isDecompYes : Stmt :=
  (.defn (n% "isDecompYes") (.cons (.name (n% "self")) (.cons (.name (n% "norm16")) .nil)) (.seq (.ret (.or (.bin .lt (.name (n% "norm16")) (.attr (.name (n% "self")) (n% "minYesNo"))) (.bin .le (.attr (.name (n% "self")) (n% "minMaybeYes")) (.name (n% "norm16"))))) .skip))

/-- UnicodeData/Normalizer2.py:171-172 -/
def Normalizer2.isInert : Stmt :=
  (.defn (n% "isInert") (.cons (.name (n% "self")) (.cons (.name (n% "norm16")) .nil)) (.seq (.ret (.bin .eq (.name (n% "norm16")) (.name (n% "INERT")))) .skip))

/-- UnicodeData/Normalizer2.py:174-175 -/
def Normalizer2.isJamoL : Stmt :=
  (.defn (n% "isJamoL") (.cons (.name (n% "self")) (.cons (.name (n% "norm16")) .nil)) (.seq (.ret (.bin .eq (.name (n% "norm16")) (.name (n% "JAMO_L")))) .skip))

/-- UnicodeData/Normalizer2.py:177-178 -/
def Normalizer2.isJamoVT : Stmt :=
  (.defn (n% "isJamoVT") (.cons (.name (n% "self")) (.cons (.name (n% "norm16")) .nil)) (.seq (.ret (.bin .eq (.name (n% "norm16")) (.name (n% "JAMO_VT")))) .skip))

/-- UnicodeData/Normalizer2.py:180-181 -/
def Normalizer2.hangulLVT : Stmt :=
  (.defn (n% "hangulLVT") (.cons (.name (n% "self")) .nil) (.seq (.ret (.bin .or (.attr (.name (n% "self")) (n% "minYesNoMappingsOnly")) (.name (n% "HAS_COMP_BOUNDARY_AFTER")))) .skip))

/-- UnicodeData/Normalizer2.py:183-184 -/
def Normalizer2.isHangulLV : Stmt :=
  (.defn (n% "isHangulLV") (.cons (.name (n% "self")) (.cons (.name (n% "norm16")) .nil)) (.seq (.ret (.bin .eq (.name (n% "norm16")) (.attr (.name (n% "self")) (n% "minYesNo")))) .skip))

/-- UnicodeData/Normalizer2.py:186-187 -/
def Normalizer2.isHangulLVT : Stmt :=
  (.defn (n% "isHangulLVT") (.cons (.name (n% "self")) (.cons (.name (n% "norm16")) .nil)) (.seq (.ret (.bin .eq (.name (n% "norm16")) (.call (.attr (.name (n% "self")) (n% "hangulLVT")) .nil))) .skip))

/-- UnicodeData/Normalizer2.py:189-201 -/
def Normalizer2.hangulDecomposition : Stmt :=
  (.defn (n% "hangulDecomposition") (.cons (.name (n% "self")) (.cons (.name (n% "c")) .nil)) (.seq (.assign (.name (n% "decomposition")) (.str [])) (.seq (.aug .sub (.name (n% "c")) (.name (n% "HANGUL_BASE"))) (.seq (.assign (.name (n% "c2")) (.bin .mod (.name (n% "c")) (.name (n% "JAMO_T_COUNT")))) (.seq (.aug .floorDiv (.name (n% "c")) (.name (n% "JAMO_T_COUNT"))) (.seq (.aug .add (.name (n% "decomposition")) (.call (.name (n% "chr")) (.cons (.bin .add (.name (n% "JAMO_L_BASE")) (.bin .floorDiv (.name (n% "c")) (.name (n% "JAMO_V_COUNT")))) .nil))) (.seq (.aug .add (.name (n% "decomposition")) (.call (.name (n% "chr")) (.cons (.bin .add (.name (n% "JAMO_V_BASE")) (.bin .mod (.name (n% "c")) (.name (n% "JAMO_V_COUNT")))) .nil))) (.seq (.ifs (.bin .ne (.name (n% "c2")) (.num 0)) (.seq (.aug .add (.name (n% "decomposition")) (.call (.name (n% "chr")) (.cons (.bin .add (.name (n% "JAMO_T_BASE")) (.name (n% "c2"))) .nil))) .skip) .skip) (.seq (.ret (.name (n% "decomposition"))) .skip)))))))))

/-- UnicodeData/Normalizer2.py:203-217 -/
def Normalizer2.rawHangulDecomposition : Stmt :=
  (.defn (n% "rawHangulDecomposition") (.cons (.name (n% "self")) (.cons (.name (n% "c")) .nil)) (.seq (.assign (.name (n% "decomposition")) (.str [])) (.seq (.assign (.name (n% "orig")) (.name (n% "c"))) (.seq (.aug .sub (.name (n% "c")) (.name (n% "HANGUL_BASE"))) (.seq (.assign (.name (n% "c2")) (.bin .mod (.name (n% "c")) (.name (n% "JAMO_T_COUNT")))) (.seq (.ifs (.bin .eq (.name (n% "c2")) (.num 0)) (.seq (.aug .floorDiv (.name (n% "c")) (.name (n% "JAMO_T_COUNT"))) (.seq (.aug .add (.name (n% "decomposition")) (.call (.name (n% "chr")) (.cons (.bin .add (.name (n% "JAMO_L_BASE")) (.bin .floorDiv (.name (n% "c")) (.name (n% "JAMO_V_COUNT")))) .nil))) (.seq (.aug .add (.name (n% "decomposition")) (.call (.name (n% "chr")) (.cons (.bin .add (.name (n% "JAMO_V_BASE")) (.bin .mod (.name (n% "c")) (.name (n% "JAMO_V_COUNT")))) .nil))) .skip))) (.seq (.aug .add (.name (n% "decomposition")) (.call (.name (n% "chr")) (.cons (.bin .sub (.name (n% "orig")) (.name (n% "c2"))) .nil))) (.seq (.aug .add (.name (n% "decomposition")) (.call (.name (n% "chr")) (.cons (.bin .add (.name (n% "JAMO_T_BASE")) (.name (n% "c2"))) .nil))) .skip))) (.seq (.ret (.name (n% "decomposition"))) .skip)))))))

/-- UnicodeData/Normalizer2.py:219-220 -/
def Normalizer2.mapAlgorithmic : Stmt :=
  (.defn (n% "mapAlgorithmic") (.cons (.name (n% "self")) (.cons (.name (n% "c")) (.cons (.name (n% "norm16")) .nil))) (.seq (.ret (.bin .sub (.bin .add (.name (n% "c")) (.bin .shr (.name (n% "norm16")) (.name (n% "DELTA_SHIFT")))) (.attr (.name (n% "self")) (n% "centerNoNoDelta")))) .skip))

/-- UnicodeData/Normalizer2.py:222-223 -/
def Normalizer2.getMappingIndex : Stmt :=
  (.defn (n% "getMappingIndex") (.cons (.name (n% "self")) (.cons (.name (n% "norm16")) .nil)) (.seq (.ret (.bin .shr (.name (n% "norm16")) (.name (n% "OFFSET_SHIFT")))) .skip))

/-- UnicodeData/Normalizer2.py:225-241 -/
def Normalizer2.stringFromData : Stmt :=
  (.defn (n% "stringFromData") (.cons (.name (n% "self")) (.cons (.name (n% "index")) (.cons (.name (n% "length")) .nil))) (.seq (.assign (.name (n% "s")) (.str [])) (.seq (.assign (.name (n% "lead")) (.num 0)) (.seq (.for (.name (n% "i")) (.call (.name (n% "range")) (.cons (.name (n% "length")) .nil)) (.seq (.assign (.name (n% "ch")) (.index (.attr (.name (n% "self")) (n% "extraData")) (.bin .add (.name (n% "index")) (.name (n% "i"))))) (.seq (.ifs (.bin .ne (.name (n% "lead")) (.num 0)) (.seq (.assign (.name (n% "ch")) (.call (.name (n% "charFromSurrogates")) (.cons (.name (n% "lead")) (.cons (.name (n% "ch")) .nil)))) (.seq (.assign (.name (n% "lead")) (.num 0)) .skip)) (.seq (.ifs (.call (.name (n% "isLead")) (.cons (.name (n% "ch")) .nil)) (.seq (.assign (.name (n% "lead")) (.name (n% "ch"))) (.seq .cont .skip)) .skip) .skip)) (.seq (.aug .add (.name (n% "s")) (.call (.name (n% "chr")) (.cons (.name (n% "ch")) .nil))) .skip)))) (.seq (.ret (.name (n% "s"))) .skip)))))

/-- UnicodeData/Normalizer2.py:244-271 -/
def Normalizer2.getDecomposition : Stmt :=
  (.defn (n% "getDecomposition") (.cons (.name (n% "self")) (.cons (.name (n% "c")) .nil)) (.seq (.assign (.name (n% "decomposition")) (.str [])) (.seq (.assign (.name (n% "norm16")) (.call (.attr (.name (n% "self")) (n% "getNorm16")) (.cons (.name (n% "c")) .nil))) (.seq (.ifs (.or (.bin .lt (.name (n% "c")) (.attr (.name (n% "self")) (n% "minDecompNoCP"))) (.call (.attr (.name (n% "self")) (n% "isMaybeOrNonZeroCC")) (.cons (.name (n% "norm16")) .nil))) (.seq (.ret (.name (n% "None"))) .skip) .skip) (.seq (.ifs (.call (.attr (.name (n% "self")) (n% "isDecompNoAlgorithmic")) (.cons (.name (n% "norm16")) .nil)) (.seq (.assign (.name (n% "c")) (.call (.attr (.name (n% "self")) (n% "mapAlgorithmic")) (.cons (.name (n% "c")) (.cons (.name (n% "norm16")) .nil)))) (.seq (.aug .add (.name (n% "decomposition")) (.call (.name (n% "chr")) (.cons (.name (n% "c")) .nil))) (.seq (.assign (.name (n% "norm16")) (.call (.attr (.name (n% "self")) (n% "getRawNorm16")) (.cons (.name (n% "c")) .nil))) .skip))) .skip) (.seq (.ifs (.bin .lt (.name (n% "norm16")) (.attr (.name (n% "self")) (n% "minYesNo"))) (.seq (.ret (.cond (.bin .gt (.call (.name (n% "len")) (.cons (.name (n% "decomposition")) .nil)) (.num 0)) (.name (n% "decomposition")) (.name (n% "None")))) .skip) .skip) (.seq (.assign (.name (n% "decomposition")) (.str [])) (.seq (.ifs (.or (.call (.attr (.name (n% "self")) (n% "isHangulLV")) (.cons (.name (n% "norm16")) .nil)) (.call (.attr (.name (n% "self")) (n% "isHangulLVT")) (.cons (.name (n% "norm16")) .nil))) (.seq (.ret (.call (.attr (.name (n% "self")) (n% "hangulDecomposition")) (.cons (.name (n% "c")) .nil))) .skip) .skip) (.seq (.assign (.name (n% "ix")) (.call (.attr (.name (n% "self")) (n% "getMappingIndex")) (.cons (.name (n% "norm16")) .nil))) (.seq (.assign (.name (n% "length")) (.bin .and (.index (.attr (.name (n% "self")) (n% "extraData")) (.name (n% "ix"))) (.name (n% "MAPPING_LENGTH_MASK")))) (.seq (.aug .add (.name (n% "decomposition")) (.call (.attr (.name (n% "self")) (n% "stringFromData")) (.cons (.bin .add (.name (n% "ix")) (.num 1)) (.cons (.name (n% "length")) .nil)))) (.seq (.ret (.name (n% "decomposition"))) .skip))))))))))))

/-- UnicodeData/Normalizer2.py:273-314 -/
def Normalizer2.getRawDecomposition : Stmt :=
  (.defn (n% "getRawDecomposition") (.cons (.name (n% "self")) (.cons (.name (n% "c")) .nil)) (.seq (.assign (.name (n% "decomposition")) (.str [])) (.seq (.assign (.name (n% "norm16")) (.call (.attr (.name (n% "self")) (n% "getNorm16")) (.cons (.name (n% "c")) .nil))) (.seq (.ifs (.or (.bin .lt (.name (n% "c")) (.attr (.name (n% "self")) (n% "minDecompNoCP"))) (.call (.attr (.name (n% "self")) (n% "isDecompYes")) (.cons (.name (n% "norm16")) .nil))) (.seq (.ret (.name (n% "None"))) .skip) .skip) (.seq (.ifs (.or (.call (.attr (.name (n% "self")) (n% "isHangulLV")) (.cons (.name (n% "norm16")) .nil)) (.call (.attr (.name (n% "self")) (n% "isHangulLVT")) (.cons (.name (n% "norm16")) .nil))) (.seq (.ret (.call (.attr (.name (n% "self")) (n% "rawHangulDecomposition")) (.cons (.name (n% "c")) .nil))) .skip) .skip) (.seq (.ifs (.call (.attr (.name (n% "self")) (n% "isDecompNoAlgorithmic")) (.cons (.name (n% "norm16")) .nil)) (.seq (.assign (.name (n% "c")) (.call (.attr (.name (n% "self")) (n% "mapAlgorithmic")) (.cons (.name (n% "c")) (.cons (.name (n% "norm16")) .nil)))) (.seq (.ret (.call (.name (n% "chr")) (.cons (.name (n% "c")) .nil))) .skip)) .skip) (.seq (.assign (.name (n% "ix")) (.call (.attr (.name (n% "self")) (n% "getMappingIndex")) (.cons (.name (n% "norm16")) .nil))) (.seq (.assign (.name (n% "firstUnit")) (.index (.attr (.name (n% "self")) (n% "extraData")) (.name (n% "ix")))) (.seq (.assign (.name (n% "length")) (.bin .and (.name (n% "firstUnit")) (.name (n% "MAPPING_LENGTH_MASK")))) (.seq (.ifs (.bin .and (.name (n% "firstUnit")) (.name (n% "MAPPING_HAS_RAW_MAPPING"))) (.seq (.assign (.name (n% "rawMappingIndex")) (.bin .sub (.bin .sub (.name (n% "ix")) (.bin .and (.bin .shr (.name (n% "firstUnit")) (.num 7)) (.num 1))) (.num 1))) (.seq (.assign (.name (n% "rm0")) (.index (.attr (.name (n% "self")) (n% "extraData")) (.name (n% "rawMappingIndex")))) (.seq (.ifs (.bin .le (.name (n% "rm0")) (.name (n% "MAPPING_LENGTH_MASK"))) (.seq (.assign (.name (n% "length")) (.name (n% "rm0"))) (.seq (.assign (.name (n% "ix")) (.bin .sub (.name (n% "rawMappingIndex")) (.name (n% "rm0")))) .skip)) (.seq (.aug .add (.name (n% "decomposition")) (.call (.name (n% "chr")) (.cons (.name (n% "rm0")) .nil))) (.seq (.aug .add (.name (n% "ix")) (.num 3)) (.seq (.aug .sub (.name (n% "length")) (.num 2)) .skip)))) .skip))) (.seq (.aug .add (.name (n% "ix")) (.num 1)) .skip)) (.seq (.ifs (.and (.not (.name (n% "decomposition"))) (.bin .eq (.name (n% "length")) (.num 0))) (.seq (.ret (.name (n% "None"))) .skip) .skip) (.seq (.aug .add (.name (n% "decomposition")) (.call (.attr (.name (n% "self")) (n% "stringFromData")) (.cons (.name (n% "ix")) (.cons (.name (n% "length")) .nil)))) (.seq (.ret (.name (n% "decomposition"))) .skip)))))))))))))

/-- UnicodeData/Normalizer2.py:99-314 -/
def classNormalizer2 : Stmt :=
  (.cls (n% "Normalizer2") (.cons (.name (n% "object")) .nil) (.seq Normalizer2.__init__ (.seq Normalizer2.createFromHardCodedData (.seq Normalizer2.createFromFileData (.seq Normalizer2.getNorm16 (.seq Normalizer2.getRawNorm16 (.seq Normalizer2.isMaybeOrNonZeroCC (.seq Normalizer2.isDecompNoAlgorithmic (.seq Normalizer2.isDecompYes (.seq Normalizer2.isInert (.seq Normalizer2.isJamoL (.seq Normalizer2.isJamoVT (.seq Normalizer2.hangulLVT (.seq Normalizer2.isHangulLV (.seq Normalizer2.isHangulLVT (.seq Normalizer2.hangulDecomposition (.seq Normalizer2.rawHangulDecomposition (.seq Normalizer2.mapAlgorithmic (.seq Normalizer2.getMappingIndex (.seq Normalizer2.stringFromData (.seq Normalizer2.getDecomposition (.seq Normalizer2.getRawDecomposition .skip))))))))))))))))))))))

/-- UnicodeData/Normalizer2.py, all of it. -/
def module : Stmt :=
  (.seq (.expr (.str [66, 97, 115, 101, 100, 32, 111, 110, 32, 110, 111, 114, 109, 97, 108, 105, 122, 101, 114, 50, 105, 109, 112, 108, 46, 99, 112, 112, 44, 32, 110, 111, 114, 109, 97, 108, 105, 122, 101, 114, 50, 105, 109, 112, 108, 46, 104, 32, 102, 114, 111, 109, 32, 73, 67, 85, 10, 10, 67, 114, 101, 97, 116, 101, 100, 32, 111, 110, 32, 74, 117, 110, 101, 32, 50, 44, 32, 50, 48, 50, 48, 10, 10, 64, 97, 117, 116, 104, 111, 114, 32, 69, 114, 105, 99, 32, 77, 97, 100, 101, 114, 10]))
  (.seq (.imp (n% "typing"))
  (.seq (.imp (n% "struct"))
  (.seq (.imps (n% "Norm2NFCData") .nil)
  (.seq (.imps (n% "ICUDataFile") (.cons (.name (n% "ICUData")) .nil))
  (.seq (.imps (n% "CPTrie") (.cons (.name (n% "CPTrie")) .nil))
  (.seq (.imps (n% "Utilities") (.cons (.name (n% "isLead")) (.cons (.name (n% "charFromSurrogates")) .nil)))
  (.seq (.assign (.name (n% "MIN_YES_YES_WITH_CC")) (.num 0xfe02))
  (.seq (.assign (.name (n% "JAMO_VT")) (.num 0xfe00))
  (.seq (.assign (.name (n% "MIN_NORMAL_MAYBE_YES")) (.num 0xfc00))
  (.seq (.assign (.name (n% "JAMO_L")) (.num 2))
  (.seq (.assign (.name (n% "INERT")) (.num 1))
  (.seq (.assign (.name (n% "HAS_COMP_BOUNDARY_AFTER")) (.num 1))
  (.seq (.assign (.name (n% "OFFSET_SHIFT")) (.num 1))
  (.seq (.assign (.name (n% "DELTA_TCCC_0")) (.num 0))
  (.seq (.assign (.name (n% "DELTA_TCCC_1")) (.num 2))
  (.seq (.assign (.name (n% "DELTA_TCCC_GT_1")) (.num 4))
  (.seq (.assign (.name (n% "DELTA_TCCC_MASK")) (.num 6))
  (.seq (.assign (.name (n% "DELTA_SHIFT")) (.num 3))
  (.seq (.assign (.name (n% "MAX_DELTA")) (.num 0x40))
  (.seq (.assign (.name (n% "IX_NORM_TRIE_OFFSET")) (.num 0))
  (.seq (.assign (.name (n% "IX_EXTRA_DATA_OFFSET")) (.num 1))
  (.seq (.assign (.name (n% "IX_SMALL_FCD_OFFSET")) (.num 2))
  (.seq (.assign (.name (n% "IX_RESERVED3_OFFSET")) (.num 3))
  (.seq (.assign (.name (n% "IX_RESERVED4_OFFSET")) (.num 4))
  (.seq (.assign (.name (n% "IX_RESERVED5_OFFSET")) (.num 5))
  (.seq (.assign (.name (n% "IX_RESERVED6_OFFSET")) (.num 6))
  (.seq (.assign (.name (n% "IX_TOTAL_SIZE")) (.num 7))
  (.seq (.assign (.name (n% "IX_MIN_DECOMP_NO_CP")) (.num 8))
  (.seq (.assign (.name (n% "IX_MIN_COMP_NO_MAYBE_CP")) (.num 9))
  (.seq (.assign (.name (n% "IX_MIN_YES_NO")) (.num 10))
  (.seq (.assign (.name (n% "IX_MIN_NO_NO")) (.num 11))
  (.seq (.assign (.name (n% "IX_LIMIT_NO_NO")) (.num 12))
  (.seq (.assign (.name (n% "IX_MIN_MAYBE_YES")) (.num 13))
  (.seq (.assign (.name (n% "IX_MIN_YES_NO_MAPPINGS_ONLY")) (.num 14))
  (.seq (.assign (.name (n% "IX_MIN_NO_NO_COMP_BOUNDARY_BEFORE")) (.num 15))
  (.seq (.assign (.name (n% "IX_MIN_NO_NO_COMP_NO_MAYBE_CC")) (.num 16))
  (.seq (.assign (.name (n% "IX_MIN_NO_NO_EMPTY")) (.num 17))
  (.seq (.assign (.name (n% "IX_MIN_LCCC_CP")) (.num 18))
  (.seq (.assign (.name (n% "IX_RESERVED19")) (.num 19))
  (.seq (.assign (.name (n% "IX_COUNT")) (.num 20))
  (.seq (.assign (.name (n% "MAPPING_HAS_CCC_LCCC_WORD")) (.num 0x80))
  (.seq (.assign (.name (n% "MAPPING_HAS_RAW_MAPPING")) (.num 0x40))
  (.seq (.assign (.name (n% "MAPPING_LENGTH_MASK")) (.num 0x1f))
  (.seq (.assign (.name (n% "JAMO_L_BASE")) (.num 0x1100))
  (.seq (.assign (.name (n% "JAMO_L_END")) (.num 0x1112))
  (.seq (.assign (.name (n% "JAMO_V_BASE")) (.num 0x1161))
  (.seq (.assign (.name (n% "JAMO_V_END")) (.num 0x1175))
  (.seq (.assign (.name (n% "JAMO_T_BASE")) (.num 0x11a7))
  (.seq (.assign (.name (n% "JAMO_T_END")) (.num 0x11c2))
  (.seq (.assign (.name (n% "HANGUL_BASE")) (.num 0xac00))
  (.seq (.assign (.name (n% "HANGUL_END")) (.num 0xd7a3))
  (.seq (.assign (.name (n% "JAMO_L_COUNT")) (.num 19))
  (.seq (.assign (.name (n% "JAMO_V_COUNT")) (.num 21))
  (.seq (.assign (.name (n% "JAMO_T_COUNT")) (.num 28))
  (.seq (.assign (.name (n% "JAMO_VT_COUNT")) (.bin .mul (.name (n% "JAMO_V_COUNT")) (.name (n% "JAMO_T_COUNT"))))
  (.seq (.assign (.name (n% "HANGUL_COUNT")) (.bin .mul (.bin .mul (.name (n% "JAMO_L_COUNT")) (.name (n% "JAMO_V_COUNT"))) (.name (n% "JAMO_T_COUNT"))))
  (.seq (.assign (.name (n% "HANGUL_LIMIT")) (.bin .add (.name (n% "HANGUL_BASE")) (.name (n% "HANGUL_COUNT"))))
  (.seq classNormalizer2
  (.seq (.assign (.name (n% "nfcTrie")) (.call (.attr (.name (n% "Normalizer2")) (n% "createFromHardCodedData")) .nil))
  (.seq (.assign (.name (n% "nfkcTrie")) (.call (.attr (.name (n% "Normalizer2")) (n% "createFromFileData")) (.cons (.str [110, 102, 107, 99]) .nil)))
  (.seq (.assign (.name (n% "nfkc_cfTrie")) (.call (.attr (.name (n% "Normalizer2")) (n% "createFromFileData")) (.cons (.str [110, 102, 107, 99, 95, 99, 102]) .nil))) .skip))))))))))))))))))))))))))))))))))))))))))))))))))))))))))))))

end Normalizer2

namespace UnicodeSet

/-- UnicodeData/UnicodeSet.py:23-37 -/
def _pinCodePoint : Stmt :=
  (.defn (n% "_pinCodePoint") (.cons (.name (n% "cp")) .nil) (.seq (.expr (.str [32, 32, 32, 32, 77, 111, 100, 105, 102, 121, 32, 116, 104, 101, 32, 103, 105, 118, 101, 110, 32, 99, 111, 100, 101, 32, 112, 111, 105, 110, 116, 32, 115, 111, 32, 116, 104, 97, 116, 32, 105, 116, 32, 105, 115, 32, 105, 110, 32, 116, 104, 101, 32, 114, 97, 110, 103, 101, 32, 91, 85, 78, 73, 67, 79, 68, 69, 95, 83, 69, 84, 95, 76, 79, 87, 32, 45, 32, 85, 78, 73, 67, 79, 68, 69, 95, 83, 69, 84, 95, 72, 73, 71, 72, 93, 46, 10, 32, 32, 32, 32, 86, 97, 108, 117, 101, 115, 32, 108, 101, 115, 115, 32, 116, 104, 97, 116, 32, 85, 78, 73, 67, 79, 68, 69, 95, 83, 69, 84, 95, 76, 79, 87, 32, 119, 105, 108, 108, 32, 98, 101, 32, 115, 101, 116, 32, 116, 111, 32, 85, 78, 73, 67, 79, 68, 69, 95, 83, 69, 84, 95, 76, 79, 87, 32, 97, 110, 100, 32, 118, 97, 108, 117, 101, 115, 32, 103, 114, 101, 97, 116, 101, 114, 32, 116, 104, 97, 110, 10, 32, 32, 32, 32, 116, 111, 32, 85, 78, 73, 67, 79, 68, 69, 95, 83, 69, 84, 95, 72, 73, 71, 72, 32, 45, 32, 49, 32, 119, 105, 108, 108, 32, 98, 101, 32, 115, 101, 116, 32, 116, 111, 32, 85, 78, 73, 67, 79, 68, 69, 95, 83, 69, 84, 95, 72, 73, 71, 72, 32, 45, 32, 49, 10, 10, 32, 32, 32, 32, 58, 112, 97, 114, 97, 109, 32, 99, 112, 58, 32, 116, 104, 101, 32, 99, 111, 100, 101, 32, 112, 111, 105, 110, 116, 10, 32, 32, 32, 32, 58, 114, 101, 116, 117, 114, 110, 58, 32, 116, 104, 101, 32, 112, 105, 110, 110, 101, 100, 32, 118, 97, 108, 117, 101, 10, 32, 32, 32, 32])) (.seq (.ifs (.bin .lt (.name (n% "cp")) (.name (n% "UNICODE_SET_LOW"))) (.seq (.assign (.name (n% "cp")) (.name (n% "UNICODE_SET_LOW"))) .skip) (.seq (.ifs (.bin .gt (.name (n% "cp")) (.bin .sub (.name (n% "UNICODE_SET_HIGH")) (.num 1))) (.seq (.assign (.name (n% "cp")) (.bin .sub (.name (n% "UNICODE_SET_HIGH")) (.num 1))) .skip) .skip) .skip)) (.seq (.ret (.name (n% "cp"))) .skip))))

/-- UnicodeData/UnicodeSet.py:63-98 -/
def UnicodeSet._findCodePoint : Stmt :=
  (.defn (n% "_findCodePoint") (.cons (.name (n% "self")) (.cons (.name (n% "cp")) .nil)) (.seq (.expr (.str [32, 32, 32, 32, 32, 32, 32, 32, 82, 101, 116, 117, 114, 110, 115, 32, 116, 104, 101, 32, 115, 109, 97, 108, 108, 101, 115, 116, 32, 118, 97, 108, 117, 101, 32, 105, 32, 115, 117, 99, 104, 32, 116, 104, 97, 116, 32, 99, 112, 32, 60, 32, 115, 101, 108, 102, 46, 108, 105, 115, 116, 91, 105, 93, 46, 32, 67, 97, 108, 108, 101, 114, 10, 32, 32, 32, 32, 32, 32, 32, 32, 109, 117, 115, 116, 32, 105, 110, 115, 117, 114, 101, 32, 116, 104, 97, 116, 32, 99, 112, 32, 105, 115, 32, 97, 32, 108, 101, 103, 97, 108, 32, 118, 97, 108, 117, 101, 32, 111, 114, 32, 116, 104, 105, 115, 32, 102, 117, 110, 99, 116, 105, 111, 110, 32, 119, 105, 108, 108, 32, 101, 110, 116, 101, 114, 10, 32, 32, 32, 32, 32, 32, 32, 32, 97, 110, 32, 105, 110, 102, 105, 110, 105, 116, 101, 32, 108, 111, 111, 112, 46, 10, 10, 32, 32, 32, 32, 32, 32, 32, 32, 58, 112, 97, 114, 97, 109, 32, 99, 112, 58, 32, 97, 32, 99, 104, 97, 114, 97, 99, 116, 101, 114, 32, 105, 110, 32, 116, 104, 101, 32, 114, 97, 110, 103, 101, 32, 91, 85, 78, 73, 67, 79, 68, 69, 95, 83, 69, 84, 95, 76, 79, 87, 32, 45, 32, 85, 78, 73, 67, 79, 68, 69, 95, 83, 69, 84, 95, 72, 73, 71, 72, 93, 10, 32, 32, 32, 32, 32, 32, 32, 32, 58, 114, 101, 116, 117, 114, 110, 58, 32, 116, 104, 101, 32, 115, 109, 97, 108, 108, 101, 115, 116, 32, 105, 110, 116, 101, 103, 101, 114, 32, 105, 32, 105, 110, 32, 116, 104, 101, 32, 114, 97, 110, 103, 101, 32, 91, 48, 32, 45, 32, 108, 101, 110, 40, 115, 101, 108, 102, 46, 108, 105, 115, 116, 41, 32, 45, 32, 49, 44, 32, 105, 110, 99, 108, 117, 115, 105, 118, 101, 32, 115, 117, 99, 104, 32, 116, 104, 97, 116, 32, 99, 112, 32, 108, 101, 115, 115, 32, 116, 104, 97, 110, 32, 115, 101, 108, 102, 46, 108, 105, 115, 116, 91, 105, 93, 10, 32, 32, 32, 32, 32, 32, 32, 32])) (.seq (.ifs (.bin .lt (.name (n% "cp")) (.index (.attr (.name (n% "self")) (n% "list")) (.num 0))) (.seq (.ret (.num 0)) .skip) .skip) (.seq (.assign (.name (n% "length")) (.call (.name (n% "len")) (.cons (.attr (.name (n% "self")) (n% "list")) .nil))) (.seq (.assign (.name (n% "lo")) (.num 0)) (.seq (.assign (.name (n% "hi")) (.bin .sub (.name (n% "length")) (.num 1))) (.seq (.ifs (.or (.bin .ge (.name (n% "lo")) (.name (n% "hi"))) (.bin .ge (.name (n% "cp")) (.index (.attr (.name (n% "self")) (n% "list")) (.bin .sub (.name (n% "hi")) (.num 1))))) (.seq (.ret (.name (n% "hi"))) .skip) .skip) (.seq (.while (.name (n% "True")) (.seq (.assign (.name (n% "i")) (.bin .shr (.bin .add (.name (n% "lo")) (.name (n% "hi"))) (.num 1))) (.seq (.ifs (.bin .eq (.name (n% "i")) (.name (n% "lo"))) (.seq .brk .skip) .skip) (.seq (.ifs (.bin .lt (.name (n% "cp")) (.index (.attr (.name (n% "self")) (n% "list")) (.name (n% "i")))) (.seq (.assign (.name (n% "hi")) (.name (n% "i"))) .skip) (.seq (.assign (.name (n% "lo")) (.name (n% "i"))) .skip)) .skip)))) (.seq (.ret (.name (n% "hi"))) .skip)))))))))

/-- UnicodeData/UnicodeSet.py:100-212 -/
def UnicodeSet._retainList : Stmt :=
  (.defn (n% "_retainList") (.cons (.name (n% "self")) (.cons (.name (n% "other")) (.cons (.kwarg (n% "polarity") (.num 0)) .nil))) (.seq (.expr (.str [32, 32, 32, 32, 32, 32, 32, 32, 73, 110, 116, 101, 114, 115, 101, 99, 116, 32, 119, 105, 116, 104, 32, 116, 104, 101, 32, 108, 105, 115, 116, 32, 111, 116, 104, 101, 114, 44, 32, 97, 115, 32, 99, 111, 110, 116, 114, 111, 108, 108, 101, 100, 32, 98, 121, 32, 112, 111, 108, 97, 114, 105, 116, 121, 46, 10, 10, 32, 32, 32, 32, 32, 32, 32, 32, 112, 111, 108, 97, 114, 105, 116, 121, 32, 61, 32, 48, 58, 32, 120, 32, 105, 110, 116, 101, 114, 115, 101, 99, 116, 32, 121, 10, 10, 32, 32, 32, 32, 32, 32, 32, 32, 112, 111, 108, 97, 114, 105, 116, 121, 32, 61, 32, 50, 58, 32, 120, 32, 105, 110, 116, 101, 114, 115, 101, 99, 116, 32, 126, 121, 32, 40, 115, 101, 116, 45, 109, 105, 110, 117, 115, 41, 10, 10, 32, 32, 32, 32, 32, 32, 32, 32, 112, 111, 108, 97, 114, 105, 116, 121, 32, 61, 32, 49, 58, 32, 126, 120, 32, 105, 110, 116, 101, 114, 115, 101, 99, 116, 32, 121, 10, 10, 32, 32, 32, 32, 32, 32, 32, 32, 112, 111, 108, 97, 114, 105, 116, 121, 32, 61, 32, 51, 58, 32, 126, 120, 32, 105, 110, 116, 101, 114, 115, 101, 99, 116, 32, 126, 121, 10, 10, 10, 32, 32, 32, 32, 32, 32, 32, 32, 58, 112, 97, 114, 97, 109, 32, 111, 116, 104, 101, 114, 58, 32, 116, 104, 101, 32, 108, 105, 115, 116, 32, 119, 105, 116, 104, 32, 119, 104, 105, 99, 104, 32, 116, 111, 32, 105, 110, 116, 101, 114, 115, 101, 99, 116, 10, 32, 32, 32, 32, 32, 32, 32, 32, 58, 112, 97, 114, 97, 109, 32, 112, 111, 108, 97, 114, 105, 116, 121, 58, 32, 116, 104, 101, 32, 116, 121, 112, 101, 32, 111, 102, 32, 105, 110, 116, 101, 114, 115, 101, 99, 116, 105, 111, 110, 44, 32, 97, 115, 32, 100, 101, 115, 99, 114, 105, 98, 101, 100, 32, 97, 98, 111, 118, 101, 46, 32, 40, 100, 101, 102, 97, 117, 108, 116, 32, 105, 115, 32, 48, 41, 10, 32, 32, 32, 32, 32, 32, 32, 32, 58, 114, 101, 116, 117, 114, 110, 58, 32, 115, 101, 108, 102, 44, 32, 116, 111, 32, 115, 117, 112, 112, 111, 114, 116, 32, 99, 104, 97, 105, 110, 105, 110, 103, 46, 10, 32, 32, 32, 32, 32, 32, 32, 32])) (.seq (.assign (.name (n% "buffer")) (.list .nil)) (.seq (.assign (.name (n% "i")) (.num 1)) (.seq (.assign (.name (n% "j")) (.num 1)) (.seq (.assign (.name (n% "a")) (.index (.attr (.name (n% "self")) (n% "list")) (.num 0))) (.seq (.assign (.name (n% "b")) (.index (.name (n% "other")) (.num 0))) (.seq (.while (.name (n% "True")) (.seq (.ifs (.bin .eq (.name (n% "polarity")) (.num 0)) (.seq (.ifs (.bin .lt (.name (n% "a")) (.name (n% "b"))) (.seq (.assign (.name (n% "a")) (.index (.attr (.name (n% "self")) (n% "list")) (.name (n% "i")))) (.seq (.aug .add (.name (n% "i")) (.num 1)) (.seq (.aug .xor (.name (n% "polarity")) (.num 1)) .skip))) (.seq (.ifs (.bin .lt (.name (n% "b")) (.name (n% "a"))) (.seq (.assign (.name (n% "b")) (.index (.name (n% "other")) (.name (n% "j")))) (.seq (.aug .add (.name (n% "j")) (.num 1)) (.seq (.aug .xor (.name (n% "polarity")) (.num 2)) .skip))) (.seq (.ifs (.bin .eq (.name (n% "a")) (.name (n% "UNICODE_SET_HIGH"))) (.seq .brk .skip) .skip) (.seq (.expr (.call (.attr (.name (n% "buffer")) (n% "append")) (.cons (.name (n% "a")) .nil))) (.seq (.assign (.name (n% "a")) (.index (.attr (.name (n% "self")) (n% "list")) (.name (n% "i")))) (.seq (.aug .add (.name (n% "i")) (.num 1)) (.seq (.aug .xor (.name (n% "polarity")) (.num 1)) (.seq (.assign (.name (n% "b")) (.index (.name (n% "other")) (.name (n% "j")))) (.seq (.aug .add (.name (n% "j")) (.num 1)) (.seq (.aug .xor (.name (n% "polarity")) (.num 2)) .skip))))))))) .skip)) .skip) (.seq (.ifs (.bin .eq (.name (n% "polarity")) (.num 3)) (.seq (.ifs (.bin .lt (.name (n% "a")) (.name (n% "b"))) (.seq (.expr (.call (.attr (.name (n% "buffer")) (n% "append")) (.cons (.name (n% "a")) .nil))) (.seq (.assign (.name (n% "a")) (.index (.attr (.name (n% "self")) (n% "list")) (.name (n% "i")))) (.seq (.aug .add (.name (n% "i")) (.num 1)) (.seq (.aug .xor (.name (n% "polarity")) (.num 1)) .skip)))) (.seq (.ifs (.bin .lt (.name (n% "b")) (.name (n% "a"))) (.seq (.expr (.call (.attr (.name (n% "buffer")) (n% "append")) (.cons (.name (n% "b")) .nil))) (.seq (.assign (.name (n% "b")) (.index (.name (n% "other")) (.name (n% "j")))) (.seq (.aug .add (.name (n% "j")) (.num 1)) (.seq (.aug .xor (.name (n% "polarity")) (.num 2)) .skip)))) (.seq (.ifs (.bin .eq (.name (n% "a")) (.name (n% "UNICODE_SET_HIGH"))) (.seq .brk .skip) .skip) (.seq (.expr (.call (.attr (.name (n% "buffer")) (n% "append")) (.cons (.name (n% "a")) .nil))) (.seq (.assign (.name (n% "a")) (.index (.attr (.name (n% "self")) (n% "list")) (.name (n% "i")))) (.seq (.aug .add (.name (n% "i")) (.num 1)) (.seq (.aug .xor (.name (n% "polarity")) (.num 1)) (.seq (.assign (.name (n% "b")) (.index (.name (n% "other")) (.name (n% "j")))) (.seq (.aug .add (.name (n% "j")) (.num 1)) (.seq (.aug .xor (.name (n% "polarity")) (.num 2)) .skip))))))))) .skip)) .skip) (.seq (.ifs (.bin .eq (.name (n% "polarity")) (.num 1)) (.seq (.ifs (.bin .lt (.name (n% "a")) (.name (n% "b"))) (.seq (.assign (.name (n% "a")) (.index (.attr (.name (n% "self")) (n% "list")) (.name (n% "i")))) (.seq (.aug .add (.name (n% "i")) (.num 1)) (.seq (.aug .xor (.name (n% "polarity")) (.num 1)) .skip))) (.seq (.ifs (.bin .lt (.name (n% "b")) (.name (n% "a"))) (.seq (.expr (.call (.attr (.name (n% "buffer")) (n% "append")) (.cons (.name (n% "b")) .nil))) (.seq (.assign (.name (n% "b")) (.index (.name (n% "other")) (.name (n% "j")))) (.seq (.aug .add (.name (n% "j")) (.num 1)) (.seq (.aug .xor (.name (n% "polarity")) (.num 2)) .skip)))) (.seq (.ifs (.bin .eq (.name (n% "a")) (.name (n% "UNICODE_SET_HIGH"))) (.seq .brk .skip) .skip) (.seq (.assign (.name (n% "a")) (.index (.attr (.name (n% "self")) (n% "list")) (.name (n% "i")))) (.seq (.aug .add (.name (n% "i")) (.num 1)) (.seq (.aug .xor (.name (n% "polarity")) (.num 1)) (.seq (.assign (.name (n% "b")) (.index (.name (n% "other")) (.name (n% "j")))) (.seq (.aug .add (.name (n% "j")) (.num 1)) (.seq (.aug .xor (.name (n% "polarity")) (.num 2)) .skip)))))))) .skip)) .skip) (.seq (.ifs (.bin .eq (.name (n% "polarity")) (.num 2)) (.seq (.ifs (.bin .lt (.name (n% "b")) (.name (n% "a"))) (.seq (.assign (.name (n% "b")) (.index (.name (n% "other")) (.name (n% "j")))) (.seq (.aug .add (.name (n% "j")) (.num 1)) (.seq (.aug .xor (.name (n% "polarity")) (.num 2)) .skip))) (.seq (.ifs (.bin .lt (.name (n% "a")) (.name (n% "b"))) (.seq (.expr (.call (.attr (.name (n% "buffer")) (n% "append")) (.cons (.name (n% "a")) .nil))) (.seq (.assign (.name (n% "a")) (.index (.attr (.name (n% "self")) (n% "list")) (.name (n% "i")))) (.seq (.aug .add (.name (n% "i")) (.num 1)) (.seq (.aug .xor (.name (n% "polarity")) (.num 1)) .skip)))) (.seq (.ifs (.bin .eq (.name (n% "a")) (.name (n% "UNICODE_SET_HIGH"))) (.seq .brk .skip) .skip) (.seq (.assign (.name (n% "a")) (.index (.attr (.name (n% "self")) (n% "list")) (.name (n% "i")))) (.seq (.aug .add (.name (n% "i")) (.num 1)) (.seq (.aug .xor (.name (n% "polarity")) (.num 1)) (.seq (.assign (.name (n% "b")) (.index (.name (n% "other")) (.name (n% "j")))) (.seq (.aug .add (.name (n% "j")) (.num 1)) (.seq (.aug .xor (.name (n% "polarity")) (.num 2)) .skip)))))))) .skip)) .skip) .skip) .skip)) .skip)) .skip)) .skip)) (.seq (.expr (.call (.attr (.name (n% "buffer")) (n% "append")) (.cons (.name (n% "UNICODE_SET_HIGH")) .nil))) (.seq (.assign (.attr (.name (n% "self")) (n% "list")) (.name (n% "buffer"))) (.seq (.ret (.name (n% "self"))) .skip)))))))))))

/-- UnicodeData/UnicodeSet.py:214-337 -/
def UnicodeSet._addList : Stmt :=
  (.defn (n% "_addList") (.cons (.name (n% "self")) (.cons (.name (n% "other")) (.cons (.kwarg (n% "polarity") (.num 0)) .nil))) (.seq (.expr (.str [10, 10, 32, 32, 32, 32, 32, 32, 32, 32, 85, 110, 105, 111, 110, 32, 116, 104, 101, 32, 115, 101, 116, 32, 119, 105, 116, 104, 32, 116, 104, 101, 32, 108, 105, 115, 116, 32, 111, 116, 104, 101, 114, 44, 32, 97, 115, 32, 99, 111, 110, 116, 114, 111, 108, 108, 101, 100, 32, 98, 121, 32, 112, 111, 108, 97, 114, 105, 116, 121, 46, 10, 10, 32, 32, 32, 32, 32, 32, 32, 32, 112, 111, 108, 97, 114, 105, 116, 121, 32, 61, 32, 48, 58, 32, 120, 32, 117, 110, 105, 111, 110, 32, 121, 10, 10, 32, 32, 32, 32, 32, 32, 32, 32, 112, 111, 108, 97, 114, 105, 116, 121, 32, 61, 32, 50, 58, 32, 120, 32, 117, 110, 105, 111, 110, 32, 126, 121, 10, 10, 32, 32, 32, 32, 32, 32, 32, 32, 112, 111, 108, 97, 114, 105, 116, 121, 32, 61, 32, 49, 58, 32, 126, 120, 32, 117, 110, 105, 111, 110, 32, 121, 10, 10, 32, 32, 32, 32, 32, 32, 32, 32, 112, 111, 108, 97, 114, 105, 116, 121, 32, 61, 32, 51, 58, 32, 126, 120, 32, 117, 110, 105, 111, 110, 32, 126, 121, 10, 10, 10, 32, 32, 32, 32, 32, 32, 32, 32, 58, 112, 97, 114, 97, 109, 32, 111, 116, 104, 101, 114, 58, 32, 116, 104, 101, 32, 108, 105, 115, 116, 32, 119, 105, 116, 104, 32, 119, 104, 105, 99, 104, 32, 116, 111, 32, 117, 110, 105, 111, 110, 46, 10, 32, 32, 32, 32, 32, 32, 32, 32, 58, 112, 97, 114, 97, 109, 32, 112, 111, 108, 97, 114, 105, 116, 121, 58, 32, 116, 104, 101, 32, 116, 121, 112, 101, 32, 111, 102, 32, 117, 110, 105, 111, 110, 44, 32, 97, 115, 32, 100, 101, 115, 99, 114, 105, 98, 101, 100, 32, 97, 98, 111, 118, 101, 46, 32, 40, 100, 101, 102, 97, 117, 108, 116, 32, 105, 115, 32, 48, 41, 10, 32, 32, 32, 32, 32, 32, 32, 32, 58, 114, 101, 116, 117, 114, 110, 58, 32, 115, 101, 108, 102, 44, 32, 116, 111, 32, 115, 117, 112, 112, 111, 114, 116, 32, 99, 104, 97, 105, 110, 105, 110, 103, 46, 10, 32, 32, 32, 32, 32, 32, 32, 32])) (.seq (.assign (.name (n% "buffer")) (.list .nil)) (.seq (.assign (.name (n% "i")) (.num 1)) (.seq (.assign (.name (n% "j")) (.num 1)) (.seq (.assign (.name (n% "a")) (.index (.attr (.name (n% "self")) (n% "list")) (.num 0))) (.seq (.assign (.name (n% "b")) (.index (.name (n% "other")) (.num 0))) (.seq (.while (.name (n% "True")) (.seq (.ifs (.bin .eq (.name (n% "polarity")) (.num 0)) (.seq (.ifs (.bin .lt (.name (n% "a")) (.name (n% "b"))) (.seq (.ifs (.and (.bin .gt (.call (.name (n% "len")) (.cons (.name (n% "buffer")) .nil)) (.num 0)) (.bin .le (.name (n% "a")) (.index (.name (n% "buffer")) (.neg (.num 1))))) (.seq (.assign (.name (n% "a")) (.call (.name (n% "max")) (.cons (.index (.attr (.name (n% "self")) (n% "list")) (.name (n% "i"))) (.cons (.call (.attr (.name (n% "buffer")) (n% "pop")) .nil) .nil)))) .skip) (.seq (.expr (.call (.attr (.name (n% "buffer")) (n% "append")) (.cons (.name (n% "a")) .nil))) (.seq (.assign (.name (n% "a")) (.index (.attr (.name (n% "self")) (n% "list")) (.name (n% "i")))) .skip))) (.seq (.aug .add (.name (n% "i")) (.num 1)) (.seq (.aug .xor (.name (n% "polarity")) (.num 1)) .skip))) (.seq (.ifs (.bin .lt (.name (n% "b")) (.name (n% "a"))) (.seq (.ifs (.and (.bin .gt (.call (.name (n% "len")) (.cons (.name (n% "buffer")) .nil)) (.num 0)) (.bin .lt (.name (n% "b")) (.index (.name (n% "buffer")) (.neg (.num 1))))) (.seq (.assign (.name (n% "b")) (.call (.name (n% "max")) (.cons (.index (.name (n% "other")) (.name (n% "j"))) (.cons (.call (.attr (.name (n% "buffer")) (n% "pop")) .nil) .nil)))) .skip) (.seq (.expr (.call (.attr (.name (n% "buffer")) (n% "append")) (.cons (.name (n% "b")) .nil))) (.seq (.assign (.name (n% "b")) (.index (.name (n% "other")) (.name (n% "j")))) .skip))) (.seq (.aug .add (.name (n% "j")) (.num 1)) (.seq (.aug .xor (.name (n% "polarity")) (.num 2)) .skip))) (.seq (.ifs (.bin .eq (.name (n% "a")) (.name (n% "UNICODE_SET_HIGH"))) (.seq .brk .skip) .skip) (.seq (.ifs (.and (.bin .gt (.call (.name (n% "len")) (.cons (.name (n% "buffer")) .nil)) (.num 0)) (.bin .lt (.name (n% "a")) (.index (.name (n% "buffer")) (.neg (.num 1))))) (.seq (.assign (.name (n% "a")) (.call (.name (n% "max")) (.cons (.index (.attr (.name (n% "self")) (n% "list")) (.name (n% "i"))) (.cons (.call (.attr (.name (n% "buffer")) (n% "pop")) .nil) .nil)))) .skip) (.seq (.expr (.call (.attr (.name (n% "buffer")) (n% "append")) (.cons (.name (n% "a")) .nil))) (.seq (.assign (.name (n% "a")) (.index (.attr (.name (n% "self")) (n% "list")) (.name (n% "i")))) .skip))) (.seq (.aug .add (.name (n% "i")) (.num 1)) (.seq (.aug .xor (.name (n% "polarity")) (.num 1)) (.seq (.assign (.name (n% "b")) (.index (.name (n% "other")) (.name (n% "j")))) (.seq (.aug .add (.name (n% "j")) (.num 1)) (.seq (.aug .xor (.name (n% "polarity")) (.num 2)) .skip)))))))) .skip)) .skip) (.seq (.ifs (.bin .eq (.name (n% "polarity")) (.num 3)) (.seq (.ifs (.bin .le (.name (n% "b")) (.name (n% "a"))) (.seq (.ifs (.bin .eq (.name (n% "a")) (.name (n% "UNICODE_SET_HIGH"))) (.seq .brk .skip) .skip) (.seq (.expr (.call (.attr (.name (n% "buffer")) (n% "append")) (.cons (.name (n% "a")) .nil))) .skip)) (.seq (.ifs (.bin .eq (.name (n% "b")) (.name (n% "UNICODE_SET_HIGH"))) (.seq .brk .skip) .skip) (.seq (.expr (.call (.attr (.name (n% "buffer")) (n% "append")) (.cons (.name (n% "b")) .nil))) .skip))) (.seq (.assign (.name (n% "a")) (.index (.attr (.name (n% "self")) (n% "list")) (.name (n% "i")))) (.seq (.aug .add (.name (n% "i")) (.num 1)) (.seq (.aug .xor (.name (n% "polarity")) (.num 1)) (.seq (.assign (.name (n% "b")) (.index (.name (n% "other")) (.name (n% "j")))) (.seq (.aug .add (.name (n% "j")) (.num 1)) (.seq (.aug .xor (.name (n% "polarity")) (.num 2)) .skip))))))) (.seq (.ifs (.bin .eq (.name (n% "polarity")) (.num 1)) (.seq (.ifs (.bin .lt (.name (n% "a")) (.name (n% "b"))) (.seq (.expr (.call (.attr (.name (n% "buffer")) (n% "append")) (.cons (.name (n% "a")) .nil))) (.seq (.assign (.name (n% "a")) (.index (.attr (.name (n% "self")) (n% "list")) (.name (n% "i")))) (.seq (.aug .add (.name (n% "i")) (.num 1)) (.seq (.aug .xor (.name (n% "polarity")) (.num 1)) .skip)))) (.seq (.ifs (.bin .lt (.name (n% "b")) (.name (n% "a"))) (.seq (.assign (.name (n% "b")) (.index (.name (n% "other")) (.name (n% "j")))) (.seq (.aug .add (.name (n% "j")) (.num 1)) (.seq (.aug .xor (.name (n% "polarity")) (.num 2)) .skip))) (.seq (.ifs (.bin .eq (.name (n% "a")) (.name (n% "UNICODE_SET_HIGH"))) (.seq .brk .skip) .skip) (.seq (.assign (.name (n% "a")) (.index (.attr (.name (n% "self")) (n% "list")) (.name (n% "i")))) (.seq (.aug .add (.name (n% "i")) (.num 1)) (.seq (.aug .xor (.name (n% "polarity")) (.num 1)) (.seq (.assign (.name (n% "b")) (.index (.name (n% "other")) (.name (n% "j")))) (.seq (.aug .add (.name (n% "j")) (.num 1)) (.seq (.aug .xor (.name (n% "polarity")) (.num 2)) .skip)))))))) .skip)) .skip) (.seq (.ifs (.bin .eq (.name (n% "polarity")) (.num 2)) (.seq (.ifs (.bin .lt (.name (n% "b")) (.name (n% "a"))) (.seq (.expr (.call (.attr (.name (n% "buffer")) (n% "append")) (.cons (.name (n% "b")) .nil))) (.seq (.assign (.name (n% "b")) (.index (.name (n% "other")) (.name (n% "j")))) (.seq (.aug .add (.name (n% "j")) (.num 1)) (.seq (.aug .xor (.name (n% "polarity")) (.num 2)) .skip)))) (.seq (.ifs (.bin .lt (.name (n% "a")) (.name (n% "b"))) (.seq (.assign (.name (n% "a")) (.index (.attr (.name (n% "self")) (n% "list")) (.name (n% "i")))) (.seq (.aug .add (.name (n% "i")) (.num 1)) (.seq (.aug .xor (.name (n% "polarity")) (.num 1)) .skip))) (.seq (.ifs (.bin .eq (.name (n% "a")) (.name (n% "UNICODE_SET_HIGH"))) (.seq .brk .skip) .skip) (.seq (.assign (.name (n% "a")) (.index (.attr (.name (n% "self")) (n% "list")) (.name (n% "i")))) (.seq (.aug .add (.name (n% "i")) (.num 1)) (.seq (.aug .xor (.name (n% "polarity")) (.num 1)) (.seq (.assign (.name (n% "b")) (.index (.name (n% "other")) (.name (n% "j")))) (.seq (.aug .add (.name (n% "j")) (.num 1)) (.seq (.aug .xor (.name (n% "polarity")) (.num 2)) .skip)))))))) .skip)) .skip) .skip) .skip)) .skip)) .skip)) .skip)) (.seq (.expr (.call (.attr (.name (n% "buffer")) (n% "append")) (.cons (.name (n% "UNICODE_SET_HIGH")) .nil))) (.seq (.assign (.attr (.name (n% "self")) (n% "list")) (.name (n% "buffer"))) (.seq (.ret (.name (n% "self"))) .skip)))))))))))

/-- UnicodeData/UnicodeSet.py:339-391 -/
def UnicodeSet._exclusiveOrList : Stmt :=
  (.defn (n% "_exclusiveOrList") (.cons (.name (n% "self")) (.cons (.name (n% "other")) (.cons (.kwarg (n% "polarity") (.num 0)) .nil))) (.seq (.expr (.str [32, 32, 32, 32, 32, 32, 32, 32, 88, 111, 114, 32, 116, 104, 101, 32, 115, 101, 116, 32, 119, 105, 116, 104, 32, 116, 104, 101, 32, 108, 105, 115, 116, 32, 111, 116, 104, 101, 114, 44, 32, 97, 115, 32, 99, 111, 110, 116, 114, 111, 108, 108, 101, 100, 32, 98, 121, 32, 112, 111, 108, 97, 114, 105, 116, 121, 46, 10, 10, 32, 32, 32, 32, 32, 32, 32, 32, 112, 111, 108, 97, 114, 105, 116, 121, 32, 61, 32, 48, 44, 32, 51, 58, 32, 120, 32, 120, 111, 114, 32, 121, 10, 10, 32, 32, 32, 32, 32, 32, 32, 32, 112, 111, 108, 97, 114, 105, 116, 121, 32, 61, 32, 49, 44, 32, 50, 58, 32, 120, 32, 120, 111, 114, 32, 126, 121, 32, 40, 120, 32, 61, 61, 61, 32, 121, 41, 10, 10, 10, 32, 32, 32, 32, 32, 32, 32, 32, 58, 112, 97, 114, 97, 109, 32, 111, 116, 104, 101, 114, 58, 32, 116, 104, 101, 32, 108, 105, 115, 116, 32, 119, 105, 116, 104, 32, 119, 104, 105, 99, 104, 32, 116, 111, 32, 120, 111, 114, 10, 32, 32, 32, 32, 32, 32, 32, 32, 58, 112, 97, 114, 97, 109, 32, 112, 111, 108, 97, 114, 105, 116, 121, 58, 32, 116, 104, 101, 32, 116, 121, 112, 101, 32, 111, 102, 32, 120, 111, 114, 44, 32, 97, 115, 32, 100, 101, 115, 99, 114, 105, 98, 101, 100, 32, 97, 98, 111, 118, 101, 46, 32, 40, 100, 101, 102, 97, 117, 108, 116, 32, 105, 115, 32, 48, 41, 10, 32, 32, 32, 32, 32, 32, 32, 32, 58, 114, 101, 116, 117, 114, 110, 58, 32, 115, 101, 108, 102, 44, 32, 116, 111, 32, 115, 117, 112, 112, 111, 114, 116, 32, 99, 104, 97, 105, 110, 105, 110, 103, 46, 10, 32, 32, 32, 32, 32, 32, 32, 32])) (.seq (.assign (.name (n% "buffer")) (.list .nil)) (.seq (.assign (.name (n% "i")) (.num 1)) (.seq (.assign (.name (n% "j")) (.num 1)) (.seq (.assign (.name (n% "a")) (.index (.attr (.name (n% "self")) (n% "list")) (.num 0))) (.seq (.assign (.name (n% "b")) (.index (.name (n% "other")) (.num 0))) (.seq (.ifs (.or (.bin .eq (.name (n% "polarity")) (.num 1)) (.bin .eq (.name (n% "polarity")) (.num 2))) (.seq (.assign (.name (n% "b")) (.name (n% "UNICODE_SET_LOW"))) (.seq (.ifs (.bin .eq (.index (.name (n% "other")) (.num 0)) (.name (n% "UNICODE_SET_LOW"))) (.seq (.assign (.name (n% "b")) (.index (.name (n% "other")) (.num 1))) .skip) .skip) .skip)) (.seq (.assign (.name (n% "b")) (.index (.name (n% "other")) (.num 0))) .skip)) (.seq (.while (.name (n% "True")) (.seq (.ifs (.bin .lt (.name (n% "a")) (.name (n% "b"))) (.seq (.expr (.call (.attr (.name (n% "buffer")) (n% "append")) (.cons (.name (n% "a")) .nil))) (.seq (.assign (.name (n% "a")) (.index (.attr (.name (n% "self")) (n% "list")) (.name (n% "i")))) (.seq (.aug .add (.name (n% "i")) (.num 1)) .skip))) (.seq (.ifs (.bin .lt (.name (n% "b")) (.name (n% "a"))) (.seq (.expr (.call (.attr (.name (n% "buffer")) (n% "append")) (.cons (.name (n% "b")) .nil))) (.seq (.assign (.name (n% "b")) (.index (.name (n% "other")) (.name (n% "j")))) (.seq (.aug .add (.name (n% "j")) (.num 1)) .skip))) (.seq (.ifs (.bin .ne (.name (n% "a")) (.name (n% "UNICODE_SET_HIGH"))) (.seq (.assign (.name (n% "a")) (.index (.attr (.name (n% "self")) (n% "list")) (.name (n% "i")))) (.seq (.aug .add (.name (n% "i")) (.num 1)) (.seq (.assign (.name (n% "b")) (.index (.name (n% "other")) (.name (n% "j")))) (.seq (.aug .add (.name (n% "j")) (.num 1)) .skip)))) (.seq (.expr (.call (.attr (.name (n% "buffer")) (n% "append")) (.cons (.name (n% "UNICODE_SET_HIGH")) .nil))) (.seq .brk .skip))) .skip)) .skip)) .skip)) (.seq (.assign (.attr (.name (n% "self")) (n% "list")) (.name (n% "buffer"))) (.seq (.ret (.name (n% "self"))) .skip)))))))))))

/-- UnicodeData/UnicodeSet.py:393-419 -/
def UnicodeSet.add : Stmt :=
  (.defn (n% "add") (.cons (.name (n% "self")) (.cons (.name (n% "cp")) .nil)) (.seq (.expr (.str [10, 10, 32, 32, 32, 32, 32, 32, 32, 32, 65, 100, 100, 32, 116, 104, 101, 32, 103, 105, 118, 101, 110, 32, 99, 111, 100, 101, 32, 112, 111, 105, 110, 116, 32, 116, 111, 32, 116, 104, 105, 115, 32, 115, 101, 116, 46, 10, 10, 32, 32, 32, 32, 32, 32, 32, 32, 58, 112, 97, 114, 97, 109, 32, 99, 112, 58, 32, 116, 104, 101, 32, 99, 111, 100, 101, 32, 112, 111, 105, 110, 116, 32, 116, 111, 32, 97, 100, 100, 46, 10, 32, 32, 32, 32, 32, 32, 32, 32, 58, 114, 101, 116, 117, 114, 110, 58, 32, 115, 101, 108, 102, 44, 32, 116, 111, 32, 115, 117, 112, 112, 111, 114, 116, 32, 99, 104, 97, 105, 110, 105, 110, 103, 46, 10, 32, 32, 32, 32, 32, 32, 32, 32])) (.seq (.assign (.name (n% "i")) (.call (.attr (.name (n% "self")) (n% "_findCodePoint")) (.cons (.call (.name (n% "_pinCodePoint")) (.cons (.name (n% "cp")) .nil)) .nil))) (.seq (.ifs (.bin .ne (.bin .and (.name (n% "i")) (.num 1)) (.num 0)) (.seq (.ret (.name (n% "self"))) .skip) .skip) (.seq (.ifs (.bin .eq (.name (n% "cp")) (.bin .sub (.index (.attr (.name (n% "self")) (n% "list")) (.name (n% "i"))) (.num 1))) (.seq (.assign (.index (.attr (.name (n% "self")) (n% "list")) (.name (n% "i"))) (.name (n% "cp"))) (.seq (.ifs (.bin .eq (.name (n% "cp")) (.bin .sub (.name (n% "UNICODE_SET_HIGH")) (.num 1))) (.seq (.expr (.call (.attr (.attr (.name (n% "self")) (n% "list")) (n% "append")) (.cons (.name (n% "UNICODE_SET_HIGH")) .nil))) .skip) .skip) (.seq (.ifs (.and (.bin .gt (.name (n% "i")) (.num 0)) (.bin .eq (.name (n% "cp")) (.index (.attr (.name (n% "self")) (n% "list")) (.bin .sub (.name (n% "i")) (.num 1))))) (.seq (.del (.slice (.attr (.name (n% "self")) (n% "list")) (.bin .sub (.name (n% "i")) (.num 1)) (.bin .add (.name (n% "i")) (.num 1)))) .skip) .skip) .skip))) (.seq (.ifs (.and (.bin .gt (.name (n% "i")) (.num 0)) (.bin .eq (.name (n% "cp")) (.index (.attr (.name (n% "self")) (n% "list")) (.bin .sub (.name (n% "i")) (.num 1))))) (.seq (.aug .add (.index (.attr (.name (n% "self")) (n% "list")) (.bin .sub (.name (n% "i")) (.num 1))) (.num 1)) .skip) (.seq (.assign (.slice (.attr (.name (n% "self")) (n% "list")) (.name (n% "i")) (.name (n% "i"))) (.list (.cons (.name (n% "cp")) (.cons (.bin .add (.name (n% "cp")) (.num 1)) .nil)))) .skip)) .skip)) (.seq (.ret (.name (n% "self"))) .skip))))))

/-- UnicodeData/UnicodeSet.py:421-456 -/
def UnicodeSet.addRange : Stmt :=
  (.defn (n% "addRange") (.cons (.name (n% "self")) (.cons (.name (n% "start")) (.cons (.name (n% "end")) .nil))) (.seq (.expr (.str [32, 32, 32, 32, 32, 32, 32, 32, 65, 100, 100, 32, 116, 104, 101, 32, 99, 111, 100, 101, 32, 112, 111, 105, 110, 116, 115, 32, 105, 110, 32, 116, 104, 101, 32, 114, 97, 110, 103, 101, 32, 115, 116, 97, 114, 116, 32, 45, 32, 101, 110, 100, 32, 105, 110, 99, 108, 117, 115, 105, 118, 101, 32, 116, 111, 32, 116, 104, 105, 115, 32, 115, 101, 116, 46, 10, 10, 32, 32, 32, 32, 32, 32, 32, 32, 58, 112, 97, 114, 97, 109, 32, 115, 116, 97, 114, 116, 58, 32, 116, 104, 101, 32, 102, 105, 114, 115, 116, 32, 99, 111, 100, 101, 32, 112, 111, 105, 110, 116, 32, 105, 110, 32, 116, 104, 101, 32, 114, 97, 110, 103, 101, 32, 116, 111, 32, 97, 100, 100, 46, 10, 32, 32, 32, 32, 32, 32, 32, 32, 58, 112, 97, 114, 97, 109, 32, 101, 110, 100, 58, 32, 116, 104, 101, 32, 108, 97, 115, 116, 32, 99, 111, 100, 101, 32, 112, 111, 105, 110, 116, 32, 105, 110, 32, 116, 104, 101, 32, 114, 97, 110, 103, 101, 32, 116, 111, 32, 97, 100, 100, 46, 10, 32, 32, 32, 32, 32, 32, 32, 32, 58, 114, 101, 116, 117, 114, 110, 58, 32, 115, 101, 108, 102, 44, 32, 116, 111, 32, 115, 117, 112, 112, 111, 114, 116, 32, 99, 104, 97, 105, 110, 105, 110, 103, 46, 10, 32, 32, 32, 32, 32, 32, 32, 32])) (.seq (.ifs (.bin .lt (.call (.name (n% "_pinCodePoint")) (.cons (.name (n% "start")) .nil)) (.call (.name (n% "_pinCodePoint")) (.cons (.name (n% "end")) .nil))) (.seq (.assign (.name (n% "length")) (.call (.name (n% "len")) (.cons (.attr (.name (n% "self")) (n% "list")) .nil))) (.seq (.assign (.name (n% "limit")) (.bin .add (.name (n% "end")) (.num 1))) (.seq (.ifs (.bin .ne (.bin .and (.name (n% "length")) (.num 1)) (.num 0)) (.seq (.assign (.name (n% "lastLimit")) (.cond (.bin .eq (.name (n% "length")) (.num 1)) (.neg (.num 2)) (.index (.attr (.name (n% "self")) (n% "list")) (.neg (.num 2))))) (.seq (.ifs (.bin .le (.name (n% "lastLimit")) (.name (n% "start"))) (.seq (.ifs (.bin .eq (.name (n% "lastLimit")) (.name (n% "start"))) (.seq (.assign (.index (.attr (.name (n% "self")) (n% "list")) (.neg (.num 2))) (.name (n% "limit"))) (.seq (.ifs (.bin .eq (.name (n% "limit")) (.name (n% "UNICODE_SET_HIGH"))) (.seq (.expr (.call (.attr (.attr (.name (n% "self")) (n% "list")) (n% "pop")) .nil)) .skip) .skip) .skip)) (.seq (.assign (.index (.attr (.name (n% "self")) (n% "list")) (.neg (.num 1))) (.name (n% "start"))) (.seq (.ifs (.bin .lt (.name (n% "limit")) (.name (n% "UNICODE_SET_HIGH"))) (.seq (.expr (.call (.attr (.attr (.name (n% "self")) (n% "list")) (n% "extend")) (.cons (.list (.cons (.name (n% "limit")) (.cons (.name (n% "UNICODE_SET_HIGH")) .nil))) .nil))) .skip) (.seq (.expr (.call (.attr (.attr (.name (n% "self")) (n% "list")) (n% "append")) (.cons (.name (n% "UNICODE_SET_HIGH")) .nil))) .skip)) .skip))) (.seq (.ret (.name (n% "None"))) .skip)) .skip) .skip)) .skip) (.seq (.expr (.call (.attr (.name (n% "self")) (n% "_addList")) (.cons (.list (.cons (.name (n% "start")) (.cons (.name (n% "limit")) (.cons (.name (n% "UNICODE_SET_HIGH")) .nil)))) .nil))) .skip)))) (.seq (.ifs (.bin .eq (.name (n% "start")) (.name (n% "end"))) (.seq (.expr (.call (.attr (.name (n% "self")) (n% "add")) (.cons (.name (n% "start")) .nil))) .skip) .skip) .skip)) (.seq (.ret (.name (n% "self"))) .skip))))

/-- UnicodeData/UnicodeSet.py:458-465 -/
def UnicodeSet.addAll : Stmt :=
  (.defn (n% "addAll") (.cons (.name (n% "self")) (.cons (.name (n% "other")) .nil)) (.seq (.expr (.str [10, 10, 32, 32, 32, 32, 32, 32, 32, 32, 65, 100, 100, 32, 116, 104, 101, 32, 99, 111, 100, 101, 32, 112, 111, 105, 110, 116, 115, 32, 105, 110, 32, 116, 104, 101, 32, 115, 101, 116, 32, 111, 116, 104, 101, 114, 32, 116, 111, 32, 116, 104, 105, 115, 32, 115, 101, 116, 46, 10, 10, 32, 32, 32, 32, 32, 32, 32, 32, 58, 112, 97, 114, 97, 109, 32, 111, 116, 104, 101, 114, 58, 32, 116, 104, 101, 32, 115, 101, 116, 32, 102, 114, 111, 109, 32, 119, 104, 105, 99, 104, 32, 116, 111, 32, 97, 100, 100, 46, 10, 32, 32, 32, 32, 32, 32, 32, 32, 58, 114, 101, 116, 117, 114, 110, 58, 32, 115, 101, 108, 102, 44, 32, 116, 111, 32, 115, 117, 112, 112, 111, 114, 116, 32, 99, 104, 97, 105, 110, 105, 110, 103, 46, 10, 32, 32, 32, 32, 32, 32, 32, 32])) (.seq (.ret (.call (.attr (.name (n% "self")) (n% "_addList")) (.cons (.attr (.name (n% "other")) (n% "list")) .nil))) .skip)))

/-- UnicodeData/UnicodeSet.py:467-479 -/
def UnicodeSet.removeRange : Stmt :=
  (.defn (n% "removeRange") (.cons (.name (n% "self")) (.cons (.name (n% "start")) (.cons (.name (n% "end")) .nil))) (.seq (.expr (.str [10, 10, 32, 32, 32, 32, 32, 32, 32, 32, 82, 101, 109, 111, 118, 101, 32, 116, 104, 101, 32, 99, 111, 100, 101, 32, 112, 111, 105, 110, 116, 115, 32, 105, 110, 32, 116, 104, 101, 32, 114, 97, 110, 103, 101, 32, 115, 116, 97, 114, 116, 32, 45, 32, 101, 110, 100, 32, 105, 110, 99, 108, 117, 115, 105, 118, 101, 32, 102, 114, 111, 109, 32, 116, 104, 105, 115, 32, 115, 101, 116, 46, 10, 10, 32, 32, 32, 32, 32, 32, 32, 32, 58, 112, 97, 114, 97, 109, 32, 115, 116, 97, 114, 116, 58, 32, 116, 104, 101, 32, 102, 105, 114, 115, 116, 32, 99, 111, 100, 101, 32, 112, 111, 105, 110, 116, 32, 105, 110, 32, 116, 104, 101, 32, 114, 97, 110, 103, 101, 32, 116, 111, 32, 114, 101, 109, 111, 118, 101, 46, 10, 32, 32, 32, 32, 32, 32, 32, 32, 58, 112, 97, 114, 97, 109, 32, 101, 110, 100, 58, 32, 116, 104, 101, 32, 108, 97, 115, 116, 32, 99, 111, 100, 101, 32, 112, 111, 105, 110, 116, 32, 105, 110, 32, 116, 104, 101, 32, 114, 97, 110, 103, 101, 32, 116, 111, 32, 114, 101, 109, 111, 118, 101, 46, 10, 32, 32, 32, 32, 32, 32, 32, 32, 58, 114, 101, 116, 117, 114, 110, 58, 32, 115, 101, 108, 102, 44, 32, 116, 111, 32, 115, 117, 112, 112, 111, 114, 116, 32, 99, 104, 97, 105, 110, 105, 110, 103, 46, 10, 32, 32, 32, 32, 32, 32, 32, 32])) (.seq (.ifs (.bin .lt (.call (.name (n% "_pinCodePoint")) (.cons (.name (n% "start")) .nil)) (.call (.name (n% "_pinCodePoint")) (.cons (.name (n% "end")) .nil))) (.seq (.assign (.name (n% "other")) (.list (.cons (.name (n% "start")) (.cons (.bin .add (.name (n% "end")) (.num 1)) (.cons (.name (n% "UNICODE_SET_HIGH")) .nil))))) (.seq (.expr (.call (.attr (.name (n% "self")) (n% "_retainList")) (.cons (.name (n% "other")) (.cons (.num 2) .nil)))) .skip)) .skip) (.seq (.ret (.name (n% "self"))) .skip))))

/-- UnicodeData/UnicodeSet.py:481-488 -/
def UnicodeSet.remove : Stmt :=
  (.defn (n% "remove") (.cons (.name (n% "self")) (.cons (.name (n% "cp")) .nil)) (.seq (.expr (.str [10, 10, 32, 32, 32, 32, 32, 32, 32, 32, 82, 101, 109, 111, 118, 101, 32, 116, 104, 101, 32, 103, 105, 118, 101, 110, 32, 99, 111, 100, 101, 32, 112, 111, 105, 110, 116, 32, 102, 114, 111, 109, 32, 116, 104, 105, 115, 32, 115, 101, 116, 46, 10, 10, 32, 32, 32, 32, 32, 32, 32, 32, 58, 112, 97, 114, 97, 109, 32, 99, 112, 58, 32, 116, 104, 101, 32, 99, 111, 100, 101, 32, 112, 111, 105, 110, 116, 32, 116, 111, 32, 114, 101, 109, 111, 118, 101, 46, 10, 32, 32, 32, 32, 32, 32, 32, 32, 58, 114, 101, 116, 117, 114, 110, 58, 32, 115, 101, 108, 102, 44, 32, 116, 111, 32, 115, 117, 112, 112, 111, 114, 116, 32, 99, 104, 97, 105, 110, 105, 110, 103, 46, 10, 32, 32, 32, 32, 32, 32, 32, 32])) (.seq (.ret (.call (.attr (.name (n% "self")) (n% "removeRange")) (.cons (.name (n% "cp")) (.cons (.name (n% "cp")) .nil)))) .skip)))

/-- UnicodeData/UnicodeSet.py:490-497 -/
def UnicodeSet.removeAll : Stmt :=
  (.defn (n% "removeAll") (.cons (.name (n% "self")) (.cons (.name (n% "other")) .nil)) (.seq (.expr (.str [10, 10, 32, 32, 32, 32, 32, 32, 32, 32, 82, 101, 109, 111, 118, 101, 32, 97, 108, 108, 32, 116, 104, 101, 32, 99, 111, 100, 101, 32, 112, 111, 105, 110, 116, 115, 32, 105, 110, 32, 116, 104, 101, 32, 115, 101, 116, 32, 111, 116, 104, 101, 114, 32, 102, 114, 111, 109, 32, 116, 104, 105, 115, 32, 115, 101, 116, 46, 10, 10, 32, 32, 32, 32, 32, 32, 32, 32, 58, 112, 97, 114, 97, 109, 32, 111, 116, 104, 101, 114, 58, 32, 116, 104, 101, 32, 115, 101, 116, 32, 119, 104, 111, 115, 101, 32, 99, 111, 100, 101, 32, 112, 111, 105, 110, 116, 115, 32, 115, 104, 111, 117, 108, 100, 32, 98, 101, 32, 114, 101, 109, 111, 118, 101, 100, 46, 10, 32, 32, 32, 32, 32, 32, 32, 32, 58, 114, 101, 116, 117, 114, 110, 58, 32, 115, 101, 108, 102, 44, 32, 116, 111, 32, 115, 117, 112, 112, 111, 114, 116, 32, 99, 104, 97, 105, 110, 105, 110, 103, 46, 10, 32, 32, 32, 32, 32, 32, 32, 32])) (.seq (.ret (.call (.attr (.name (n% "self")) (n% "_retainList")) (.cons (.attr (.name (n% "other")) (n% "list")) (.cons (.num 2) .nil)))) .skip)))

/-- UnicodeData/UnicodeSet.py:499-511 -/
def UnicodeSet.retainRange : Stmt :=
  (.defn (n% "retainRange") (.cons (.name (n% "self")) (.cons (.name (n% "start")) (.cons (.name (n% "end")) .nil))) (.seq (.expr (.str [10, 10, 32, 32, 32, 32, 32, 32, 32, 32, 73, 110, 116, 101, 114, 115, 101, 116, 32, 116, 104, 101, 32, 99, 111, 100, 101, 32, 112, 111, 105, 110, 116, 115, 32, 105, 110, 32, 116, 104, 101, 32, 114, 97, 110, 103, 101, 32, 115, 116, 97, 114, 116, 32, 45, 32, 101, 110, 100, 32, 105, 110, 99, 108, 117, 115, 105, 118, 101, 32, 119, 105, 116, 104, 32, 116, 104, 105, 115, 32, 115, 101, 116, 46, 10, 10, 32, 32, 32, 32, 32, 32, 32, 32, 58, 112, 97, 114, 97, 109, 32, 115, 116, 97, 114, 116, 58, 32, 116, 104, 101, 32, 102, 105, 114, 115, 116, 32, 99, 111, 100, 101, 32, 112, 111, 105, 110, 116, 32, 105, 110, 32, 116, 104, 101, 32, 114, 97, 110, 103, 101, 32, 116, 111, 32, 105, 110, 116, 101, 114, 115, 101, 99, 116, 46, 10, 32, 32, 32, 32, 32, 32, 32, 32, 58, 112, 97, 114, 97, 109, 32, 101, 110, 100, 58, 32, 116, 104, 101, 32, 108, 97, 115, 116, 32, 99, 111, 100, 101, 32, 112, 111, 105, 110, 116, 32, 105, 110, 32, 116, 104, 101, 32, 114, 97, 110, 103, 101, 32, 116, 111, 32, 105, 110, 116, 101, 114, 115, 101, 99, 116, 46, 10, 32, 32, 32, 32, 32, 32, 32, 32, 58, 114, 101, 116, 117, 114, 110, 58, 32, 115, 101, 108, 102, 44, 32, 116, 111, 32, 115, 117, 112, 112, 111, 114, 116, 32, 99, 104, 97, 105, 110, 105, 110, 103, 46, 10, 32, 32, 32, 32, 32, 32, 32, 32])) (.seq (.ifs (.bin .lt (.call (.name (n% "_pinCodePoint")) (.cons (.name (n% "start")) .nil)) (.call (.name (n% "_pinCodePoint")) (.cons (.name (n% "end")) .nil))) (.seq (.assign (.name (n% "other")) (.list (.cons (.name (n% "start")) (.cons (.bin .add (.name (n% "end")) (.num 1)) (.cons (.name (n% "UNICODE_SET_HIGH")) .nil))))) (.seq (.expr (.call (.attr (.name (n% "self")) (n% "_retainList")) (.cons (.name (n% "other")) (.cons (.num 0) .nil)))) .skip)) .skip) (.seq (.ret (.name (n% "self"))) .skip))))

/-- UnicodeData/UnicodeSet.py:513-520 -/
def UnicodeSet.retain : Stmt :=
  (.defn (n% "retain") (.cons (.name (n% "self")) (.cons (.name (n% "cp")) .nil)) (.seq (.expr (.str [10, 10, 32, 32, 32, 32, 32, 32, 32, 32, 73, 110, 116, 101, 114, 115, 101, 99, 116, 32, 116, 104, 101, 32, 103, 105, 118, 101, 110, 32, 99, 111, 100, 101, 32, 112, 111, 105, 110, 116, 32, 119, 105, 116, 104, 32, 116, 104, 105, 115, 32, 115, 101, 116, 46, 10, 10, 32, 32, 32, 32, 32, 32, 32, 32, 58, 112, 97, 114, 97, 109, 32, 99, 112, 58, 32, 116, 104, 101, 32, 99, 111, 100, 101, 32, 112, 111, 105, 110, 116, 32, 116, 111, 32, 105, 110, 116, 101, 114, 115, 101, 99, 116, 32, 119, 105, 116, 104, 32, 116, 104, 105, 115, 32, 115, 101, 116, 46, 10, 32, 32, 32, 32, 32, 32, 32, 32, 58, 114, 101, 116, 117, 114, 110, 58, 32, 115, 101, 108, 102, 44, 32, 116, 111, 32, 115, 117, 112, 112, 111, 114, 116, 32, 99, 104, 97, 105, 110, 105, 110, 103, 46, 10, 32, 32, 32, 32, 32, 32, 32, 32])) (.seq (.ret (.call (.attr (.name (n% "self")) (n% "retainRange")) (.cons (.name (n% "cp")) (.cons (.name (n% "cp")) .nil)))) .skip)))

/-- UnicodeData/UnicodeSet.py:522-529 -/
def UnicodeSet.retainAll : Stmt :=
  (.defn (n% "retainAll") (.cons (.name (n% "self")) (.cons (.name (n% "other")) .nil)) (.seq (.expr (.str [10, 10, 32, 32, 32, 32, 32, 32, 32, 32, 73, 110, 116, 101, 114, 115, 101, 116, 32, 116, 104, 101, 32, 103, 105, 118, 101, 110, 32, 115, 101, 116, 32, 119, 105, 116, 104, 32, 116, 104, 105, 115, 32, 115, 101, 116, 46, 10, 10, 32, 32, 32, 32, 32, 32, 32, 32, 58, 112, 97, 114, 97, 109, 32, 111, 116, 104, 101, 114, 58, 32, 116, 104, 101, 32, 115, 101, 116, 32, 119, 105, 116, 104, 32, 119, 104, 105, 99, 104, 32, 116, 111, 32, 105, 110, 116, 101, 114, 115, 101, 99, 116, 46, 10, 32, 32, 32, 32, 32, 32, 32, 32, 58, 114, 101, 116, 117, 114, 110, 58, 32, 115, 101, 108, 102, 44, 32, 116, 111, 32, 115, 117, 112, 112, 111, 114, 116, 32, 99, 104, 97, 105, 110, 105, 110, 103, 46, 10, 32, 32, 32, 32, 32, 32, 32, 32])) (.seq (.ret (.call (.attr (.name (n% "self")) (n% "_retainList")) (.cons (.attr (.name (n% "other")) (n% "list")) (.cons (.num 0) .nil)))) .skip)))

/-- UnicodeData/UnicodeSet.py:531-546 -/
def UnicodeSet.complementRange : Stmt :=
  (.defn (n% "complementRange") (.cons (.name (n% "self")) (.cons (.name (n% "start")) (.cons (.name (n% "end")) .nil))) (.seq (.expr (.str [10, 10, 32, 32, 32, 32, 32, 32, 32, 32, 67, 111, 109, 112, 108, 101, 109, 101, 110, 116, 115, 32, 116, 104, 101, 32, 115, 112, 101, 99, 105, 102, 105, 101, 100, 32, 114, 97, 110, 103, 101, 32, 111, 102, 32, 99, 111, 100, 101, 32, 112, 111, 105, 110, 116, 115, 32, 105, 110, 32, 116, 104, 105, 115, 32, 115, 101, 116, 46, 32, 65, 110, 121, 10, 32, 32, 32, 32, 32, 32, 32, 32, 99, 111, 100, 101, 32, 112, 111, 105, 110, 116, 32, 105, 110, 32, 116, 104, 101, 32, 114, 97, 110, 103, 101, 32, 119, 105, 108, 108, 32, 98, 101, 32, 114, 101, 109, 111, 118, 101, 100, 32, 105, 102, 32, 105, 116, 32, 105, 115, 32, 105, 110, 32, 116, 104, 101, 32, 115, 101, 116, 44, 32, 111, 114, 32, 119, 105, 108, 108, 10, 32, 32, 32, 32, 32, 32, 32, 32, 98, 101, 32, 97, 100, 100, 101, 100, 32, 105, 102, 32, 105, 116, 32, 110, 111, 116, 32, 105, 110, 32, 116, 104, 101, 32, 115, 101, 116, 46, 32, 73, 102, 32, 101, 110, 100, 32, 60, 32, 115, 116, 97, 114, 116, 44, 32, 116, 104, 101, 110, 32, 116, 104, 101, 32, 114, 97, 110, 103, 101, 32, 105, 115, 32, 101, 109, 112, 116, 121, 10, 32, 32, 32, 32, 32, 32, 32, 32, 97, 110, 100, 32, 116, 104, 101, 32, 115, 101, 116, 32, 119, 105, 108, 108, 32, 110, 111, 116, 32, 98, 101, 32, 99, 104, 97, 110, 103, 101, 100, 46, 10, 10, 32, 32, 32, 32, 32, 32, 32, 32, 58, 112, 97, 114, 97, 109, 32, 115, 116, 97, 114, 116, 58, 32, 116, 104, 101, 32, 102, 105, 114, 115, 116, 32, 99, 111, 100, 101, 32, 112, 111, 105, 110, 116, 32, 105, 110, 32, 116, 104, 101, 32, 114, 97, 110, 103, 101, 46, 10, 32, 32, 32, 32, 32, 32, 32, 32, 58, 112, 97, 114, 97, 109, 32, 101, 110, 100, 58, 32, 116, 104, 101, 32, 108, 97, 115, 116, 32, 99, 111, 100, 101, 32, 112, 111, 105, 110, 116, 32, 105, 110, 32, 116, 104, 101, 32, 114, 97, 110, 103, 101, 46, 10, 32, 32, 32, 32, 32, 32, 32, 32, 58, 114, 101, 116, 117, 114, 110, 58, 32, 115, 101, 108, 102, 44, 32, 116, 111, 32, 115, 117, 112, 112, 111, 114, 116, 32, 99, 104, 97, 105, 110, 105, 110, 103, 46, 10, 32, 32, 32, 32, 32, 32, 32, 32])) (.seq (.ifs (.bin .lt (.call (.name (n% "_pinCodePoint")) (.cons (.name (n% "start")) .nil)) (.call (.name (n% "_pinCodePoint")) (.cons (.name (n% "end")) .nil))) (.seq (.assign (.name (n% "other")) (.list (.cons (.name (n% "start")) (.cons (.bin .add (.name (n% "end")) (.num 1)) (.cons (.name (n% "UNICODE_SET_HIGH")) .nil))))) (.seq (.expr (.call (.attr (.name (n% "self")) (n% "_exclusiveOrList")) (.cons (.name (n% "other")) .nil))) .skip)) .skip) (.seq (.ret (.name (n% "self"))) .skip))))

/-- UnicodeData/UnicodeSet.py:548-571 -/
def UnicodeSet.complement : Stmt :=
  (.defn (n% "complement") (.cons (.name (n% "self")) (.cons (.kwarg (n% "arg") (.name (n% "None"))) .nil)) (.seq (.expr (.str [10, 10, 32, 32, 32, 32, 32, 32, 32, 32, 67, 111, 109, 112, 108, 101, 109, 101, 110, 116, 32, 116, 104, 105, 115, 32, 115, 101, 116, 44, 32, 98, 97, 115, 101, 100, 32, 111, 110, 32, 116, 104, 101, 32, 116, 121, 112, 101, 32, 111, 102, 32, 97, 114, 103, 46, 10, 10, 32, 32, 32, 32, 32, 32, 32, 32, 97, 114, 103, 32, 105, 115, 32, 78, 111, 110, 101, 58, 32, 99, 111, 109, 112, 108, 101, 109, 101, 110, 116, 32, 116, 104, 101, 32, 119, 104, 111, 108, 101, 32, 115, 101, 116, 46, 10, 10, 32, 32, 32, 32, 32, 32, 32, 32, 97, 114, 103, 32, 105, 115, 32, 97, 110, 32, 105, 110, 116, 58, 32, 99, 111, 109, 112, 108, 101, 109, 101, 110, 116, 32, 116, 104, 101, 32, 103, 105, 118, 101, 110, 32, 99, 111, 100, 101, 32, 112, 111, 105, 110, 116, 46, 10, 10, 32, 32, 32, 32, 32, 32, 32, 32, 97, 114, 103, 32, 105, 115, 32, 97, 32, 114, 97, 110, 103, 101, 58, 32, 99, 111, 109, 112, 108, 101, 109, 101, 110, 116, 32, 116, 104, 101, 32, 99, 111, 100, 101, 32, 112, 111, 105, 110, 116, 115, 32, 105, 110, 32, 116, 104, 101, 32, 114, 97, 110, 103, 101, 46, 10, 10, 32, 32, 32, 32, 32, 32, 32, 32, 58, 112, 97, 114, 97, 109, 32, 97, 114, 103, 58, 32, 116, 104, 101, 32, 97, 114, 103, 117, 101, 109, 101, 110, 116, 44, 32, 97, 115, 32, 100, 101, 115, 99, 114, 105, 98, 101, 100, 32, 97, 98, 111, 118, 101, 46, 32, 40, 100, 101, 102, 97, 117, 108, 116, 32, 105, 115, 32, 78, 111, 110, 101, 41, 10, 32, 32, 32, 32, 32, 32, 32, 32, 58, 114, 101, 116, 117, 114, 110, 58, 32, 115, 101, 108, 102, 44, 32, 116, 111, 32, 115, 117, 112, 112, 111, 114, 116, 32, 99, 104, 97, 105, 110, 105, 110, 103, 46, 10, 32, 32, 32, 32, 32, 32, 32, 32])) (.seq (.ifs (.bin .is (.name (n% "arg")) (.name (n% "None"))) (.seq (.ifs (.bin .eq (.index (.attr (.name (n% "self")) (n% "list")) (.num 0)) (.name (n% "UNICODE_SET_LOW"))) (.seq (.assign (.attr (.name (n% "self")) (n% "list")) (.slice (.attr (.name (n% "self")) (n% "list")) (.num 1) .nil)) .skip) (.seq (.assign (.slice (.attr (.name (n% "self")) (n% "list")) (.num 0) (.num 0)) (.list (.cons (.name (n% "UNICODE_SET_LOW")) .nil))) .skip)) .skip) (.seq (.ifs (.bin .is (.call (.name (n% "type")) (.cons (.name (n% "arg")) .nil)) (.name (n% "int"))) (.seq (.expr (.call (.attr (.name (n% "self")) (n% "complementRange")) (.cons (.name (n% "arg")) (.cons (.name (n% "arg")) .nil)))) .skip) (.seq (.ifs (.bin .is (.call (.name (n% "type")) (.cons (.name (n% "arg")) .nil)) (.name (n% "range"))) (.seq (.expr (.call (.attr (.name (n% "self")) (n% "complementRange")) (.cons (.attr (.name (n% "arg")) (n% "start")) (.cons (.bin .sub (.attr (.name (n% "arg")) (n% "stop")) (.num 1)) .nil)))) .skip) (.seq (.raise (.call (.name (n% "TypeError")) (.cons (.str [65, 114, 103, 117, 109, 101, 110, 116, 32, 116, 121, 112, 101, 32, 109, 117, 115, 116, 32, 98, 101, 32, 105, 110, 116, 32, 111, 114, 32, 114, 97, 110, 103, 101, 46]) .nil))) .skip)) .skip)) .skip)) (.seq (.ret (.name (n% "self"))) .skip))))

/-- UnicodeData/UnicodeSet.py:573-580 -/
def UnicodeSet.complementAll : Stmt :=
  (.defn (n% "complementAll") (.cons (.name (n% "self")) (.cons (.name (n% "other")) .nil)) (.seq (.expr (.str [10, 10, 32, 32, 32, 32, 32, 32, 32, 32, 67, 111, 109, 112, 108, 101, 109, 101, 110, 116, 32, 97, 108, 108, 32, 116, 104, 101, 32, 99, 111, 100, 101, 32, 112, 111, 105, 110, 116, 115, 32, 105, 110, 32, 116, 104, 101, 32, 115, 101, 116, 32, 111, 116, 104, 101, 114, 32, 105, 110, 32, 116, 104, 105, 115, 32, 115, 101, 116, 46, 10, 10, 32, 32, 32, 32, 32, 32, 32, 32, 58, 112, 97, 114, 97, 109, 32, 111, 116, 104, 101, 114, 58, 32, 116, 104, 101, 32, 111, 116, 104, 101, 114, 32, 115, 101, 116, 46, 10, 32, 32, 32, 32, 32, 32, 32, 32, 58, 114, 101, 116, 117, 114, 110, 58, 32, 115, 101, 108, 102, 44, 32, 116, 111, 32, 115, 117, 112, 112, 111, 114, 116, 32, 99, 104, 97, 105, 110, 105, 110, 103, 46, 10, 32, 32, 32, 32, 32, 32, 32, 32])) (.seq (.ret (.call (.attr (.name (n% "self")) (n% "_exclusiveOrList")) (.cons (.attr (.name (n% "other")) (n% "list")) .nil))) .skip)))

/-- UnicodeData/UnicodeSet.py:582-585 -/
def UnicodeSet.clear : Stmt :=
  (.defn (n% "clear") (.cons (.name (n% "self")) .nil) (.seq (.expr (.str [82, 101, 109, 111, 118, 101, 32, 97, 108, 108, 32, 99, 111, 100, 101, 32, 112, 111, 105, 110, 116, 115, 32, 102, 114, 111, 109, 32, 116, 104, 105, 115, 32, 115, 101, 116, 46])) (.seq (.assign (.attr (.name (n% "self")) (n% "list")) (.list (.cons (.name (n% "UNICODE_SET_HIGH")) .nil))) (.seq (.ret (.name (n% "self"))) .skip))))

/-- UnicodeData/UnicodeSet.py:587-606 -/
def UnicodeSet.contains : Stmt :=
  (.defn (n% "contains") (.cons (.name (n% "self")) (.cons (.name (n% "arg")) .nil)) (.seq (.expr (.str [10, 10, 32, 32, 32, 32, 32, 32, 32, 32, 67, 104, 101, 99, 107, 32, 105, 102, 32, 116, 104, 105, 115, 32, 115, 101, 116, 32, 99, 111, 110, 116, 97, 105, 110, 115, 32, 116, 104, 101, 32, 99, 111, 100, 101, 32, 112, 111, 105, 110, 116, 115, 32, 115, 112, 101, 99, 105, 102, 105, 101, 100, 32, 98, 121, 32, 97, 114, 103, 46, 10, 10, 32, 32, 32, 32, 32, 32, 32, 32, 97, 114, 103, 32, 105, 115, 32, 97, 110, 32, 105, 110, 116, 58, 32, 115, 101, 101, 32, 105, 102, 32, 116, 104, 105, 115, 32, 115, 101, 116, 32, 99, 111, 110, 116, 97, 105, 110, 115, 32, 116, 104, 101, 32, 103, 105, 118, 101, 110, 32, 99, 111, 100, 101, 32, 112, 111, 105, 110, 116, 110, 10, 32, 32, 32, 32, 32, 32, 32, 32, 97, 114, 103, 32, 105, 115, 32, 97, 32, 114, 97, 110, 103, 101, 58, 32, 115, 101, 101, 32, 105, 102, 32, 116, 104, 105, 115, 32, 115, 101, 116, 32, 99, 111, 110, 116, 97, 105, 110, 115, 32, 97, 108, 108, 32, 116, 104, 101, 32, 99, 111, 100, 101, 32, 112, 111, 105, 110, 116, 115, 32, 105, 110, 32, 116, 104, 101, 32, 103, 105, 118, 101, 110, 32, 114, 97, 110, 103, 101, 46, 10, 10, 10, 32, 32, 32, 32, 32, 32, 32, 32, 58, 112, 97, 114, 97, 109, 32, 97, 114, 103, 58, 32, 116, 104, 101, 32, 99, 111, 100, 101, 32, 112, 111, 105, 110, 116, 44, 32, 111, 114, 32, 114, 97, 110, 103, 101, 32, 111, 102, 32, 99, 111, 100, 101, 32, 112, 111, 105, 110, 116, 115, 44, 32, 97, 115, 32, 100, 101, 115, 99, 114, 105, 98, 101, 100, 32, 97, 98, 111, 118, 101, 46, 10, 32, 32, 32, 32, 32, 32, 32, 32, 58, 114, 101, 116, 117, 114, 110, 58, 32, 84, 114, 117, 101, 32, 105, 102, 32, 116, 104, 101, 32, 115, 101, 116, 32, 99, 111, 110, 116, 97, 110, 115, 32, 116, 104, 101, 32, 99, 111, 100, 101, 32, 112, 111, 105, 110, 116, 40, 115, 41, 44, 32, 70, 97, 108, 115, 101, 32, 111, 116, 104, 101, 114, 119, 105, 115, 101, 46, 10, 32, 32, 32, 32, 32, 32, 32, 32])) (.seq (.ifs (.bin .is (.call (.name (n% "type")) (.cons (.name (n% "arg")) .nil)) (.name (n% "int"))) (.seq (.assign (.name (n% "i")) (.call (.attr (.name (n% "self")) (n% "_findCodePoint")) (.cons (.name (n% "arg")) .nil))) (.seq (.ret (.bin .ne (.bin .and (.name (n% "i")) (.num 1)) (.num 0))) .skip)) (.seq (.ifs (.bin .is (.call (.name (n% "type")) (.cons (.name (n% "arg")) .nil)) (.name (n% "range"))) (.seq (.assign (.name (n% "start")) (.attr (.name (n% "arg")) (n% "start"))) (.seq (.assign (.name (n% "end")) (.bin .sub (.attr (.name (n% "arg")) (n% "stop")) (.num 1))) (.seq (.assign (.name (n% "i")) (.call (.attr (.name (n% "self")) (n% "_findCodePoint")) (.cons (.name (n% "start")) .nil))) (.seq (.ret (.and (.bin .ne (.bin .and (.name (n% "i")) (.num 1)) (.num 0)) (.bin .lt (.name (n% "end")) (.index (.attr (.name (n% "self")) (n% "list")) (.name (n% "i")))))) .skip)))) (.seq (.raise (.call (.name (n% "TypeError")) (.cons (.str [65, 114, 103, 117, 109, 101, 110, 116, 32, 116, 121, 112, 101, 32, 109, 117, 115, 116, 32, 98, 101, 32, 105, 110, 116, 32, 111, 114, 32, 114, 97, 110, 103, 101, 46]) .nil))) .skip)) .skip)) .skip)))

/-- UnicodeData/UnicodeSet.py:609-617 -/
def UnicodeSet.union : Stmt :=
  (.defn (n% "union") (.cons (.name (n% "self")) (.cons (.name (n% "other")) .nil)) (.seq (.expr (.str [10, 10, 32, 32, 32, 32, 32, 32, 32, 32, 82, 101, 116, 117, 114, 110, 32, 116, 104, 101, 32, 117, 110, 105, 111, 110, 32, 111, 102, 32, 116, 104, 105, 115, 32, 115, 101, 116, 32, 97, 110, 100, 32, 111, 116, 104, 101, 114, 46, 10, 10, 32, 32, 32, 32, 32, 32, 32, 32, 58, 112, 97, 114, 97, 109, 32, 111, 116, 104, 101, 114, 58, 32, 116, 104, 101, 32, 115, 101, 116, 32, 119, 105, 116, 104, 32, 119, 104, 105, 99, 104, 32, 116, 111, 32, 117, 110, 105, 111, 110, 32, 116, 104, 105, 115, 32, 115, 101, 116, 46, 10, 32, 32, 32, 32, 32, 32, 32, 32, 58, 114, 101, 116, 117, 114, 110, 58, 32, 116, 104, 101, 32, 117, 110, 105, 111, 110, 32, 111, 102, 32, 116, 104, 101, 32, 116, 119, 111, 32, 115, 101, 116, 115, 46, 10, 32, 32, 32, 32, 32, 32, 32, 32])) (.seq (.assign (.name (n% "result")) (.call (.name (n% "UnicodeSet")) (.cons (.name (n% "self")) .nil))) (.seq (.ret (.call (.attr (.name (n% "result")) (n% "addAll")) (.cons (.name (n% "other")) .nil))) .skip))))

/-- UnicodeData/UnicodeSet.py:619-627 -/
def UnicodeSet.intersection : Stmt :=
  (.defn (n% "intersection") (.cons (.name (n% "self")) (.cons (.name (n% "other")) .nil)) (.seq (.expr (.str [10, 10, 32, 32, 32, 32, 32, 32, 32, 32, 82, 101, 116, 117, 114, 110, 32, 116, 104, 101, 32, 105, 110, 116, 101, 114, 115, 101, 99, 116, 105, 111, 110, 32, 111, 102, 32, 116, 104, 105, 115, 32, 115, 101, 116, 32, 97, 110, 100, 32, 111, 116, 104, 101, 114, 46, 10, 10, 32, 32, 32, 32, 32, 32, 32, 32, 58, 112, 97, 114, 97, 109, 32, 111, 116, 104, 101, 114, 58, 32, 116, 104, 101, 32, 115, 101, 116, 32, 119, 105, 116, 104, 32, 119, 104, 105, 99, 104, 32, 116, 111, 32, 105, 110, 116, 101, 114, 115, 101, 99, 116, 32, 116, 104, 105, 115, 32, 115, 101, 116, 46, 10, 32, 32, 32, 32, 32, 32, 32, 32, 58, 114, 101, 116, 117, 114, 110, 58, 32, 116, 104, 101, 32, 105, 110, 116, 101, 114, 115, 101, 99, 116, 105, 111, 110, 32, 111, 102, 32, 116, 104, 101, 32, 116, 119, 111, 32, 115, 101, 116, 115, 46, 10, 32, 32, 32, 32, 32, 32, 32, 32])) (.seq (.assign (.name (n% "result")) (.call (.name (n% "UnicodeSet")) (.cons (.name (n% "self")) .nil))) (.seq (.ret (.call (.attr (.name (n% "result")) (n% "retainAll")) (.cons (.name (n% "other")) .nil))) .skip))))

/-- UnicodeData/UnicodeSet.py:629-637 -/
def UnicodeSet.difference : Stmt :=
  (.defn (n% "difference") (.cons (.name (n% "self")) (.cons (.name (n% "other")) .nil)) (.seq (.expr (.str [10, 10, 32, 32, 32, 32, 32, 32, 32, 32, 82, 101, 116, 117, 114, 110, 32, 116, 104, 101, 32, 100, 105, 102, 102, 101, 114, 101, 110, 99, 101, 32, 111, 102, 32, 116, 104, 105, 115, 32, 115, 101, 116, 32, 97, 110, 100, 32, 111, 116, 104, 101, 114, 46, 10, 10, 32, 32, 32, 32, 32, 32, 32, 32, 58, 112, 97, 114, 97, 109, 32, 111, 116, 104, 101, 114, 58, 32, 116, 104, 101, 32, 115, 101, 116, 32, 116, 111, 32, 114, 101, 109, 111, 118, 101, 32, 102, 114, 111, 109, 32, 116, 104, 105, 115, 32, 115, 101, 116, 46, 10, 32, 32, 32, 32, 32, 32, 32, 32, 58, 114, 101, 116, 117, 114, 110, 58, 32, 116, 104, 101, 32, 100, 105, 102, 102, 101, 114, 101, 110, 99, 101, 32, 111, 102, 32, 116, 104, 101, 32, 116, 119, 111, 32, 115, 101, 116, 115, 46, 10, 32, 32, 32, 32, 32, 32, 32, 32])) (.seq (.assign (.name (n% "result")) (.call (.name (n% "UnicodeSet")) (.cons (.name (n% "self")) .nil))) (.seq (.ret (.call (.attr (.name (n% "result")) (n% "removeAll")) (.cons (.name (n% "other")) .nil))) .skip))))

/-- UnicodeData/UnicodeSet.py:639-647 -/
def UnicodeSet.symmetric_difference : Stmt :=
  (.defn (n% "symmetric_difference") (.cons (.name (n% "self")) (.cons (.name (n% "other")) .nil)) (.seq (.expr (.str [10, 10, 32, 32, 32, 32, 32, 32, 32, 32, 82, 101, 116, 117, 114, 110, 32, 116, 104, 101, 32, 120, 111, 114, 32, 111, 102, 32, 116, 104, 105, 115, 32, 115, 101, 116, 32, 97, 110, 100, 32, 111, 116, 104, 101, 114, 46, 10, 10, 32, 32, 32, 32, 32, 32, 32, 32, 58, 112, 97, 114, 97, 109, 32, 111, 116, 104, 101, 114, 58, 32, 116, 104, 101, 32, 115, 101, 116, 32, 119, 105, 116, 104, 32, 119, 104, 105, 99, 104, 32, 116, 111, 32, 120, 111, 114, 32, 116, 104, 105, 115, 32, 115, 101, 116, 46, 10, 32, 32, 32, 32, 32, 32, 32, 32, 58, 114, 101, 116, 117, 114, 110, 58, 32, 116, 104, 101, 32, 120, 111, 114, 32, 111, 102, 32, 116, 104, 101, 32, 116, 119, 111, 32, 115, 101, 116, 115, 46, 10, 32, 32, 32, 32, 32, 32, 32, 32])) (.seq (.assign (.name (n% "result")) (.call (.name (n% "UnicodeSet")) (.cons (.name (n% "self")) .nil))) (.seq (.ret (.call (.attr (.name (n% "result")) (n% "complementAll")) (.cons (.name (n% "other")) .nil))) .skip))))

/-- UnicodeData/UnicodeSet.py:649-651 -/
def UnicodeSet.__eq__ : Stmt :=
  (.defn (n% "__eq__") (.cons (.name (n% "self")) (.cons (.name (n% "other")) .nil)) (.seq (.assign (.name (n% "otherSet")) (.call (.attr (.name (n% "typing")) (n% "cast")) (.cons (.name (n% "UnicodeSet")) (.cons (.name (n% "other")) .nil)))) (.seq (.ret (.bin .eq (.attr (.name (n% "self")) (n% "list")) (.attr (.name (n% "otherSet")) (n% "list")))) .skip)))

/-- UnicodeData/UnicodeSet.py:653-654 -/
def UnicodeSet.__ne__ : Stmt :=
  (.defn (n% "__ne__") (.cons (.name (n% "self")) (.cons (.name (n% "other")) .nil)) (.seq (.ret (.not (.bin .eq (.name (n% "self")) (.name (n% "other"))))) .skip))

/-- UnicodeData/UnicodeSet.py:656-658 -/
def UnicodeSet.__or__ : Stmt :=
  (.defn (n% "__or__") (.cons (.name (n% "self")) (.cons (.name (n% "other")) .nil)) (.seq (.expr (.str [79, 112, 101, 114, 97, 116, 111, 114, 32, 111, 118, 101, 114, 108, 111, 97, 100, 58, 32, 124, 32, 105, 115, 32, 117, 110, 105, 111, 110, 46])) (.seq (.ret (.call (.attr (.name (n% "self")) (n% "union")) (.cons (.name (n% "other")) .nil))) .skip)))

/-- UnicodeData/UnicodeSet.py:660-662 -/
def UnicodeSet.__and__ : Stmt :=
  (.defn (n% "__and__") (.cons (.name (n% "self")) (.cons (.name (n% "other")) .nil)) (.seq (.expr (.str [79, 112, 101, 114, 97, 116, 111, 114, 32, 111, 118, 101, 114, 108, 111, 97, 100, 58, 32, 38, 32, 105, 115, 32, 105, 110, 116, 101, 114, 115, 101, 99, 116, 105, 111, 110, 46])) (.seq (.ret (.call (.attr (.name (n% "self")) (n% "intersection")) (.cons (.name (n% "other")) .nil))) .skip)))

/-- UnicodeData/UnicodeSet.py:664-666 -/
def UnicodeSet.__sub__ : Stmt :=
  (.defn (n% "__sub__") (.cons (.name (n% "self")) (.cons (.name (n% "other")) .nil)) (.seq (.expr (.str [79, 112, 101, 114, 97, 116, 111, 114, 32, 111, 118, 101, 114, 108, 111, 97, 100, 58, 32, 45, 32, 105, 115, 32, 115, 101, 116, 32, 100, 105, 102, 102, 101, 114, 101, 110, 99, 101, 46])) (.seq (.ret (.call (.attr (.name (n% "self")) (n% "difference")) (.cons (.name (n% "other")) .nil))) .skip)))

/-- UnicodeData/UnicodeSet.py:668-670 -/
def UnicodeSet.__xor__ : Stmt :=
  (.defn (n% "__xor__") (.cons (.name (n% "self")) (.cons (.name (n% "other")) .nil)) (.seq (.expr (.str [79, 112, 101, 114, 97, 116, 111, 114, 32, 111, 118, 101, 114, 108, 111, 97, 100, 58, 32, 94, 32, 105, 115, 32, 115, 101, 116, 32, 120, 111, 114, 46])) (.seq (.ret (.call (.attr (.name (n% "self")) (n% "symmetric_difference")) (.cons (.name (n% "other")) .nil))) .skip)))

/-- UnicodeData/UnicodeSet.py:672-673 -/
def UnicodeSet.__isub__ : Stmt :=
  (.defn (n% "__isub__") (.cons (.name (n% "self")) (.cons (.name (n% "other")) .nil)) (.seq (.ret (.call (.attr (.name (n% "self")) (n% "removeAll")) (.cons (.name (n% "other")) .nil))) .skip))

/-- UnicodeData/UnicodeSet.py:675-676 -/
def UnicodeSet.__iand__ : Stmt :=
  (.defn (n% "__iand__") (.cons (.name (n% "self")) (.cons (.name (n% "other")) .nil)) (.seq (.ret (.call (.attr (.name (n% "self")) (n% "retainAll")) (.cons (.name (n% "other")) .nil))) .skip))

/-- UnicodeData/UnicodeSet.py:678-679 -/
def UnicodeSet.__ior__ : Stmt :=
  (.defn (n% "__ior__") (.cons (.name (n% "self")) (.cons (.name (n% "other")) .nil)) (.seq (.ret (.call (.attr (.name (n% "self")) (n% "addAll")) (.cons (.name (n% "other")) .nil))) .skip))

/-- UnicodeData/UnicodeSet.py:681-682 -/
def UnicodeSet.__ixor__ : Stmt :=
  (.defn (n% "__ixor__") (.cons (.name (n% "self")) (.cons (.name (n% "other")) .nil)) (.seq (.ret (.call (.attr (.name (n% "self")) (n% "complementAll")) (.cons (.name (n% "other")) .nil))) .skip))

/-- UnicodeData/UnicodeSet.py:684-686 -/
def UnicodeSet.__contains__ : Stmt :=
  (.defn (n% "__contains__") (.cons (.name (n% "self")) (.cons (.name (n% "arg")) .nil)) (.seq (.expr (.str [79, 112, 101, 114, 97, 116, 111, 114, 32, 111, 118, 101, 114, 108, 111, 97, 100, 58, 32, 105, 110, 32, 105, 115, 32, 99, 111, 110, 116, 97, 105, 110, 115, 46])) (.seq (.ret (.call (.attr (.name (n% "self")) (n% "contains")) (.cons (.name (n% "arg")) .nil))) .skip)))

/-- UnicodeData/UnicodeSet.py:689-708 -/
def UnicodeSet.__init__ : Stmt :=
  (.defn (n% "__init__") (.cons (.name (n% "self")) (.cons (.kwarg (n% "arg") (.name (n% "None"))) .nil)) (.seq (.expr (.str [47, 10, 32, 32, 32, 32, 32, 32, 32, 32, 73, 110, 105, 116, 105, 97, 108, 105, 122, 101, 32, 97, 32, 115, 101, 116, 44, 32, 98, 97, 115, 101, 100, 32, 111, 110, 32, 116, 104, 101, 32, 116, 121, 112, 101, 32, 111, 102, 32, 97, 114, 103, 58, 10, 10, 32, 32, 32, 32, 32, 32, 32, 32, 97, 114, 103, 32, 61, 61, 32, 78, 111, 110, 101, 58, 32, 109, 97, 107, 101, 32, 97, 110, 32, 101, 109, 112, 116, 121, 32, 115, 101, 116, 10, 10, 32, 32, 32, 32, 32, 32, 32, 32, 97, 114, 103, 32, 105, 115, 32, 97, 32, 85, 110, 105, 99, 111, 100, 101, 83, 101, 116, 58, 32, 109, 97, 107, 101, 32, 97, 32, 115, 101, 116, 32, 99, 111, 110, 116, 97, 105, 110, 103, 32, 116, 104, 101, 32, 115, 97, 109, 101, 32, 101, 108, 101, 109, 101, 110, 116, 115, 32, 97, 115, 32, 97, 114, 103, 10, 10, 32, 32, 32, 32, 32, 32, 32, 32, 97, 114, 103, 32, 105, 115, 32, 97, 110, 32, 105, 110, 116, 58, 32, 109, 97, 107, 101, 32, 97, 32, 115, 101, 116, 32, 99, 111, 110, 116, 97, 105, 110, 105, 110, 103, 32, 116, 104, 101, 32, 115, 105, 110, 103, 108, 101, 32, 99, 111, 100, 101, 32, 112, 111, 105, 110, 116, 10, 10, 32, 32, 32, 32, 32, 32, 32, 32, 97, 114, 103, 32, 105, 115, 32, 97, 32, 114, 97, 110, 103, 101, 58, 32, 109, 97, 107, 101, 32, 97, 32, 115, 101, 116, 32, 99, 111, 110, 116, 97, 105, 110, 105, 110, 103, 32, 116, 104, 101, 32, 99, 111, 100, 101, 32, 112, 111, 105, 110, 116, 115, 32, 105, 110, 32, 97, 114, 103, 10, 10, 10, 32, 32, 32, 32, 32, 32, 32, 32, 58, 112, 97, 114, 97, 109, 32, 97, 114, 103, 58, 32, 116, 104, 101, 32, 97, 114, 103, 117, 109, 101, 110, 116, 32, 40, 100, 101, 102, 97, 117, 108, 116, 32, 61, 32, 78, 111, 110, 101, 41, 10, 32, 32, 32, 32, 32, 32, 32, 32])) (.seq (.ifs (.bin .is (.name (n% "arg")) (.name (n% "None"))) (.seq (.assign (.attr (.name (n% "self")) (n% "list")) (.list (.cons (.name (n% "UNICODE_SET_HIGH")) .nil))) .skip) (.seq (.ifs (.bin .is (.call (.name (n% "type")) (.cons (.name (n% "arg")) .nil)) (.name (n% "UnicodeSet"))) (.seq (.assign (.attr (.name (n% "self")) (n% "list")) (.call (.attr (.attr (.name (n% "arg")) (n% "list")) (n% "copy")) .nil)) .skip) (.seq (.ifs (.bin .is (.call (.name (n% "type")) (.cons (.name (n% "arg")) .nil)) (.name (n% "int"))) (.seq (.assign (.attr (.name (n% "self")) (n% "list")) (.list (.cons (.name (n% "arg")) (.cons (.bin .add (.name (n% "arg")) (.num 1)) (.cons (.name (n% "UNICODE_SET_HIGH")) .nil))))) .skip) (.seq (.ifs (.bin .is (.call (.name (n% "type")) (.cons (.name (n% "arg")) .nil)) (.name (n% "range"))) (.seq (.assign (.attr (.name (n% "self")) (n% "list")) (.list (.cons (.attr (.name (n% "arg")) (n% "start")) (.cons (.attr (.name (n% "arg")) (n% "stop")) (.cons (.name (n% "UNICODE_SET_HIGH")) .nil))))) .skip) (.seq (.raise (.call (.name (n% "TypeError")) (.cons (.str [65, 114, 103, 117, 109, 101, 110, 116, 32, 116, 121, 112, 101, 32, 109, 117, 115, 116, 32, 98, 101, 32, 85, 110, 105, 99, 111, 100, 101, 83, 101, 116, 44, 32, 105, 110, 116, 32, 111, 114, 32, 114, 97, 110, 103, 101, 46]) .nil))) .skip)) .skip)) .skip)) .skip)) .skip)))

/-- UnicodeData/UnicodeSet.py:710-719 -/
def UnicodeSet.size : Stmt :=
  (.defn (n% "size") (.cons (.name (n% "self")) .nil) (.seq (.expr (.str [82, 101, 116, 117, 114, 110, 32, 116, 104, 101, 32, 110, 117, 109, 98, 101, 114, 32, 111, 102, 32, 99, 111, 100, 101, 32, 112, 111, 105, 110, 116, 115, 32, 105, 110, 32, 116, 104, 105, 115, 32, 115, 101, 116, 46])) (.seq (.assign (.name (n% "s")) (.num 0)) (.seq (.for (.name (n% "index")) (.call (.name (n% "range")) (.cons (.call (.attr (.name (n% "self")) (n% "getRangeCount")) .nil) .nil)) (.seq (.assign (.name (n% "start")) (.call (.attr (.name (n% "self")) (n% "getRangeStart")) (.cons (.name (n% "index")) .nil))) (.seq (.assign (.name (n% "end")) (.call (.attr (.name (n% "self")) (n% "getRangeEnd")) (.cons (.name (n% "index")) .nil))) (.seq (.aug .add (.name (n% "s")) (.bin .add (.bin .sub (.name (n% "end")) (.name (n% "start"))) (.num 1))) .skip)))) (.seq (.ret (.name (n% "s"))) .skip)))))

/-- UnicodeData/UnicodeSet.py:721-723 -/
def UnicodeSet.getRangeCount : Stmt :=
  (.defn (n% "getRangeCount") (.cons (.name (n% "self")) .nil) (.seq (.expr (.str [82, 101, 116, 117, 114, 110, 32, 116, 104, 101, 32, 110, 117, 109, 98, 101, 114, 32, 111, 102, 32, 99, 111, 100, 101, 32, 112, 111, 105, 110, 116, 32, 114, 97, 110, 103, 101, 115, 32, 105, 110, 32, 116, 104, 105, 115, 32, 115, 101, 116, 46])) (.seq (.ret (.bin .floorDiv (.call (.name (n% "len")) (.cons (.attr (.name (n% "self")) (n% "list")) .nil)) (.num 2))) .skip)))

/-- UnicodeData/UnicodeSet.py:725-732 -/
def UnicodeSet.getRangeStart : Stmt :=
  (.defn (n% "getRangeStart") (.cons (.name (n% "self")) (.cons (.name (n% "index")) .nil)) (.seq (.expr (.str [10, 10, 32, 32, 32, 32, 32, 32, 32, 32, 71, 101, 116, 32, 116, 104, 101, 32, 115, 116, 97, 114, 116, 105, 110, 103, 32, 99, 111, 100, 101, 32, 112, 111, 105, 110, 116, 32, 111, 102, 32, 116, 104, 101, 32, 103, 105, 118, 101, 110, 32, 114, 97, 110, 103, 101, 46, 10, 10, 32, 32, 32, 32, 32, 32, 32, 32, 58, 112, 97, 114, 97, 109, 32, 105, 110, 100, 101, 120, 58, 32, 116, 104, 101, 32, 105, 110, 100, 101, 120, 32, 111, 102, 32, 116, 104, 101, 32, 114, 97, 110, 103, 101, 46, 32, 77, 117, 115, 116, 32, 98, 101, 32, 108, 101, 115, 115, 32, 116, 104, 97, 110, 32, 103, 101, 116, 82, 97, 110, 103, 101, 67, 111, 117, 110, 116, 40, 41, 46, 10, 32, 32, 32, 32, 32, 32, 32, 32, 58, 114, 101, 116, 117, 114, 110, 58, 32, 116, 104, 101, 32, 115, 116, 97, 114, 116, 105, 110, 103, 32, 99, 111, 100, 101, 32, 112, 111, 105, 110, 116, 32, 111, 102, 32, 116, 104, 101, 32, 114, 97, 110, 103, 101, 46, 10, 32, 32, 32, 32, 32, 32, 32, 32])) (.seq (.ret (.index (.attr (.name (n% "self")) (n% "list")) (.bin .mul (.name (n% "index")) (.num 2)))) .skip)))

/-- UnicodeData/UnicodeSet.py:734-741 -/
def UnicodeSet.getRangeEnd : Stmt :=
  (.defn (n% "getRangeEnd") (.cons (.name (n% "self")) (.cons (.name (n% "index")) .nil)) (.seq (.expr (.str [10, 10, 32, 32, 32, 32, 32, 32, 32, 32, 71, 101, 116, 32, 116, 104, 101, 32, 101, 110, 100, 105, 110, 103, 32, 99, 111, 100, 101, 32, 112, 111, 105, 110, 116, 32, 111, 102, 32, 116, 104, 101, 32, 103, 105, 118, 101, 110, 32, 114, 97, 110, 103, 101, 46, 10, 10, 32, 32, 32, 32, 32, 32, 32, 32, 58, 112, 97, 114, 97, 109, 32, 105, 110, 100, 101, 120, 58, 32, 116, 104, 101, 32, 105, 110, 100, 101, 120, 32, 111, 102, 32, 116, 104, 101, 32, 114, 97, 110, 103, 101, 46, 32, 77, 117, 115, 116, 32, 98, 101, 32, 108, 101, 115, 115, 32, 116, 104, 97, 110, 32, 103, 101, 116, 82, 97, 110, 103, 101, 67, 111, 117, 110, 116, 40, 41, 46, 10, 32, 32, 32, 32, 32, 32, 32, 32, 58, 114, 101, 116, 117, 114, 110, 58, 32, 116, 104, 101, 32, 101, 110, 100, 105, 110, 103, 32, 99, 111, 100, 101, 32, 112, 111, 105, 110, 116, 32, 111, 102, 32, 116, 104, 101, 32, 114, 97, 110, 103, 101, 46, 10, 32, 32, 32, 32, 32, 32, 32, 32])) (.seq (.ret (.bin .sub (.index (.attr (.name (n% "self")) (n% "list")) (.bin .add (.bin .mul (.name (n% "index")) (.num 2)) (.num 1))) (.num 1))) .skip)))

/-- UnicodeData/UnicodeSet.py:743-772 -/
def UnicodeSet.indexOf : Stmt :=
  (.defn (n% "indexOf") (.cons (.name (n% "self")) (.cons (.name (n% "cp")) .nil)) (.seq (.expr (.str [32, 32, 32, 32, 32, 32, 32, 32, 82, 101, 116, 117, 114, 110, 32, 116, 104, 101, 32, 105, 110, 100, 101, 120, 32, 111, 102, 32, 116, 104, 101, 32, 103, 105, 118, 101, 110, 32, 99, 111, 100, 101, 32, 112, 111, 105, 110, 116, 32, 119, 105, 116, 104, 105, 110, 32, 116, 104, 101, 32, 115, 101, 116, 44, 10, 32, 32, 32, 32, 32, 32, 32, 32, 119, 104, 101, 114, 101, 32, 116, 104, 101, 32, 115, 101, 116, 32, 105, 115, 32, 111, 114, 100, 101, 114, 101, 100, 32, 98, 121, 32, 97, 115, 99, 101, 110, 100, 105, 110, 103, 32, 99, 111, 100, 101, 32, 112, 111, 105, 110, 116, 46, 10, 10, 32, 32, 32, 32, 32, 32, 32, 32, 58, 112, 97, 114, 97, 109, 32, 99, 112, 58, 32, 116, 104, 101, 32, 99, 111, 100, 101, 32, 112, 111, 105, 110, 116, 46, 10, 32, 32, 32, 32, 32, 32, 32, 32, 58, 114, 101, 116, 117, 114, 110, 58, 32, 116, 104, 101, 32, 105, 110, 100, 101, 120, 32, 111, 114, 32, 78, 111, 110, 101, 32, 105, 102, 32, 116, 104, 101, 32, 99, 111, 100, 101, 32, 112, 111, 105, 110, 116, 32, 105, 115, 32, 110, 111, 116, 32, 105, 110, 32, 116, 104, 101, 32, 115, 101, 116, 46, 10, 32, 32, 32, 32, 32, 32, 32, 32])) (.seq (.ifs (.or (.bin .lt (.name (n% "cp")) (.name (n% "UNICODE_SET_LOW"))) (.bin .gt (.name (n% "cp")) (.name (n% "UNICODE_SET_HIGH")))) (.seq (.ret (.name (n% "None"))) .skip) .skip) (.seq (.assign (.name (n% "len2")) (.bin .and (.call (.name (n% "len")) (.cons (.attr (.name (n% "self")) (n% "list")) .nil)) (.inv (.num 1)))) (.seq (.assign (.name (n% "n")) (.num 0)) (.seq (.for (.name (n% "i")) (.call (.name (n% "range")) (.cons (.num 0) (.cons (.name (n% "len2")) (.cons (.num 2) .nil)))) (.seq (.assign (.name (n% "start")) (.index (.attr (.name (n% "self")) (n% "list")) (.name (n% "i")))) (.seq (.ifs (.bin .lt (.name (n% "cp")) (.name (n% "start"))) (.seq .brk .skip) .skip) (.seq (.assign (.name (n% "limit")) (.index (.attr (.name (n% "self")) (n% "list")) (.bin .add (.name (n% "i")) (.num 1)))) (.seq (.ifs (.bin .lt (.name (n% "cp")) (.name (n% "limit"))) (.seq (.ret (.bin .sub (.bin .add (.name (n% "n")) (.name (n% "cp"))) (.name (n% "start")))) .skip) .skip) (.seq (.aug .add (.name (n% "n")) (.bin .sub (.name (n% "limit")) (.name (n% "start")))) .skip)))))) (.seq (.ret (.name (n% "None"))) .skip)))))))

/-- UnicodeData/UnicodeSet.py:774-793 -/
def UnicodeSet.charAt : Stmt :=
  (.defn (n% "charAt") (.cons (.name (n% "self")) (.cons (.name (n% "index")) .nil)) (.seq (.expr (.str [32, 32, 32, 32, 32, 32, 32, 32, 82, 101, 116, 117, 114, 110, 32, 116, 104, 101, 32, 99, 111, 100, 101, 32, 112, 111, 105, 110, 116, 32, 97, 116, 32, 116, 104, 101, 32, 103, 105, 118, 101, 110, 32, 105, 110, 100, 101, 120, 32, 119, 105, 116, 104, 105, 110, 32, 116, 104, 101, 32, 115, 101, 116, 44, 10, 32, 32, 32, 32, 32, 32, 32, 32, 119, 104, 101, 114, 101, 32, 116, 104, 101, 32, 115, 101, 116, 32, 105, 115, 32, 111, 114, 100, 101, 114, 101, 100, 32, 98, 121, 32, 97, 115, 99, 101, 110, 100, 105, 110, 103, 32, 99, 111, 100, 101, 32, 112, 111, 105, 110, 116, 46, 10, 10, 32, 32, 32, 32, 32, 32, 32, 32, 58, 112, 97, 114, 97, 109, 32, 105, 110, 100, 101, 120, 58, 32, 116, 104, 101, 32, 105, 110, 100, 101, 120, 46, 10, 32, 32, 32, 32, 32, 32, 32, 32, 58, 114, 101, 116, 117, 114, 110, 58, 32, 116, 104, 101, 32, 99, 111, 100, 101, 32, 112, 111, 105, 110, 116, 32, 97, 116, 32, 116, 104, 101, 32, 103, 105, 118, 101, 110, 32, 105, 110, 100, 101, 120, 32, 111, 114, 32, 78, 111, 110, 101, 46, 10, 32, 32, 32, 32, 32, 32, 32, 32])) (.seq (.ifs (.bin .ge (.name (n% "index")) (.num 0)) (.seq (.assign (.name (n% "len2")) (.bin .and (.call (.name (n% "len")) (.cons (.attr (.name (n% "self")) (n% "list")) .nil)) (.inv (.num 1)))) (.seq (.for (.name (n% "i")) (.call (.name (n% "range")) (.cons (.num 0) (.cons (.name (n% "len2")) (.cons (.num 2) .nil)))) (.seq (.assign (.name (n% "start")) (.index (.attr (.name (n% "self")) (n% "list")) (.name (n% "i")))) (.seq (.assign (.name (n% "count")) (.bin .sub (.index (.attr (.name (n% "self")) (n% "list")) (.bin .add (.name (n% "i")) (.num 1))) (.name (n% "start")))) (.seq (.ifs (.bin .lt (.name (n% "index")) (.name (n% "count"))) (.seq (.ret (.bin .add (.name (n% "start")) (.name (n% "index")))) .skip) .skip) (.seq (.aug .sub (.name (n% "index")) (.name (n% "count"))) .skip))))) .skip)) .skip) (.seq (.ret (.name (n% "None"))) .skip))))

/-- UnicodeData/UnicodeSet.py:795-805 -/
def UnicodeSet.__str__ : Stmt :=
  (.defn (n% "__str__") (.cons (.name (n% "self")) .nil) (.seq (.expr (.str [82, 101, 116, 117, 114, 110, 32, 116, 104, 101, 32, 99, 111, 100, 101, 32, 112, 111, 105, 110, 116, 32, 108, 105, 115, 116, 32, 97, 115, 32, 97, 32, 115, 116, 114, 105, 110, 103, 46])) (.seq (.assign (.name (n% "pieces")) (.list .nil)) (.seq (.for (.name (n% "cp")) (.attr (.name (n% "self")) (n% "list")) (.seq (.expr (.call (.attr (.name (n% "pieces")) (n% "append")) (.cons (.fstr [48, 120, 123, 99, 112, 58, 48, 52, 88, 125]) .nil))) .skip)) (.seq (.assign (.name (n% "s")) (.call (.attr (.str [44, 32]) (n% "join")) (.cons (.name (n% "pieces")) .nil))) (.seq (.ret (.fstr [91, 123, 115, 125, 93])) .skip))))))

/-- UnicodeData/UnicodeSet.py:807-809 -/
def UnicodeSet.dump : Stmt :=
  (.defn (n% "dump") (.cons (.name (n% "self")) .nil) (.seq (.expr (.str [80, 114, 105, 110, 116, 32, 116, 104, 101, 32, 99, 111, 100, 101, 32, 112, 111, 105, 110, 116, 32, 114, 97, 110, 103, 101, 32, 108, 105, 115, 116, 46])) (.seq (.expr (.call (.name (n% "print")) (.cons (.name (n% "self")) .nil))) .skip)))

/-- UnicodeData/UnicodeSet.py:811-817 -/
def UnicodeSet.getRanges : Stmt :=
  (.defn (n% "getRanges") (.cons (.name (n% "self")) .nil) (.seq (.expr (.str [82, 101, 116, 117, 114, 110, 32, 116, 104, 101, 32, 108, 105, 115, 116, 32, 111, 102, 32, 99, 111, 100, 101, 32, 112, 111, 105, 110, 116, 32, 114, 97, 110, 103, 101, 115, 32, 105, 110, 32, 116, 104, 101, 32, 115, 101, 116, 46])) (.seq (.assign (.name (n% "ranges")) (.list .nil)) (.seq (.for (.name (n% "i")) (.call (.name (n% "range")) (.cons (.num 0) (.cons (.bin .sub (.call (.name (n% "len")) (.cons (.attr (.name (n% "self")) (n% "list")) .nil)) (.num 1)) (.cons (.num 2) .nil)))) (.seq (.expr (.call (.attr (.name (n% "ranges")) (n% "append")) (.cons (.call (.name (n% "range")) (.cons (.index (.attr (.name (n% "self")) (n% "list")) (.name (n% "i"))) (.cons (.index (.attr (.name (n% "self")) (n% "list")) (.bin .add (.name (n% "i")) (.num 1))) .nil))) .nil))) .skip)) (.seq (.ret (.name (n% "ranges"))) .skip)))))

/-- UnicodeData/UnicodeSet.py:819-822 -/
def UnicodeSet.__iter__ : Stmt :=
  (.defn (n% "__iter__") (.cons (.name (n% "self")) .nil) (.seq (.for (.name (n% "i")) (.call (.name (n% "range")) (.cons (.num 0) (.cons (.bin .sub (.call (.name (n% "len")) (.cons (.attr (.name (n% "self")) (n% "list")) .nil)) (.num 1)) (.cons (.num 2) .nil)))) (.seq (.for (.name (n% "cp")) (.call (.name (n% "range")) (.cons (.index (.attr (.name (n% "self")) (n% "list")) (.name (n% "i"))) (.cons (.index (.attr (.name (n% "self")) (n% "list")) (.bin .add (.name (n% "i")) (.num 1))) .nil))) (.seq (.yield (.name (n% "cp"))) .skip)) .skip)) .skip))

/-- UnicodeData/UnicodeSet.py:40-822 -/
def classUnicodeSet : Stmt :=
  (.cls (n% "UnicodeSet") (.cons (.name (n% "object")) .nil) (.seq (.expr (.str [32, 32, 32, 32, 65, 32, 109, 117, 116, 97, 98, 108, 101, 32, 115, 101, 116, 32, 111, 102, 32, 85, 110, 105, 99, 111, 100, 101, 32, 99, 104, 97, 114, 97, 99, 116, 101, 114, 115, 46, 10, 10, 32, 32, 32, 32, 76, 101, 103, 97, 108, 32, 99, 111, 100, 101, 32, 112, 111, 105, 110, 116, 115, 32, 97, 114, 101, 32, 85, 43, 48, 48, 48, 48, 32, 116, 111, 32, 85, 43, 49, 48, 70, 70, 70, 70, 32, 105, 110, 99, 108, 117, 115, 105, 118, 101, 46, 10, 10, 32, 32, 32, 32, 84, 104, 101, 32, 105, 116, 101, 114, 102, 97, 99, 101, 32, 105, 115, 32, 115, 105, 109, 105, 108, 97, 114, 32, 116, 111, 32, 80, 121, 116, 104, 111, 110, 39, 115, 32, 115, 101, 116, 32, 99, 108, 97, 115, 115, 46, 32, 65, 108, 108, 10, 32, 32, 32, 32, 111, 112, 101, 114, 97, 116, 105, 111, 110, 115, 32, 111, 102, 32, 115, 101, 116, 32, 97, 114, 101, 32, 115, 117, 112, 112, 111, 114, 116, 101, 100, 44, 32, 101, 120, 99, 101, 112, 116, 32, 116, 104, 97, 116, 32, 116, 104, 101, 121, 32, 116, 97, 107, 101, 10, 32, 32, 32, 32, 97, 32, 99, 111, 100, 101, 32, 112, 111, 105, 110, 116, 32, 114, 97, 110, 103, 101, 44, 32, 111, 114, 32, 97, 32, 115, 105, 110, 103, 108, 101, 32, 99, 111, 100, 101, 32, 112, 111, 105, 110, 116, 32, 105, 110, 115, 116, 101, 97, 100, 32, 111, 102, 32, 97, 110, 10, 32, 32, 32, 32, 97, 114, 98, 105, 116, 114, 97, 114, 121, 32, 111, 98, 106, 101, 99, 116, 46, 10, 10, 32, 32, 32, 32, 116, 104, 101, 32, 65, 80, 73, 32, 109, 97, 121, 32, 98, 101, 32, 116, 104, 111, 117, 103, 104, 116, 32, 111, 102, 32, 105, 110, 32, 116, 101, 114, 109, 115, 32, 111, 102, 32, 98, 111, 111, 108, 101, 97, 110, 32, 108, 111, 103, 105, 99, 46, 32, 65, 110, 32, 79, 82, 10, 32, 32, 32, 32, 111, 112, 101, 114, 97, 116, 105, 111, 110, 32, 105, 115, 32, 105, 109, 112, 108, 101, 109, 101, 110, 116, 101, 100, 32, 98, 121, 32, 97, 100, 100, 40, 41, 44, 32, 97, 110, 32, 65, 78, 68, 32, 111, 112, 101, 114, 97, 116, 105, 111, 110, 32, 105, 115, 32, 105, 109, 112, 108, 101, 109, 101, 110, 116, 101, 100, 10, 32, 32, 32, 32, 98, 121, 32, 114, 101, 116, 97, 105, 110, 40, 41, 44, 32, 97, 110, 32, 88, 79, 82, 32, 111, 112, 101, 114, 97, 116, 105, 111, 110, 32, 105, 115, 32, 105, 109, 112, 108, 101, 109, 101, 110, 116, 101, 100, 32, 98, 121, 32, 99, 111, 109, 112, 108, 101, 109, 101, 110, 116, 40, 41, 32, 116, 97, 107, 105, 110, 103, 10, 32, 32, 32, 32, 97, 110, 32, 97, 114, 103, 117, 109, 101, 110, 116, 44, 32, 97, 110, 100, 32, 97, 32, 78, 79, 84, 32, 111, 112, 101, 114, 97, 116, 105, 111, 110, 32, 105, 115, 32, 105, 109, 112, 108, 101, 109, 101, 110, 116, 101, 100, 32, 98, 121, 32, 99, 111, 109, 112, 108, 101, 109, 101, 110, 116, 40, 41, 32, 119, 105, 116, 104, 10, 32, 32, 32, 32, 110, 111, 32, 97, 114, 103, 117, 109, 101, 110, 116, 46, 10, 10, 32, 32, 32, 32, 73, 110, 32, 116, 101, 114, 109, 115, 32, 111, 102, 32, 116, 114, 97, 100, 105, 116, 105, 111, 110, 97, 108, 32, 115, 101, 116, 32, 116, 104, 101, 111, 114, 121, 32, 102, 117, 110, 99, 116, 105, 111, 110, 32, 110, 97, 109, 101, 115, 44, 32, 97, 100, 100, 40, 41, 32, 105, 115, 32, 117, 110, 105, 111, 110, 44, 10, 32, 32, 32, 32, 114, 101, 116, 97, 105, 110, 40, 41, 32, 105, 115, 32, 105, 110, 116, 101, 114, 115, 101, 99, 116, 105, 111, 110, 44, 100, 32, 114, 101, 109, 111, 118, 101, 40, 41, 32, 105, 115, 32, 97, 115, 121, 109, 109, 101, 116, 114, 105, 99, 32, 100, 105, 102, 102, 101, 114, 101, 110, 99, 101, 32, 97, 110, 100, 10, 32, 32, 32, 32, 99, 111, 109, 112, 108, 105, 109, 101, 110, 116, 40, 41, 32, 119, 105, 116, 104, 32, 110, 111, 32, 97, 114, 103, 117, 109, 101, 110, 116, 115, 32, 105, 115, 32, 115, 101, 116, 32, 99, 111, 109, 112, 108, 105, 109, 101, 110, 116, 32, 119, 105, 116, 104, 32, 114, 101, 115, 112, 101, 99, 116, 32, 116, 111, 32, 116, 104, 101, 10, 32, 32, 32, 32, 114, 97, 110, 103, 101, 32, 91, 85, 78, 73, 67, 79, 68, 69, 95, 83, 69, 84, 95, 76, 79, 87, 32, 45, 32, 85, 78, 73, 67, 79, 68, 69, 95, 83, 69, 84, 95, 72, 73, 71, 72, 93, 46, 10, 32, 32, 32, 32])) (.seq UnicodeSet._findCodePoint (.seq UnicodeSet._retainList (.seq UnicodeSet._addList (.seq UnicodeSet._exclusiveOrList (.seq UnicodeSet.add (.seq UnicodeSet.addRange (.seq UnicodeSet.addAll (.seq UnicodeSet.removeRange (.seq UnicodeSet.remove (.seq UnicodeSet.removeAll (.seq UnicodeSet.retainRange (.seq UnicodeSet.retain (.seq UnicodeSet.retainAll (.seq UnicodeSet.complementRange (.seq UnicodeSet.complement (.seq UnicodeSet.complementAll (.seq UnicodeSet.clear (.seq UnicodeSet.contains (.seq UnicodeSet.union (.seq UnicodeSet.intersection (.seq UnicodeSet.difference (.seq UnicodeSet.symmetric_difference (.seq UnicodeSet.__eq__ (.seq UnicodeSet.__ne__ (.seq UnicodeSet.__or__ (.seq UnicodeSet.__and__ (.seq UnicodeSet.__sub__ (.seq UnicodeSet.__xor__ (.seq UnicodeSet.__isub__ (.seq UnicodeSet.__iand__ (.seq UnicodeSet.__ior__ (.seq UnicodeSet.__ixor__ (.seq UnicodeSet.__contains__ (.seq UnicodeSet.__init__ (.seq UnicodeSet.size (.seq UnicodeSet.getRangeCount (.seq UnicodeSet.getRangeStart (.seq UnicodeSet.getRangeEnd (.seq UnicodeSet.indexOf (.seq UnicodeSet.charAt (.seq UnicodeSet.__str__ (.seq UnicodeSet.dump (.seq UnicodeSet.getRanges (.seq UnicodeSet.__iter__ .skip))))))))))))))))))))))))))))))))))))))))))))))

/-- UnicodeData/UnicodeSet.py, all of it. -/
def module : Stmt :=
  (.seq (.expr (.str [67, 114, 101, 97, 116, 101, 100, 32, 111, 110, 32, 65, 112, 114, 32, 49, 52, 44, 32, 50, 48, 50, 48, 10, 10, 65, 32, 115, 105, 109, 112, 108, 105, 102, 105, 101, 100, 32, 118, 101, 114, 115, 105, 111, 110, 32, 111, 102, 32, 116, 104, 101, 32, 85, 110, 105, 99, 111, 100, 101, 83, 101, 116, 32, 99, 108, 97, 115, 115, 32, 102, 114, 111, 109, 32, 73, 67, 85, 46, 10, 10, 64, 97, 117, 116, 104, 111, 114, 58, 32, 101, 109, 97, 100, 101, 114, 10]))
  (.seq (.imp (n% "__future__"))
  (.seq (.imp (n% "typing"))
  (.seq (.assign (.name (n% "UNICODE_SET_HIGH")) (.num 0x110000))
  (.seq (.expr (.str [65, 32, 118, 97, 108, 117, 101, 32, 103, 114, 101, 97, 116, 101, 114, 32, 116, 104, 97, 110, 32, 97, 108, 108, 32, 85, 110, 105, 99, 111, 100, 101, 32, 99, 111, 100, 101, 32, 112, 111, 105, 110, 116, 115, 46]))
  (.seq (.assign (.name (n% "UNICODE_SET_LOW")) (.num 0x0))
  (.seq (.expr (.str [84, 104, 101, 32, 108, 111, 119, 101, 115, 116, 32, 118, 97, 108, 105, 100, 32, 85, 110, 105, 99, 111, 100, 101, 32, 99, 111, 100, 101, 32, 112, 111, 105, 110, 116, 46]))
  (.seq _pinCodePoint
  (.seq classUnicodeSet .skip)))))))))

end UnicodeSet

namespace CharNames

/-- UnicodeData/CharNames.py:87-91 -/
def NameDataHeader.__init__ : Stmt :=
  (.defn (n% "__init__") (.cons (.name (n% "self")) .nil) (.seq (.assign (.attr (.name (n% "self")) (n% "tokenStringOffset")) (.num 0)) (.seq (.assign (.attr (.name (n% "self")) (n% "groupsOffset")) (.num 0)) (.seq (.assign (.attr (.name (n% "self")) (n% "groupStringOffset")) (.num 0)) (.seq (.assign (.attr (.name (n% "self")) (n% "algNamesOffset")) (.num 0)) .skip)))))

/-- UnicodeData/CharNames.py:84-91 -/
def classNameDataHeader : Stmt :=
  (.cls (n% "NameDataHeader") (.cons (.name (n% "object")) .nil) (.seq NameDataHeader.__init__ .skip))

/-- UnicodeData/CharNames.py:99-104 -/
def AlgRange.__init__ : Stmt :=
  (.defn (n% "__init__") (.cons (.name (n% "self")) .nil) (.seq (.assign (.attr (.name (n% "self")) (n% "start")) (.num 0)) (.seq (.assign (.attr (.name (n% "self")) (n% "end")) (.num 0)) (.seq (.assign (.attr (.name (n% "self")) (n% "type")) (.num 0)) (.seq (.assign (.attr (.name (n% "self")) (n% "variant")) (.num 0)) (.seq (.assign (.attr (.name (n% "self")) (n% "size")) (.num 0)) .skip))))))

/-- UnicodeData/CharNames.py:96-104 -/
def classAlgRange : Stmt :=
  (.cls (n% "AlgRange") (.cons (.name (n% "object")) .nil) (.seq AlgRange.__init__ .skip))

/-- UnicodeData/CharNames.py:113-120 -/
def Tokens.populateData : Stmt :=
  (.deco (.name (n% "classmethod")) (.defn (n% "populateData") (.cons (.name (n% "cls")) (.cons (.name (n% "icuData")) (.cons (.name (n% "tokensStart")) (.cons (.name (n% "tokenStringsStart")) (.cons (.name (n% "tokenStringsLimit")) .nil))))) (.seq (.ifs (.bin .eq (.call (.name (n% "len")) (.cons (.attr (.name (n% "cls")) (n% "_tokens")) .nil)) (.num 0)) (.seq (.assign (.tuple (.cons (.name (n% "tokenCount")) .nil)) (.call (.attr (.name (n% "struct")) (n% "unpack")) (.cons (.str [72]) (.cons (.call (.attr (.name (n% "icuData")) (n% "getData")) (.cons (.name (n% "tokensStart")) (.cons (.bin .add (.name (n% "tokensStart")) (.num 2)) .nil))) .nil)))) (.seq (.assign (.name (n% "tokensData")) (.call (.attr (.name (n% "icuData")) (n% "getData")) (.cons (.bin .add (.name (n% "tokensStart")) (.num 2)) (.cons (.name (n% "tokenStringsStart")) .nil)))) (.seq (.assign (.attr (.name (n% "cls")) (n% "_tokens")) (.call (.attr (.name (n% "struct")) (n% "unpack")) (.cons (.fstr [123, 116, 111, 107, 101, 110, 67, 111, 117, 110, 116, 125, 72]) (.cons (.name (n% "tokensData")) .nil)))) (.seq (.assign (.attr (.name (n% "cls")) (n% "_strings")) (.call (.attr (.name (n% "icuData")) (n% "getData")) (.cons (.name (n% "tokenStringsStart")) (.cons (.name (n% "tokenStringsLimit")) .nil)))) .skip)))) .skip) .skip)))

/-- UnicodeData/CharNames.py:122-160 -/
def Tokens.expandString : Stmt :=
  (.deco (.name (n% "classmethod")) (.defn (n% "expandString") (.cons (.name (n% "cls")) (.cons (.name (n% "string")) (.cons (.name (n% "nameChoice")) .nil))) (.seq (.assign (.name (n% "expandedName")) (.str [])) (.seq (.assign (.name (n% "nameLength")) (.call (.name (n% "len")) (.cons (.name (n% "string")) .nil))) (.seq (.assign (.name (n% "s")) (.num 0)) (.seq (.while (.bin .gt (.name (n% "nameLength")) (.num 0)) (.seq (.assign (.name (n% "c")) (.index (.name (n% "string")) (.name (n% "s")))) (.seq (.aug .add (.name (n% "s")) (.num 1)) (.seq (.aug .sub (.name (n% "nameLength")) (.num 1)) (.seq (.ifs (.bin .ge (.name (n% "c")) (.call (.name (n% "len")) (.cons (.attr (.name (n% "cls")) (n% "_tokens")) .nil))) (.seq (.ifs (.bin .ne (.name (n% "c")) (.name (n% "CP_SEMICOLON"))) (.seq (.aug .add (.name (n% "expandedName")) (.call (.name (n% "chr")) (.cons (.name (n% "c")) .nil))) .skip) (.seq .brk .skip)) .skip) (.seq (.assign (.name (n% "token")) (.index (.attr (.name (n% "cls")) (n% "_tokens")) (.name (n% "c")))) (.seq (.ifs (.bin .eq (.name (n% "token")) (.num 0xfffe)) (.seq (.assign (.name (n% "token")) (.index (.attr (.name (n% "cls")) (n% "_tokens")) (.bin .or (.bin .shl (.name (n% "c")) (.num 8)) (.index (.name (n% "string")) (.name (n% "s")))))) (.seq (.aug .add (.name (n% "s")) (.num 1)) (.seq (.aug .sub (.name (n% "nameLength")) (.num 1)) .skip))) .skip) (.seq (.ifs (.bin .eq (.name (n% "token")) (.num 0xffff)) (.seq (.ifs (.bin .ne (.name (n% "c")) (.name (n% "CP_SEMICOLON"))) (.seq (.aug .add (.name (n% "expandedName")) (.call (.name (n% "chr")) (.cons (.name (n% "c")) .nil))) .skip) (.seq (.ifs (.and (.bin .eq (.call (.name (n% "len")) (.cons (.name (n% "expandedName")) .nil)) (.num 0)) (.bin .eq (.name (n% "nameChoice")) (.name (n% "U_EXTENDED_CHAR_NAME")))) (.seq (.ifs (.or (.bin .ge (.name (n% "CP_SEMICOLON")) (.call (.name (n% "len")) (.cons (.attr (.name (n% "cls")) (n% "_tokens")) .nil))) (.bin .eq (.index (.attr (.name (n% "cls")) (n% "_tokens")) (.name (n% "CP_SEMICOLON"))) (.num 0xffff))) (.seq .cont .skip) .skip) .skip) .skip) (.seq .brk .skip))) .skip) (.seq (.while (.bin .ne (.index (.attr (.name (n% "cls")) (n% "_strings")) (.name (n% "token"))) (.num 0)) (.seq (.aug .add (.name (n% "expandedName")) (.call (.name (n% "chr")) (.cons (.index (.attr (.name (n% "cls")) (n% "_strings")) (.name (n% "token"))) .nil))) (.seq (.aug .add (.name (n% "token")) (.num 1)) .skip))) .skip)) .skip)))) .skip))))) (.seq (.ret (.name (n% "expandedName"))) .skip)))))))

/-- UnicodeData/CharNames.py:109-160 -/
def classTokens : Stmt :=
  (.cls (n% "Tokens") (.cons (.name (n% "object")) .nil) (.seq (.assign (.name (n% "_tokens")) (.list .nil)) (.seq (.assign (.name (n% "_strings")) (.list .nil)) (.seq Tokens.populateData (.seq Tokens.expandString .skip)))))

/-- UnicodeData/CharNames.py:179-181 -/
def Group.groupLength : Stmt :=
  (.deco (.name (n% "classmethod")) (.defn (n% "groupLength") (.cons (.name (n% "cls")) .nil) (.seq (.ret (.attr (.name (n% "cls")) (n% "_groupLength"))) .skip)))

/-- UnicodeData/CharNames.py:191-232 -/
def Group.expandGroupLengths : Stmt :=
  (.defn (n% "expandGroupLengths") (.cons (.name (n% "self")) (.cons (.name (n% "icuData")) (.cons (.name (n% "groupStringsOffset")) .nil))) (.seq (.assign (.name (n% "i")) (.num 0)) (.seq (.assign (.name (n% "s")) (.name (n% "groupStringsOffset"))) (.seq (.assign (.name (n% "offset")) (.num 0)) (.seq (.assign (.name (n% "length")) (.num 0)) (.seq (.assign (.name (n% "offsets")) (.list .nil)) (.seq (.assign (.name (n% "lengths")) (.list .nil)) (.seq (.while (.bin .lt (.name (n% "i")) (.name (n% "LINES_PER_GROUP"))) (.seq (.assign (.tuple (.cons (.name (n% "lengthByte")) .nil)) (.call (.attr (.name (n% "icuData")) (n% "getData")) (.cons (.name (n% "s")) (.cons (.bin .add (.name (n% "s")) (.num 1)) .nil)))) (.seq (.aug .add (.name (n% "s")) (.num 1)) (.seq (.ifs (.bin .ge (.name (n% "length")) (.num 12)) (.seq (.assign (.name (n% "length")) (.bin .add (.bin .or (.bin .shl (.bin .and (.name (n% "length")) (.num 0x3)) (.num 4)) (.bin .shr (.name (n% "lengthByte")) (.num 4))) (.num 12))) (.seq (.aug .and (.name (n% "lengthByte")) (.num 0xf)) .skip)) (.seq (.ifs (.bin .ge (.name (n% "lengthByte")) (.num 0xc0)) (.seq (.assign (.name (n% "length")) (.bin .add (.bin .and (.name (n% "lengthByte")) (.num 0x3f)) (.num 12))) .skip) (.seq (.assign (.name (n% "length")) (.bin .shr (.name (n% "lengthByte")) (.num 4))) (.seq (.aug .and (.name (n% "lengthByte")) (.num 0xf)) .skip))) .skip)) (.seq (.expr (.call (.attr (.name (n% "offsets")) (n% "append")) (.cons (.name (n% "offset")) .nil))) (.seq (.expr (.call (.attr (.name (n% "lengths")) (n% "append")) (.cons (.name (n% "length")) .nil))) (.seq (.aug .add (.name (n% "offset")) (.name (n% "length"))) (.seq (.aug .add (.name (n% "i")) (.num 1)) (.seq (.ifs (.bin .eq (.bin .and (.name (n% "lengthByte")) (.num 0xf0)) (.num 0)) (.seq (.assign (.name (n% "length")) (.name (n% "lengthByte"))) (.seq (.ifs (.bin .lt (.name (n% "length")) (.num 12)) (.seq (.expr (.call (.attr (.name (n% "offsets")) (n% "append")) (.cons (.name (n% "offset")) .nil))) (.seq (.expr (.call (.attr (.name (n% "lengths")) (n% "append")) (.cons (.name (n% "length")) .nil))) (.seq (.aug .add (.name (n% "offset")) (.name (n% "length"))) (.seq (.aug .add (.name (n% "i")) (.num 1)) .skip)))) .skip) .skip)) (.seq (.assign (.name (n% "length")) (.num 0)) .skip)) .skip))))))))) (.seq (.ret (.tuple (.cons (.name (n% "s")) (.cons (.name (n% "offsets")) (.cons (.name (n% "lengths")) .nil))))) .skip)))))))))

/-- UnicodeData/CharNames.py:234-250 -/
def Group.__init__ : Stmt :=
  (.defn (n% "__init__") (.cons (.name (n% "self")) (.cons (.name (n% "icuData")) (.cons (.name (n% "groupStart")) (.cons (.name (n% "groupStringsStart")) .nil)))) (.seq (.assign (.name (n% "groupLimit")) (.bin .add (.name (n% "groupStart")) (.attr (.name (n% "self")) (n% "_groupLength")))) (.seq (.assign (.name (n% "go")) (.call (.attr (.name (n% "sstruct")) (n% "unpack")) (.cons (.attr (.name (n% "self")) (n% "_groupFormat")) (.cons (.call (.attr (.name (n% "icuData")) (n% "getData")) (.cons (.name (n% "groupStart")) (.cons (.name (n% "groupLimit")) .nil))) (.cons (.call (.attr (.name (n% "self")) (n% "_GroupObject")) .nil) .nil))))) (.seq (.assign (.name (n% "group")) (.call (.attr (.name (n% "typing")) (n% "cast")) (.cons (.call (.name (n% "type")) (.cons (.attr (.name (n% "self")) (n% "_GroupObject")) .nil)) (.cons (.name (n% "go")) .nil)))) (.seq (.assign (.attr (.name (n% "self")) (n% "msb")) (.attr (.name (n% "group")) (n% "msb"))) (.seq (.assign (.name (n% "offset")) (.bin .or (.bin .shl (.attr (.name (n% "group")) (n% "offsetHigh")) (.num 16)) (.attr (.name (n% "group")) (n% "offsetLow")))) (.seq (.assign (.name (n% "startChar")) (.bin .shl (.attr (.name (n% "self")) (n% "msb")) (.name (n% "GROUP_SHIFT")))) (.seq (.assign (.name (n% "limitChar")) (.bin .add (.name (n% "startChar")) (.name (n% "LINES_PER_GROUP")))) (.seq (.assign (.attr (.name (n% "self")) (n% "charRange")) (.call (.name (n% "range")) (.cons (.name (n% "startChar")) (.cons (.name (n% "limitChar")) .nil)))) (.seq (.assign (.attr (.name (n% "self")) (n% "strings")) (.list .nil)) (.seq (.assign (.tuple (.cons (.name (n% "dataOffset")) (.cons (.name (n% "offsets")) (.cons (.name (n% "lengths")) .nil)))) (.call (.attr (.name (n% "self")) (n% "expandGroupLengths")) (.cons (.name (n% "icuData")) (.cons (.bin .add (.name (n% "groupStringsStart")) (.name (n% "offset"))) .nil)))) (.seq (.for (.name (n% "i")) (.call (.name (n% "range")) (.cons (.call (.name (n% "len")) (.cons (.name (n% "offsets")) .nil)) .nil)) (.seq (.assign (.name (n% "stringStart")) (.bin .add (.name (n% "dataOffset")) (.index (.name (n% "offsets")) (.name (n% "i"))))) (.seq (.assign (.name (n% "stringLimit")) (.bin .add (.name (n% "stringStart")) (.index (.name (n% "lengths")) (.name (n% "i"))))) (.seq (.expr (.call (.attr (.attr (.name (n% "self")) (n% "strings")) (n% "append")) (.cons (.call (.attr (.name (n% "icuData")) (n% "getData")) (.cons (.name (n% "stringStart")) (.cons (.name (n% "stringLimit")) .nil))) .nil))) .skip)))) .skip))))))))))))

/-- UnicodeData/CharNames.py:252-260 -/
def Group.expandName : Stmt :=
  (.defn (n% "expandName") (.cons (.name (n% "self")) (.cons (.name (n% "lineNumber")) (.cons (.name (n% "nameChoice")) .nil))) (.seq (.assign (.name (n% "string")) (.index (.attr (.name (n% "self")) (n% "strings")) (.name (n% "lineNumber")))) (.seq (.ifs (.and (.bin .ne (.name (n% "nameChoice")) (.name (n% "U_UNICODE_CHAR_NAME"))) (.bin .ne (.name (n% "nameChoice")) (.name (n% "U_EXTENDED_CHAR_NAME")))) (.seq (.assign (.name (n% "fieldIndex")) (.cond (.bin .eq (.name (n% "nameChoice")) (.name (n% "U_ISO_COMMENT"))) (.num 2) (.name (n% "nameChoice")))) (.seq (.assign (.name (n% "fields")) (.call (.attr (.name (n% "string")) (n% "split")) (.cons (.str [59]) .nil))) (.seq (.assign (.name (n% "string")) (.cond (.bin .lt (.name (n% "fieldIndex")) (.call (.name (n% "len")) (.cons (.name (n% "fields")) .nil))) (.index (.name (n% "fields")) (.name (n% "fieldIndex"))) (.str []))) .skip))) .skip) (.seq (.ret (.call (.attr (.name (n% "Tokens")) (n% "expandString")) (.cons (.name (n% "string")) (.cons (.name (n% "nameChoice")) .nil)))) .skip))))

/-- UnicodeData/CharNames.py:262-264 -/
def Group.nameIterator : Stmt :=
  (.defn (n% "nameIterator") (.cons (.name (n% "self")) (.cons (.name (n% "nameChoice")) .nil)) (.seq (.for (.name (n% "code")) (.attr (.name (n% "self")) (n% "charRange")) (.seq (.yield (.tuple (.cons (.name (n% "code")) (.cons (.call (.attr (.name (n% "self")) (n% "expandName")) (.cons (.bin .and (.name (n% "code")) (.name (n% "GROUP_MASK"))) (.cons (.name (n% "nameChoice")) .nil))) .nil)))) .skip)) .skip))

/-- UnicodeData/CharNames.py:167-264 -/
def classGroup : Stmt :=
  (.cls (n% "Group") (.cons (.name (n% "object")) .nil) (.seq (.assign (.name (n% "_groupFormat")) (.str [109, 115, 98, 58, 32, 72, 59, 32, 111, 102, 102, 115, 101, 116, 72, 105, 103, 104, 58, 32, 72, 59, 32, 111, 102, 102, 115, 101, 116, 76, 111, 119, 58, 32, 72])) (.seq (.assign (.name (n% "_groupLength")) (.call (.attr (.name (n% "sstruct")) (n% "calcsize")) (.cons (.name (n% "_groupFormat")) .nil))) (.seq (.cls (n% "_GroupObject") (.cons (.name (n% "object")) .nil) (.seq (.defn (n% "__init__") (.cons (.name (n% "self")) .nil) (.seq (.assign (.attr (.name (n% "self")) (n% "msb")) (.num 0)) (.seq (.assign (.attr (.name (n% "self")) (n% "offsetHigh")) (.num 0)) (.seq (.assign (.attr (.name (n% "self")) (n% "offsetLow")) (.num 0)) .skip)))) .skip)) (.seq Group.groupLength (.seq Group.expandGroupLengths (.seq Group.__init__ (.seq Group.expandName (.seq Group.nameIterator .skip)))))))))

/-- UnicodeData/CharNames.py:267-304 -/
def AlgorithmicRange.__init__ : Stmt :=
  (.defn (n% "__init__") (.cons (.name (n% "self")) (.cons (.name (n% "icuData")) (.cons (.name (n% "offset")) .nil))) (.seq (.assign (.name (n% "rangeStart")) (.name (n% "offset"))) (.seq (.assign (.name (n% "rangeLimit")) (.bin .add (.name (n% "rangeStart")) (.name (n% "_rangeLength")))) (.seq (.assign (.name (n% "ar")) (.call (.attr (.name (n% "sstruct")) (n% "unpack")) (.cons (.name (n% "_rangeFormat")) (.cons (.call (.attr (.name (n% "icuData")) (n% "getData")) (.cons (.name (n% "rangeStart")) (.cons (.name (n% "rangeLimit")) .nil))) (.cons (.call (.name (n% "AlgRange")) .nil) .nil))))) (.seq (.assign (.name (n% "algRange")) (.call (.attr (.name (n% "typing")) (n% "cast")) (.cons (.name (n% "AlgRange")) (.cons (.name (n% "ar")) .nil)))) (.seq (.assign (.attr (.name (n% "self")) (n% "type")) (.attr (.name (n% "algRange")) (n% "type"))) (.seq (.assign (.attr (.name (n% "self")) (n% "variant")) (.attr (.name (n% "algRange")) (n% "variant"))) (.seq (.assign (.attr (.name (n% "self")) (n% "size")) (.attr (.name (n% "algRange")) (n% "size"))) (.seq (.assign (.attr (.name (n% "self")) (n% "charRange")) (.call (.name (n% "range")) (.cons (.attr (.name (n% "algRange")) (n% "start")) (.cons (.bin .add (.attr (.name (n% "algRange")) (n% "end")) (.num 1)) .nil)))) (.seq (.ifs (.bin .eq (.attr (.name (n% "self")) (n% "type")) (.num 0)) (.seq (.assign (.attr (.name (n% "self")) (n% "string")) (.call (.attr (.name (n% "icuData")) (n% "getString")) (.cons (.name (n% "rangeLimit")) .nil))) (.seq (.assign (.attr (.name (n% "self")) (n% "factors")) (.tuple .nil)) (.seq (.assign (.attr (.name (n% "self")) (n% "elements")) (.list .nil)) .skip))) (.seq (.ifs (.bin .eq (.attr (.name (n% "self")) (n% "type")) (.num 1)) (.seq (.assign (.name (n% "factorCount")) (.attr (.name (n% "self")) (n% "variant"))) (.seq (.assign (.name (n% "factorsFormat")) (.fstr [123, 102, 97, 99, 116, 111, 114, 67, 111, 117, 110, 116, 125, 72])) (.seq (.assign (.name (n% "factorsLength")) (.call (.attr (.name (n% "struct")) (n% "calcsize")) (.cons (.name (n% "factorsFormat")) .nil))) (.seq (.assign (.name (n% "factorsStart")) (.name (n% "rangeLimit"))) (.seq (.assign (.name (n% "factorsLimit")) (.bin .add (.name (n% "factorsStart")) (.name (n% "factorsLength")))) (.seq (.assign (.name (n% "factorsData")) (.call (.attr (.name (n% "icuData")) (n% "getData")) (.cons (.name (n% "factorsStart")) (.cons (.name (n% "factorsLimit")) .nil)))) (.seq (.assign (.attr (.name (n% "self")) (n% "factors")) (.call (.attr (.name (n% "struct")) (n% "unpack")) (.cons (.name (n% "factorsFormat")) (.cons (.name (n% "factorsData")) .nil)))) (.seq (.assign (.attr (.name (n% "self")) (n% "string")) (.call (.attr (.name (n% "icuData")) (n% "getString")) (.cons (.name (n% "factorsLimit")) .nil))) (.seq (.assign (.attr (.name (n% "self")) (n% "elements")) (.list .nil)) (.seq (.assign (.name (n% "elementStart")) (.bin .add (.bin .add (.name (n% "factorsLimit")) (.call (.name (n% "len")) (.cons (.attr (.name (n% "self")) (n% "string")) .nil))) (.num 1))) (.seq (.while (.bin .lt (.name (n% "elementStart")) (.bin .add (.name (n% "offset")) (.attr (.name (n% "self")) (n% "size")))) (.seq (.assign (.name (n% "element")) (.call (.attr (.name (n% "icuData")) (n% "getString")) (.cons (.name (n% "elementStart")) .nil))) (.seq (.expr (.call (.attr (.attr (.name (n% "self")) (n% "elements")) (n% "append")) (.cons (.name (n% "element")) .nil))) (.seq (.aug .add (.name (n% "elementStart")) (.bin .add (.call (.name (n% "len")) (.cons (.name (n% "element")) .nil)) (.num 1))) .skip)))) .skip))))))))))) (.seq (.assign (.attr (.name (n% "self")) (n% "string")) (.str [])) (.seq (.assign (.attr (.name (n% "self")) (n% "factors")) (.tuple .nil)) (.seq (.assign (.attr (.name (n% "self")) (n% "elements")) (.list .nil)) .skip)))) .skip)) .skip))))))))))

/-- UnicodeData/CharNames.py:306-326 -/
def AlgorithmicRange.factorSuffix : Stmt :=
  (.defn (n% "factorSuffix") (.cons (.name (n% "self")) (.cons (.name (n% "char")) .nil)) (.seq (.assign (.name (n% "indexes")) (.list .nil)) (.seq (.assign (.name (n% "code")) (.bin .sub (.name (n% "char")) (.attr (.attr (.name (n% "self")) (n% "charRange")) (n% "start")))) (.seq (.assign (.name (n% "suffix")) (.attr (.name (n% "self")) (n% "string"))) (.seq (.assign (.name (n% "count")) (.bin .sub (.call (.name (n% "len")) (.cons (.attr (.name (n% "self")) (n% "factors")) .nil)) (.num 1))) (.seq (.for (.name (n% "i")) (.call (.name (n% "range")) (.cons (.name (n% "count")) (.cons (.num 0) (.cons (.neg (.num 1)) .nil)))) (.seq (.assign (.name (n% "factor")) (.index (.attr (.name (n% "self")) (n% "factors")) (.name (n% "i")))) (.seq (.expr (.call (.attr (.name (n% "indexes")) (n% "insert")) (.cons (.num 0) (.cons (.bin .mod (.name (n% "code")) (.name (n% "factor"))) .nil)))) (.seq (.aug .floorDiv (.name (n% "code")) (.name (n% "factor"))) .skip)))) (.seq (.expr (.call (.attr (.name (n% "indexes")) (n% "insert")) (.cons (.num 0) (.cons (.name (n% "code")) .nil)))) (.seq (.assign (.name (n% "elementIndex")) (.num 0)) (.seq (.for (.name (n% "i")) (.call (.name (n% "range")) (.cons (.bin .add (.name (n% "count")) (.num 1)) .nil)) (.seq (.aug .add (.name (n% "elementIndex")) (.index (.name (n% "indexes")) (.name (n% "i")))) (.seq (.aug .add (.name (n% "suffix")) (.index (.attr (.name (n% "self")) (n% "elements")) (.name (n% "elementIndex")))) (.seq (.aug .add (.name (n% "elementIndex")) (.bin .sub (.index (.attr (.name (n% "self")) (n% "factors")) (.name (n% "i"))) (.index (.name (n% "indexes")) (.name (n% "i"))))) .skip)))) (.seq (.ret (.name (n% "suffix"))) .skip))))))))))

/-- UnicodeData/CharNames.py:328-350 -/
def AlgorithmicRange.getName : Stmt :=
  (.defn (n% "getName") (.cons (.name (n% "self")) (.cons (.name (n% "code")) (.cons (.name (n% "nameChoice")) .nil))) (.seq (.assign (.name (n% "name")) (.str [])) (.seq (.ifs (.and (.bin .ne (.name (n% "nameChoice")) (.name (n% "U_UNICODE_CHAR_NAME"))) (.bin .ne (.name (n% "nameChoice")) (.name (n% "U_EXTENDED_CHAR_NAME")))) (.seq (.ret (.str [])) .skip) .skip) (.seq (.ifs (.bin .eq (.attr (.name (n% "self")) (n% "type")) (.num 0)) (.seq (.aug .add (.name (n% "name")) (.attr (.name (n% "self")) (n% "string"))) (.seq (.assign (.name (n% "digits")) (.attr (.name (n% "self")) (n% "variant"))) (.seq (.ifs (.bin .eq (.name (n% "digits")) (.num 4)) (.seq (.assign (.name (n% "hex")) (.fstr [123, 99, 111, 100, 101, 58, 48, 52, 88, 125])) .skip) (.seq (.ifs (.bin .eq (.name (n% "digits")) (.num 5)) (.seq (.assign (.name (n% "hex")) (.fstr [123, 99, 111, 100, 101, 58, 48, 53, 88, 125])) .skip) (.seq (.assign (.name (n% "hex")) (.fstr [123, 99, 111, 100, 101, 58, 48, 54, 88, 125])) .skip)) .skip)) (.seq (.aug .add (.name (n% "name")) (.name (n% "hex"))) .skip)))) (.seq (.ifs (.bin .eq (.attr (.name (n% "self")) (n% "type")) (.num 1)) (.seq (.aug .add (.name (n% "name")) (.call (.attr (.name (n% "self")) (n% "factorSuffix")) (.cons (.name (n% "code")) .nil))) .skip) .skip) .skip)) (.seq (.ret (.name (n% "name"))) .skip)))))

/-- UnicodeData/CharNames.py:352-353 -/
def AlgorithmicRange.charInRange : Stmt :=
  (.defn (n% "charInRange") (.cons (.name (n% "self")) (.cons (.name (n% "char")) .nil)) (.seq (.ret (.bin .in' (.name (n% "char")) (.attr (.name (n% "self")) (n% "charRange")))) .skip))

/-- UnicodeData/CharNames.py:355-356 -/
def AlgorithmicRange.charOffsetInRange : Stmt :=
  (.defn (n% "charOffsetInRange") (.cons (.name (n% "self")) (.cons (.name (n% "char")) .nil)) (.seq (.ret (.bin .sub (.name (n% "char")) (.attr (.attr (.name (n% "self")) (n% "charRange")) (n% "start")))) .skip))

/-- UnicodeData/CharNames.py:358-360 -/
def AlgorithmicRange.nameIterator : Stmt :=
  (.defn (n% "nameIterator") (.cons (.name (n% "self")) (.cons (.name (n% "nameChoice")) .nil)) (.seq (.for (.name (n% "code")) (.attr (.name (n% "self")) (n% "charRange")) (.seq (.yield (.tuple (.cons (.name (n% "code")) (.cons (.call (.attr (.name (n% "self")) (n% "getName")) (.cons (.name (n% "code")) (.cons (.name (n% "nameChoice")) .nil))) .nil)))) .skip)) .skip))

/-- UnicodeData/CharNames.py:266-360 -/
def classAlgorithmicRange : Stmt :=
  (.cls (n% "AlgorithmicRange") (.cons (.name (n% "object")) .nil) (.seq AlgorithmicRange.__init__ (.seq AlgorithmicRange.factorSuffix (.seq AlgorithmicRange.getName (.seq AlgorithmicRange.charInRange (.seq AlgorithmicRange.charOffsetInRange (.seq AlgorithmicRange.nameIterator .skip)))))))

/-- UnicodeData/CharNames.py:367-404 -/
def CharNames.populateData : Stmt :=
  (.deco (.name (n% "classmethod")) (.defn (n% "populateData") (.cons (.name (n% "cls")) .nil) (.seq (.assign (.tuple (.cons (.name (n% "dataOffset")) (.cons (.name (n% "dataHeader")) .nil))) (.call (.attr (.attr (.name (n% "cls")) (n% "_icuData")) (n% "getDataOffsetAndHeader")) (.cons (.str [117, 110, 97, 109, 101, 115, 46, 105, 99, 117]) .nil))) (.seq (.assign (.name (n% "baseOffset")) (.bin .add (.name (n% "dataOffset")) (.attr (.name (n% "dataHeader")) (n% "headerLength")))) (.seq (.assign (.name (n% "namesDataHeaderStart")) (.name (n% "baseOffset"))) (.seq (.assign (.name (n% "namesDataHeaderLimit")) (.bin .add (.name (n% "namesDataHeaderStart")) (.name (n% "_nameDataHeaderLength")))) (.seq (.assign (.name (n% "namesDataHeaderData")) (.call (.attr (.attr (.name (n% "cls")) (n% "_icuData")) (n% "getData")) (.cons (.name (n% "namesDataHeaderStart")) (.cons (.name (n% "namesDataHeaderLimit")) .nil)))) (.seq (.assign (.name (n% "ndh")) (.call (.attr (.name (n% "sstruct")) (n% "unpack")) (.cons (.name (n% "_nameDataHeaderFormat")) (.cons (.slice (.name (n% "namesDataHeaderData")) .nil (.name (n% "_nameDataHeaderLength"))) (.cons (.call (.name (n% "NameDataHeader")) .nil) .nil))))) (.seq (.assign (.name (n% "nameDataHeader")) (.call (.attr (.name (n% "typing")) (n% "cast")) (.cons (.name (n% "NameDataHeader")) (.cons (.name (n% "ndh")) .nil)))) (.seq (.assign (.name (n% "tokensStart")) (.name (n% "namesDataHeaderLimit"))) (.seq (.assign (.name (n% "tokenStringsStart")) (.bin .add (.attr (.name (n% "nameDataHeader")) (n% "tokenStringOffset")) (.name (n% "baseOffset")))) (.seq (.assign (.name (n% "tokenStringsLimit")) (.bin .add (.attr (.name (n% "nameDataHeader")) (n% "groupsOffset")) (.name (n% "baseOffset")))) (.seq (.expr (.call (.attr (.name (n% "Tokens")) (n% "populateData")) (.cons (.attr (.name (n% "cls")) (n% "_icuData")) (.cons (.name (n% "tokensStart")) (.cons (.name (n% "tokenStringsStart")) (.cons (.name (n% "tokenStringsLimit")) .nil)))))) (.seq (.assign (.name (n% "groupsStart")) (.bin .add (.attr (.name (n% "nameDataHeader")) (n% "groupsOffset")) (.name (n% "baseOffset")))) (.seq (.assign (.tuple (.cons (.name (n% "groupsLimit")) .nil)) (.call (.attr (.name (n% "struct")) (n% "unpack")) (.cons (.str [72]) (.cons (.call (.attr (.attr (.name (n% "cls")) (n% "_icuData")) (n% "getData")) (.cons (.name (n% "groupsStart")) (.cons (.bin .add (.name (n% "groupsStart")) (.num 2)) .nil))) .nil)))) (.seq (.assign (.name (n% "groupStringsStart")) (.bin .add (.attr (.name (n% "nameDataHeader")) (n% "groupStringOffset")) (.name (n% "baseOffset")))) (.seq (.assign (.name (n% "groupStart")) (.bin .add (.name (n% "groupsStart")) (.num 2))) (.seq (.for (.name (n% "_")) (.call (.name (n% "range")) (.cons (.name (n% "groupsLimit")) .nil)) (.seq (.assign (.name (n% "group")) (.call (.name (n% "Group")) (.cons (.attr (.name (n% "cls")) (n% "_icuData")) (.cons (.name (n% "groupStart")) (.cons (.name (n% "groupStringsStart")) .nil))))) (.seq (.expr (.call (.attr (.attr (.name (n% "cls")) (n% "_groups")) (n% "append")) (.cons (.name (n% "group")) .nil))) (.seq (.aug .add (.name (n% "groupStart")) (.call (.attr (.name (n% "Group")) (n% "groupLength")) .nil)) .skip)))) (.seq (.assign (.name (n% "rangeStart")) (.bin .add (.attr (.name (n% "nameDataHeader")) (n% "algNamesOffset")) (.name (n% "baseOffset")))) (.seq (.assign (.tuple (.cons (.name (n% "algorithmicRangeCount")) .nil)) (.call (.attr (.name (n% "struct")) (n% "unpack")) (.cons (.str [73]) (.cons (.call (.attr (.attr (.name (n% "cls")) (n% "_icuData")) (n% "getData")) (.cons (.name (n% "rangeStart")) (.cons (.bin .add (.name (n% "rangeStart")) (.num 4)) .nil))) .nil)))) (.seq (.aug .add (.name (n% "rangeStart")) (.num 4)) (.seq (.for (.name (n% "_")) (.call (.name (n% "range")) (.cons (.name (n% "algorithmicRangeCount")) .nil)) (.seq (.assign (.name (n% "algRange")) (.call (.name (n% "AlgorithmicRange")) (.cons (.attr (.name (n% "cls")) (n% "_icuData")) (.cons (.name (n% "rangeStart")) .nil)))) (.seq (.expr (.call (.attr (.attr (.name (n% "cls")) (n% "_algorithmicRanges")) (n% "append")) (.cons (.name (n% "algRange")) .nil))) (.seq (.aug .add (.name (n% "rangeStart")) (.attr (.name (n% "algRange")) (n% "size"))) .skip)))) .skip))))))))))))))))))))))

/-- UnicodeData/CharNames.py:406-419 -/
def CharNames.getGroup : Stmt :=
  (.deco (.name (n% "classmethod")) (.defn (n% "getGroup") (.cons (.name (n% "cls")) (.cons (.name (n% "code")) .nil)) (.seq (.assign (.name (n% "groupMSB")) (.bin .shr (.name (n% "code")) (.name (n% "GROUP_SHIFT")))) (.seq (.assign (.name (n% "start")) (.num 0)) (.seq (.assign (.name (n% "limit")) (.call (.name (n% "len")) (.cons (.attr (.name (n% "cls")) (n% "_groups")) .nil))) (.seq (.while (.bin .lt (.name (n% "start")) (.bin .sub (.name (n% "limit")) (.num 1))) (.seq (.assign (.name (n% "midpoint")) (.bin .floorDiv (.bin .add (.name (n% "start")) (.name (n% "limit"))) (.num 2))) (.seq (.ifs (.bin .lt (.name (n% "groupMSB")) (.attr (.index (.attr (.name (n% "cls")) (n% "_groups")) (.name (n% "midpoint"))) (n% "msb"))) (.seq (.assign (.name (n% "limit")) (.name (n% "midpoint"))) .skip) (.seq (.assign (.name (n% "start")) (.name (n% "midpoint"))) .skip)) .skip))) (.seq (.ret (.cond (.bin .eq (.attr (.index (.attr (.name (n% "cls")) (n% "_groups")) (.name (n% "start"))) (n% "msb")) (.name (n% "groupMSB"))) (.index (.attr (.name (n% "cls")) (n% "_groups")) (.name (n% "start"))) (.name (n% "None")))) .skip)))))))

/-- UnicodeData/CharNames.py:422-431 -/
def CharNames.getCharCat : Stmt :=
  (.deco (.name (n% "classmethod")) (.defn (n% "getCharCat") (.cons (.name (n% "cls")) (.cons (.name (n% "code")) .nil)) (.seq (.ifs (.call (.name (n% "isUnicodeNoncharacter")) (.cons (.name (n% "code")) .nil)) (.seq (.ret (.name (n% "GC_NONCHARACTER_CODEPOINT"))) .skip) .skip) (.seq (.assign (.name (n% "cat")) (.call (.name (n% "getGeneralCategory")) (.cons (.name (n% "code")) .nil))) (.seq (.ifs (.bin .eq (.name (n% "cat")) (.name (n% "GC_SURROGATE"))) (.seq (.ret (.cond (.call (.name (n% "isLead")) (.cons (.name (n% "code")) .nil)) (.name (n% "GC_LEAD_SURROGATE")) (.name (n% "GC_TRAIL_SURROGATE")))) .skip) .skip) (.seq (.ret (.name (n% "cat"))) .skip))))))

/-- UnicodeData/CharNames.py:433-437 -/
def CharNames.getCharCatName : Stmt :=
  (.deco (.name (n% "classmethod")) (.defn (n% "getCharCatName") (.cons (.name (n% "cls")) (.cons (.name (n% "code")) .nil)) (.seq (.assign (.name (n% "cat")) (.call (.attr (.name (n% "cls")) (n% "getCharCat")) (.cons (.name (n% "code")) .nil))) (.seq (.ret (.cond (.bin .ge (.name (n% "cat")) (.call (.name (n% "len")) (.cons (.name (n% "charCatNames")) .nil))) (.str [117, 110, 107, 110, 111, 119, 110]) (.index (.name (n% "charCatNames")) (.name (n% "cat"))))) .skip))))

/-- UnicodeData/CharNames.py:439-446 -/
def CharNames._getName : Stmt :=
  (.deco (.name (n% "classmethod")) (.defn (n% "_getName") (.cons (.name (n% "cls")) (.cons (.name (n% "code")) (.cons (.name (n% "nameChoice")) .nil))) (.seq (.assign (.name (n% "group")) (.call (.attr (.name (n% "cls")) (n% "getGroup")) (.cons (.name (n% "code")) .nil))) (.seq (.ifs (.bin .isNot (.name (n% "group")) (.name (n% "None"))) (.seq (.ret (.call (.attr (.name (n% "group")) (n% "expandName")) (.cons (.bin .and (.name (n% "code")) (.name (n% "GROUP_MASK"))) (.cons (.name (n% "nameChoice")) .nil)))) .skip) .skip) (.seq (.ret (.str [])) .skip)))))

/-- UnicodeData/CharNames.py:448-457 -/
def CharNames.getCharName : Stmt :=
  (.deco (.name (n% "classmethod")) (.defn (n% "getCharName") (.cons (.name (n% "cls")) (.cons (.name (n% "code")) (.cons (.kwarg (n% "nameChoice") (.name (n% "U_UNICODE_CHAR_NAME"))) .nil))) (.seq (.for (.name (n% "algorithmicRange")) (.attr (.name (n% "cls")) (n% "_algorithmicRanges")) (.seq (.ifs (.call (.attr (.name (n% "algorithmicRange")) (n% "charInRange")) (.cons (.name (n% "code")) .nil)) (.seq (.ret (.call (.attr (.name (n% "algorithmicRange")) (n% "getName")) (.cons (.name (n% "code")) (.cons (.name (n% "nameChoice")) .nil)))) .skip) .skip) .skip)) (.seq (.ifs (.bin .eq (.name (n% "nameChoice")) (.name (n% "U_EXTENDED_CHAR_NAME"))) (.seq (.ret (.fstr [60, 123, 99, 108, 115, 46, 103, 101, 116, 67, 104, 97, 114, 67, 97, 116, 78, 97, 109, 101, 40, 99, 111, 100, 101, 41, 125, 45, 123, 99, 111, 100, 101, 58, 48, 52, 88, 125, 62])) .skip) .skip) (.seq (.ret (.call (.attr (.name (n% "CharNames")) (n% "_getName")) (.cons (.name (n% "code")) (.cons (.name (n% "nameChoice")) .nil)))) .skip)))))

/-- UnicodeData/CharNames.py:459-479 -/
def CharNames.nameIterator : Stmt :=
  (.deco (.name (n% "classmethod")) (.defn (n% "nameIterator") (.cons (.name (n% "cls")) (.cons (.kwarg (n% "nameChoice") (.name (n% "U_UNICODE_CHAR_NAME"))) .nil)) (.seq (.assign (.name (n% "charLimit")) (.call (.name (n% "max")) (.cons (.attr (.attr (.index (.attr (.name (n% "cls")) (n% "_groups")) (.neg (.num 1))) (n% "charRange")) (n% "stop")) (.cons (.attr (.attr (.index (.attr (.name (n% "cls")) (n% "_algorithmicRanges")) (.neg (.num 1))) (n% "charRange")) (n% "stop")) .nil)))) (.seq (.assign (.name (n% "char")) (.num 0)) (.seq (.assign (.name (n% "algRange")) (.num 0)) (.seq (.while (.bin .lt (.name (n% "char")) (.name (n% "charLimit"))) (.seq (.assign (.name (n% "group")) (.call (.attr (.name (n% "cls")) (n% "getGroup")) (.cons (.name (n% "char")) .nil))) (.seq (.ifs (.and (.name (n% "group")) (.bin .in' (.name (n% "char")) (.attr (.name (n% "group")) (n% "charRange")))) (.seq (.for (.tuple (.cons (.name (n% "code")) (.cons (.name (n% "name")) .nil))) (.call (.attr (.name (n% "group")) (n% "nameIterator")) (.cons (.name (n% "nameChoice")) .nil)) (.seq (.ifs (.name (n% "name")) (.seq (.yield (.tuple (.cons (.name (n% "code")) (.cons (.name (n% "name")) .nil)))) .skip) .skip) .skip)) (.seq (.assign (.name (n% "char")) (.attr (.attr (.name (n% "group")) (n% "charRange")) (n% "stop"))) .skip)) (.seq (.ifs (.and (.bin .lt (.name (n% "algRange")) (.call (.name (n% "len")) (.cons (.attr (.name (n% "cls")) (n% "_algorithmicRanges")) .nil))) (.call (.attr (.index (.attr (.name (n% "cls")) (n% "_algorithmicRanges")) (.name (n% "algRange"))) (n% "charInRange")) (.cons (.name (n% "char")) .nil))) (.seq (.assign (.name (n% "algorithmicRange")) (.index (.attr (.name (n% "cls")) (n% "_algorithmicRanges")) (.name (n% "algRange")))) (.seq (.for (.tuple (.cons (.name (n% "code")) (.cons (.name (n% "name")) .nil))) (.call (.attr (.name (n% "algorithmicRange")) (n% "nameIterator")) (.cons (.name (n% "nameChoice")) .nil)) (.seq (.ifs (.name (n% "name")) (.seq (.yield (.tuple (.cons (.name (n% "code")) (.cons (.name (n% "name")) .nil)))) .skip) .skip) .skip)) (.seq (.assign (.name (n% "char")) (.attr (.attr (.name (n% "algorithmicRange")) (n% "charRange")) (n% "stop"))) (.seq (.aug .add (.name (n% "algRange")) (.num 1)) .skip)))) (.seq (.aug .add (.name (n% "char")) (.name (n% "LINES_PER_GROUP"))) .skip)) .skip)) .skip))) .skip))))))

/-- UnicodeData/CharNames.py:481-487 -/
def CharNames.charFromName : Stmt :=
  (.deco (.name (n% "classmethod")) (.defn (n% "charFromName") (.cons (.name (n% "cls")) (.cons (.name (n% "theName")) (.cons (.kwarg (n% "nameChoice") (.name (n% "U_UNICODE_CHAR_NAME"))) .nil))) (.seq (.for (.tuple (.cons (.name (n% "code")) (.cons (.name (n% "name")) .nil))) (.call (.attr (.name (n% "cls")) (n% "nameIterator")) (.cons (.name (n% "nameChoice")) .nil)) (.seq (.ifs (.bin .eq (.name (n% "name")) (.name (n% "theName"))) (.seq (.ret (.name (n% "code"))) .skip) .skip) .skip)) (.seq (.ret (.num 0xffffffff)) .skip))))

/-- UnicodeData/CharNames.py:362-487 -/
def classCharNames : Stmt :=
  (.cls (n% "CharNames") (.cons (.name (n% "object")) .nil) (.seq (.assign (.name (n% "_icuData")) (.call (.name (n% "ICUData")) .nil)) (.seq (.assign (.name (n% "_groups")) (.list .nil)) (.seq (.assign (.name (n% "_algorithmicRanges")) (.list .nil)) (.seq CharNames.populateData (.seq CharNames.getGroup (.seq CharNames.getCharCat (.seq CharNames.getCharCatName (.seq CharNames._getName (.seq CharNames.getCharName (.seq CharNames.nameIterator (.seq CharNames.charFromName .skip))))))))))))

/-- UnicodeData/CharNames.py, all of it. -/
def module : Stmt :=
  (.seq (.expr (.str [66, 97, 115, 101, 100, 32, 111, 110, 32, 117, 99, 104, 97, 114, 46, 99, 112, 112, 32, 102, 114, 111, 109, 32, 73, 67, 85, 10, 10, 67, 114, 101, 97, 116, 101, 100, 32, 111, 110, 32, 77, 97, 121, 32, 49, 53, 44, 32, 50, 48, 50, 48, 10, 10, 64, 97, 117, 116, 104, 111, 114, 32, 69, 114, 105, 99, 32, 77, 97, 100, 101, 114, 10]))
  (.seq (.imp (n% "typing"))
  (.seq (.imp (n% "struct"))
  (.seq (.imp (n% "misc"))
  (.seq (.imps (n% "ICUDataFile") (.cons (.name (n% "ICUData")) .nil))
  (.seq (.imps (n% "CharProps") (.cons (.name (n% "getGeneralCategory")) .nil))
  (.seq (.imps (n% "GeneralCategories") (.cons (.name (n% "GC_SURROGATE")) (.cons (.name (n% "GC_CATEFORY_COUNT")) .nil)))
  (.seq (.imps (n% "Utilities") (.cons (.name (n% "isLead")) (.cons (.name (n% "isUnicodeNoncharacter")) .nil)))
  (.seq (.assign (.name (n% "GC_NONCHARACTER_CODEPOINT")) (.name (n% "GC_CATEFORY_COUNT")))
  (.seq (.assign (.name (n% "GC_LEAD_SURROGATE")) (.bin .add (.name (n% "GC_CATEFORY_COUNT")) (.num 1)))
  (.seq (.assign (.name (n% "GC_TRAIL_SURROGATE")) (.bin .add (.name (n% "GC_CATEFORY_COUNT")) (.num 2)))
  (.seq (.assign (.name (n% "charCatNames")) (.list (.cons (.str [117, 110, 97, 115, 115, 105, 103, 110, 101, 100]) (.cons (.str [117, 112, 112, 101, 114, 99, 97, 115, 101, 32, 108, 101, 116, 116, 101, 114]) (.cons (.str [108, 111, 119, 101, 114, 99, 97, 115, 101, 32, 108, 101, 116, 116, 101, 114]) (.cons (.str [116, 105, 116, 108, 101, 99, 97, 115, 101, 32, 108, 101, 116, 116, 101, 114]) (.cons (.str [109, 111, 100, 105, 102, 105, 101, 114, 32, 108, 101, 116, 116, 101, 114]) (.cons (.str [111, 116, 104, 101, 114, 32, 108, 101, 116, 116, 101, 114]) (.cons (.str [110, 111, 110, 32, 115, 112, 97, 99, 105, 110, 103, 32, 109, 97, 114, 107]) (.cons (.str [101, 110, 99, 108, 111, 115, 105, 110, 103, 32, 109, 97, 114, 107]) (.cons (.str [99, 111, 109, 98, 105, 110, 105, 110, 103, 32, 115, 112, 97, 99, 105, 110, 103, 32, 109, 97, 114, 107]) (.cons (.str [100, 101, 99, 105, 109, 97, 108, 32, 100, 105, 103, 105, 116, 32, 110, 117, 109, 98, 101, 114]) (.cons (.str [108, 101, 116, 116, 101, 114, 32, 110, 117, 109, 98, 101, 114]) (.cons (.str [111, 116, 104, 101, 114, 32, 110, 117, 109, 98, 101, 114]) (.cons (.str [115, 112, 97, 99, 101, 32, 115, 101, 112, 97, 114, 97, 116, 111, 114]) (.cons (.str [108, 105, 110, 101, 32, 115, 101, 112, 97, 114, 97, 116, 111, 114]) (.cons (.str [112, 97, 114, 97, 103, 114, 97, 112, 104, 32, 115, 101, 112, 97, 114, 97, 116, 111, 114]) (.cons (.str [99, 111, 110, 116, 114, 111, 108]) (.cons (.str [102, 111, 114, 109, 97, 116]) (.cons (.str [112, 114, 105, 118, 97, 116, 101, 32, 117, 115, 101, 32, 97, 114, 101, 97]) (.cons (.str [115, 117, 114, 114, 111, 103, 97, 116, 101]) (.cons (.str [100, 97, 115, 104, 32, 112, 117, 110, 99, 116, 117, 97, 116, 105, 111, 110]) (.cons (.str [115, 116, 97, 114, 116, 32, 112, 117, 110, 99, 116, 117, 97, 116, 105, 111, 110]) (.cons (.str [101, 110, 100, 32, 112, 117, 110, 99, 116, 117, 97, 116, 105, 111, 110]) (.cons (.str [99, 111, 110, 110, 101, 99, 116, 111, 114, 32, 112, 117, 110, 99, 116, 117, 97, 116, 105, 111, 110]) (.cons (.str [111, 116, 104, 101, 114, 32, 112, 117, 110, 99, 116, 117, 97, 116, 105, 111, 110]) (.cons (.str [109, 97, 116, 104, 32, 115, 121, 109, 98, 111, 108]) (.cons (.str [99, 117, 114, 114, 101, 110, 99, 121, 32, 115, 121, 109, 98, 111, 108]) (.cons (.str [109, 111, 100, 105, 102, 105, 101, 114, 32, 115, 121, 109, 98, 111, 108]) (.cons (.str [111, 116, 104, 101, 114, 32, 115, 121, 109, 98, 111, 108]) (.cons (.str [105, 110, 105, 116, 105, 97, 108, 32, 112, 117, 110, 99, 116, 117, 97, 116, 105, 111, 110]) (.cons (.str [102, 105, 110, 97, 108, 32, 112, 117, 110, 99, 116, 117, 97, 116, 105, 111, 110]) (.cons (.str [110, 111, 110, 99, 104, 97, 114, 97, 99, 116, 101, 114]) (.cons (.str [108, 101, 97, 100, 32, 115, 117, 114, 114, 111, 103, 97, 116, 101]) (.cons (.str [116, 114, 97, 105, 108, 32, 115, 117, 114, 114, 111, 103, 97, 116, 101]) .nil)))))))))))))))))))))))))))))))))))
  (.seq (.assign (.name (n% "U_UNICODE_CHAR_NAME")) (.num 0))
  (.seq (.assign (.name (n% "U_UNICODE_10_CHAR_NAME")) (.num 1))
  (.seq (.assign (.name (n% "U_EXTENDED_CHAR_NAME")) (.num 2))
  (.seq (.assign (.name (n% "U_CHAR_NAME_ALIAS")) (.num 3))
  (.seq (.assign (.name (n% "U_CHAR_NAME_CHOICE_COUNT")) (.num 4))
  (.seq (.assign (.name (n% "U_ISO_COMMENT")) (.name (n% "U_CHAR_NAME_CHOICE_COUNT")))
  (.seq (.assign (.name (n% "GROUP_SHIFT")) (.num 5))
  (.seq (.assign (.name (n% "LINES_PER_GROUP")) (.bin .shl (.num 1) (.name (n% "GROUP_SHIFT"))))
  (.seq (.assign (.name (n% "GROUP_MASK")) (.bin .sub (.name (n% "LINES_PER_GROUP")) (.num 1)))
  (.seq (.assign (.name (n% "GROUP_MSB")) (.num 0))
  (.seq (.assign (.name (n% "GROUP_OFFSET_HIGH")) (.num 1))
  (.seq (.assign (.name (n% "GROUP_OFFSET_LOW")) (.num 2))
  (.seq (.assign (.name (n% "GROUP_LENGTH")) (.num 3))
  (.seq (.assign (.name (n% "CP_SEMICOLON")) (.call (.name (n% "ord")) (.cons (.str [59]) .nil)))
  (.seq classNameDataHeader
  (.seq (.assign (.name (n% "_nameDataHeaderFormat")) (.str [116, 111, 107, 101, 110, 83, 116, 114, 105, 110, 103, 79, 102, 102, 115, 101, 116, 58, 32, 73, 59, 32, 103, 114, 111, 117, 112, 115, 79, 102, 102, 115, 101, 116, 58, 32, 73, 59, 32, 103, 114, 111, 117, 112, 83, 116, 114, 105, 110, 103, 79, 102, 102, 115, 101, 116, 58, 32, 73, 59, 32, 97, 108, 103, 78, 97, 109, 101, 115, 79, 102, 102, 115, 101, 116, 58, 32, 73]))
  (.seq (.assign (.name (n% "_nameDataHeaderLength")) (.call (.attr (.name (n% "sstruct")) (n% "calcsize")) (.cons (.name (n% "_nameDataHeaderFormat")) .nil)))
  (.seq classAlgRange
  (.seq (.assign (.name (n% "_rangeFormat")) (.str [115, 116, 97, 114, 116, 58, 32, 73, 59, 32, 101, 110, 100, 58, 32, 73, 59, 32, 116, 121, 112, 101, 58, 32, 66, 59, 32, 118, 97, 114, 105, 97, 110, 116, 58, 32, 66, 59, 32, 115, 105, 122, 101, 58, 32, 72]))
  (.seq (.assign (.name (n% "_rangeLength")) (.call (.attr (.name (n% "sstruct")) (n% "calcsize")) (.cons (.name (n% "_rangeFormat")) .nil)))
  (.seq classTokens
  (.seq classGroup
  (.seq classAlgorithmicRange
  (.seq classCharNames
  (.seq (.expr (.call (.attr (.name (n% "CharNames")) (n% "populateData")) .nil)) .skip)))))))))))))))))))))))))))))))))))))

end CharNames

end Verif.Data.Syntax
