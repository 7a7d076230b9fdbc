import Verif.Model.CharProps
/-! # The masks of general categories in `uchar_h.py`

`uchar_h.py` is generated from ICU's header. The numbers of the categories are written out here as in the file (uchar_h.py:125-154).
-/
namespace Verif.Uchar

/-- uchar_h.py:7 `U_MASK`. -/
def U_MASK (x : Nat) : Nat := 1 <<< x

/-- uchar_h.py:156 `U_GC_CN_MASK = U_MASK(U_GENERAL_OTHER_TYPES)`. -/
def U_GC_CN_MASK : Nat := U_MASK 0
/-- uchar_h.py:157 `U_GC_LU_MASK = U_MASK(U_UPPERCASE_LETTER)`. -/
def U_GC_LU_MASK : Nat := U_MASK 1
/-- uchar_h.py:158 `U_GC_LL_MASK = U_MASK(U_LOWERCASE_LETTER)`. -/
def U_GC_LL_MASK : Nat := U_MASK 2
/-- uchar_h.py:159 `U_GC_LT_MASK = U_MASK(U_TITLECASE_LETTER)`. -/
def U_GC_LT_MASK : Nat := U_MASK 3
/-- uchar_h.py:160 `U_GC_LM_MASK = U_MASK(U_MODIFIER_LETTER)`. -/
def U_GC_LM_MASK : Nat := U_MASK 4
/-- uchar_h.py:161 `U_GC_LO_MASK = U_MASK(U_OTHER_LETTER)`. -/
def U_GC_LO_MASK : Nat := U_MASK 5
/-- uchar_h.py:162 `U_GC_MN_MASK = U_MASK(U_NON_SPACING_MARK)`. -/
def U_GC_MN_MASK : Nat := U_MASK 6
/-- uchar_h.py:163 `U_GC_ME_MASK = U_MASK(U_ENCLOSING_MARK)`. -/
def U_GC_ME_MASK : Nat := U_MASK 7
/-- uchar_h.py:164 `U_GC_MC_MASK = U_MASK(U_COMBINING_SPACING_MARK)`. -/
def U_GC_MC_MASK : Nat := U_MASK 8
/-- uchar_h.py:165 `U_GC_ND_MASK = U_MASK(U_DECIMAL_DIGIT_NUMBER)`. -/
def U_GC_ND_MASK : Nat := U_MASK 9
/-- uchar_h.py:166 `U_GC_NL_MASK = U_MASK(U_LETTER_NUMBER)`. -/
def U_GC_NL_MASK : Nat := U_MASK 10
/-- uchar_h.py:167 `U_GC_NO_MASK = U_MASK(U_OTHER_NUMBER)`. -/
def U_GC_NO_MASK : Nat := U_MASK 11
/-- uchar_h.py:168 `U_GC_ZS_MASK = U_MASK(U_SPACE_SEPARATOR)`. -/
def U_GC_ZS_MASK : Nat := U_MASK 12
/-- uchar_h.py:169 `U_GC_ZL_MASK = U_MASK(U_LINE_SEPARATOR)`. -/
def U_GC_ZL_MASK : Nat := U_MASK 13
/-- uchar_h.py:170 `U_GC_ZP_MASK = U_MASK(U_PARAGRAPH_SEPARATOR)`. -/
def U_GC_ZP_MASK : Nat := U_MASK 14
/-- uchar_h.py:171 `U_GC_CC_MASK = U_MASK(U_CONTROL_CHAR)`. -/
def U_GC_CC_MASK : Nat := U_MASK 15
/-- uchar_h.py:172 `U_GC_CF_MASK = U_MASK(U_FORMAT_CHAR)`. -/
def U_GC_CF_MASK : Nat := U_MASK 16
/-- uchar_h.py:173 `U_GC_CO_MASK = U_MASK(U_PRIVATE_USE_CHAR)`. -/
def U_GC_CO_MASK : Nat := U_MASK 17
/-- uchar_h.py:174 `U_GC_CS_MASK = U_MASK(U_SURROGATE)`. -/
def U_GC_CS_MASK : Nat := U_MASK 18
/-- uchar_h.py:175 `U_GC_PD_MASK = U_MASK(U_DASH_PUNCTUATION)`. -/
def U_GC_PD_MASK : Nat := U_MASK 19
/-- uchar_h.py:176 `U_GC_PS_MASK = U_MASK(U_START_PUNCTUATION)`. -/
def U_GC_PS_MASK : Nat := U_MASK 20
/-- uchar_h.py:177 `U_GC_PE_MASK = U_MASK(U_END_PUNCTUATION)`. -/
def U_GC_PE_MASK : Nat := U_MASK 21
/-- uchar_h.py:178 `U_GC_PC_MASK = U_MASK(U_CONNECTOR_PUNCTUATION)`. -/
def U_GC_PC_MASK : Nat := U_MASK 22
/-- uchar_h.py:179 `U_GC_PO_MASK = U_MASK(U_OTHER_PUNCTUATION)`. -/
def U_GC_PO_MASK : Nat := U_MASK 23
/-- uchar_h.py:180 `U_GC_SM_MASK = U_MASK(U_MATH_SYMBOL)`. -/
def U_GC_SM_MASK : Nat := U_MASK 24
/-- uchar_h.py:181 `U_GC_SC_MASK = U_MASK(U_CURRENCY_SYMBOL)`. -/
def U_GC_SC_MASK : Nat := U_MASK 25
/-- uchar_h.py:182 `U_GC_SK_MASK = U_MASK(U_MODIFIER_SYMBOL)`. -/
def U_GC_SK_MASK : Nat := U_MASK 26
/-- uchar_h.py:183 `U_GC_SO_MASK = U_MASK(U_OTHER_SYMBOL)`. -/
def U_GC_SO_MASK : Nat := U_MASK 27
/-- uchar_h.py:184 `U_GC_PI_MASK = U_MASK(U_INITIAL_PUNCTUATION)`. -/
def U_GC_PI_MASK : Nat := U_MASK 28
/-- uchar_h.py:185 `U_GC_PF_MASK = U_MASK(U_FINAL_PUNCTUATION)`. -/
def U_GC_PF_MASK : Nat := U_MASK 29
/-- uchar_h.py:186 `U_GC_L_MASK`. -/
def U_GC_L_MASK : Nat := U_GC_LU_MASK ||| U_GC_LL_MASK ||| U_GC_LT_MASK ||| U_GC_LM_MASK ||| U_GC_LO_MASK
/-- uchar_h.py:187 `U_GC_LC_MASK`. -/
def U_GC_LC_MASK : Nat := U_GC_LU_MASK ||| U_GC_LL_MASK ||| U_GC_LT_MASK
/-- uchar_h.py:188 `U_GC_M_MASK`. -/
def U_GC_M_MASK : Nat := U_GC_MN_MASK ||| U_GC_ME_MASK ||| U_GC_MC_MASK
/-- uchar_h.py:189 `U_GC_N_MASK`. -/
def U_GC_N_MASK : Nat := U_GC_ND_MASK ||| U_GC_NL_MASK ||| U_GC_NO_MASK
/-- uchar_h.py:190 `U_GC_Z_MASK`. -/
def U_GC_Z_MASK : Nat := U_GC_ZS_MASK ||| U_GC_ZL_MASK ||| U_GC_ZP_MASK
/-- uchar_h.py:191 `U_GC_C_MASK`. -/
def U_GC_C_MASK : Nat := U_GC_CN_MASK ||| U_GC_CC_MASK ||| U_GC_CF_MASK ||| U_GC_CO_MASK ||| U_GC_CS_MASK
/-- uchar_h.py:192 `U_GC_P_MASK`. -/
def U_GC_P_MASK : Nat := U_GC_PD_MASK ||| U_GC_PS_MASK ||| U_GC_PE_MASK ||| U_GC_PC_MASK ||| U_GC_PO_MASK ||| U_GC_PI_MASK ||| U_GC_PF_MASK
/-- uchar_h.py:193 `U_GC_S_MASK`. -/
def U_GC_S_MASK : Nat := U_GC_SM_MASK ||| U_GC_SC_MASK ||| U_GC_SK_MASK ||| U_GC_SO_MASK

/-- GeneralCategories.py:155 `GC_LC_MASK`. -/
def GC_LC_MASK : Nat := Char.LU_MASK ||| Char.LL_MASK ||| Char.LT_MASK

/-- uchar_h.py:156-193: the masks `U_GC_XX_MASK`, each with the `XX` of its name. -/
def headerMasks : List (String × Nat) := [
  ("CN", U_GC_CN_MASK), ("LU", U_GC_LU_MASK), ("LL", U_GC_LL_MASK), ("LT", U_GC_LT_MASK), ("LM", U_GC_LM_MASK),
  ("LO", U_GC_LO_MASK), ("MN", U_GC_MN_MASK), ("ME", U_GC_ME_MASK), ("MC", U_GC_MC_MASK), ("ND", U_GC_ND_MASK),
  ("NL", U_GC_NL_MASK), ("NO", U_GC_NO_MASK), ("ZS", U_GC_ZS_MASK), ("ZL", U_GC_ZL_MASK), ("ZP", U_GC_ZP_MASK),
  ("CC", U_GC_CC_MASK), ("CF", U_GC_CF_MASK), ("CO", U_GC_CO_MASK), ("CS", U_GC_CS_MASK), ("PD", U_GC_PD_MASK),
  ("PS", U_GC_PS_MASK), ("PE", U_GC_PE_MASK), ("PC", U_GC_PC_MASK), ("PO", U_GC_PO_MASK), ("SM", U_GC_SM_MASK),
  ("SC", U_GC_SC_MASK), ("SK", U_GC_SK_MASK), ("SO", U_GC_SO_MASK), ("PI", U_GC_PI_MASK), ("PF", U_GC_PF_MASK),
  ("L", U_GC_L_MASK), ("LC", U_GC_LC_MASK), ("M", U_GC_M_MASK), ("N", U_GC_N_MASK), ("Z", U_GC_Z_MASK), ("C", U_GC_C_MASK),
  ("P", U_GC_P_MASK), ("S", U_GC_S_MASK)]

/-- GeneralCategories.py:82-173: the masks `GC_XX_MASK`, each with the `XX` of its name. -/
def categoryMasks : List (String × Nat) := [
  ("CN", Char.CN_MASK), ("LU", Char.LU_MASK), ("LL", Char.LL_MASK), ("LT", Char.LT_MASK), ("LM", Char.LM_MASK),
  ("LO", Char.LO_MASK), ("MN", Char.MN_MASK), ("ME", Char.ME_MASK), ("MC", Char.MC_MASK), ("ND", Char.ND_MASK),
  ("NL", Char.NL_MASK), ("NO", Char.NO_MASK), ("ZS", Char.ZS_MASK), ("ZL", Char.ZL_MASK), ("ZP", Char.ZP_MASK),
  ("CC", Char.CC_MASK), ("CF", Char.CF_MASK), ("CO", Char.CO_MASK), ("CS", Char.CS_MASK), ("PD", Char.PD_MASK),
  ("PS", Char.PS_MASK), ("PE", Char.PE_MASK), ("PC", Char.PC_MASK), ("PO", Char.PO_MASK), ("SM", Char.SM_MASK),
  ("SC", Char.SC_MASK), ("SK", Char.SK_MASK), ("SO", Char.SO_MASK), ("PI", Char.PI_MASK), ("PF", Char.PF_MASK),
  ("L", Char.L_MASK), ("LC", GC_LC_MASK), ("M", Char.M_MASK), ("N", Char.N_MASK), ("Z", Char.Z_MASK), ("C", Char.C_MASK),
  ("P", Char.P_MASK), ("S", Char.S_MASK)]

end Verif.Uchar
