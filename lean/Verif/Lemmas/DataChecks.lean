import Verif.Lemmas.DataText
import Verif.Data.Bidi
import Verif.Data.Case
import Verif.Data.CharProps
import Verif.Data.Norm2
import Verif.Data.DataText
/-!
# The lines of the data modules hold the entries of the tables

Every row of a table is written down again, and compared with the line of the file.
-/
namespace Verif.DataText
open Verif.Data

set_option Elab.async false

theorem bidiIndex_check0 : checkFull 16 (leaves bidiIndex_rows0) bidiText1 = true := by decide +kernel

theorem bidiIndex_check1 : checkFull 16 (leaves bidiIndex_rows1) bidiText2 = true := by decide +kernel

theorem bidiIndex_check2 : checkFull 16 (leaves bidiIndex_rows2) bidiText3 = true := by decide +kernel

/-- The lines of `ubidi_props_trieIndex` hold the entries of the table. -/
theorem bidiIndex_rows : LastRows ((bidiText1 ++ (bidiText2 ++ (bidiText3))) ++ bidiText4) (values bidiIndex) :=
  table_text (A := leaves bidiIndex_rows0 ++ (leaves bidiIndex_rows1 ++ (leaves bidiIndex_rows2))) (L := leaves bidiIndex_rows3)
    (by simp only [List.flatMap_append]; exact rows_append (checkFull_rows (by decide) bidiIndex_check0) (rows_append (checkFull_rows (by decide) bidiIndex_check1) (checkFull_rows (by decide) bidiIndex_check2)))
    (by simp only [bidiIndex, leaves, List.append_assoc]) 3 12 56 (by decide) (by decide +kernel) (by decide +kernel) (by decide) (by decide +kernel) (by decide +kernel) (by decide +kernel)

/-- The lines of `ubidi_props_mirrors` hold the entries of the table. -/
theorem bidiMirrors_rows : LastRows bidiText6 (values bidiMirrors) :=
  table_text (A := []) .nil rfl 0 0 40 (by decide) (by decide +kernel) (by decide) (by decide) (by decide +kernel) (by decide +kernel) (by decide +kernel)

/-- The lines of `ubidi_props_jgArray` hold the entries of the table. -/
theorem bidiJg1_rows : LastRows bidiText8 (values bidiJg1) :=
  table_text (A := []) .nil rfl 10 40 40 (by decide) (by decide +kernel) (by decide) (by decide) (by decide +kernel) (by decide +kernel) (by decide +kernel)

/-- The lines of `ubidi_props_jgArray2` hold the entries of the table. -/
theorem bidiJg2_rows : LastRows bidiText10 (values bidiJg2) :=
  table_text (A := []) .nil rfl 9 36 36 (by decide) (by decide +kernel) (by decide) (by decide) (by decide +kernel) (by decide +kernel) (by decide +kernel)

theorem caseIndex_check0 : checkFull 16 (leaves caseIndex_rows0) caseText1 = true := by decide +kernel

theorem caseIndex_check1 : checkFull 16 (leaves caseIndex_rows1) caseText2 = true := by decide +kernel

theorem caseIndex_check2 : checkFull 16 (leaves caseIndex_rows2) caseText3 = true := by decide +kernel

/-- The lines of `ucase_props_trieIndex` hold the entries of the table. -/
theorem caseIndex_rows : LastRows ((caseText1 ++ (caseText2 ++ (caseText3))) ++ caseText4) (values caseIndex) :=
  table_text (A := leaves caseIndex_rows0 ++ (leaves caseIndex_rows1 ++ (leaves caseIndex_rows2))) (L := leaves caseIndex_rows3)
    (by simp only [List.flatMap_append]; exact rows_append (checkFull_rows (by decide) caseIndex_check0) (rows_append (checkFull_rows (by decide) caseIndex_check1) (checkFull_rows (by decide) caseIndex_check2)))
    (by simp only [caseIndex, leaves, List.append_assoc]) 1 4 4 (by decide) (by decide +kernel) (by decide +kernel) (by decide) (by decide +kernel) (by decide +kernel) (by decide +kernel)

/-- The lines of `ucase_props_exceptions` hold the entries of the table. -/
theorem caseExceptions_rows : LastRows caseText6 (values caseExceptions) :=
  table_text (A := []) .nil rfl 26 104 3 (by decide) (by decide +kernel) (by decide) (by decide) (by decide +kernel) (by decide +kernel) (by decide +kernel)

/-- The lines of `ucase_props_unfold` hold the entries of the table. -/
theorem caseUnfold_rows : LastRows caseText8 (values caseUnfold) :=
  table_text (A := []) .nil rfl 5 20 50 (by decide) (by decide +kernel) (by decide) (by decide) (by decide +kernel) (by decide +kernel) (by decide +kernel)

theorem propsIndex_check0 : checkFull 16 (leaves propsIndex_rows0) charText1 = true := by decide +kernel

theorem propsIndex_check1 : checkFull 16 (leaves propsIndex_rows1) charText2 = true := by decide +kernel

theorem propsIndex_check2 : checkFull 16 (leaves propsIndex_rows2) charText3 = true := by decide +kernel

theorem propsIndex_check3 : checkFull 16 (leaves propsIndex_rows3) charText4 = true := by decide +kernel

theorem propsIndex_check4 : checkFull 16 (leaves propsIndex_rows4) charText5 = true := by decide +kernel

/-- The lines of `propsTrie_index` hold the entries of the table. -/
theorem propsIndex_rows : LastRows ((charText1 ++ (charText2 ++ (charText3 ++ (charText4 ++ (charText5))))) ++ charText6) (values propsIndex) :=
  table_text (A := leaves propsIndex_rows0 ++ (leaves propsIndex_rows1 ++ (leaves propsIndex_rows2 ++ (leaves propsIndex_rows3 ++ (leaves propsIndex_rows4))))) (L := leaves propsIndex_rows5 ++ (leaves propsIndex_rows6 ++ (leaves propsIndex_rows7)))
    (by simp only [List.flatMap_append]; exact rows_append (checkFull_rows (by decide) propsIndex_check0) (rows_append (checkFull_rows (by decide) propsIndex_check1) (rows_append (checkFull_rows (by decide) propsIndex_check2) (rows_append (checkFull_rows (by decide) propsIndex_check3) (checkFull_rows (by decide) propsIndex_check4)))))
    (by simp only [propsIndex, leaves, List.append_assoc]) 28 112 4 (by decide) (by decide +kernel) (by decide +kernel) (by decide) (by decide +kernel) (by decide +kernel) (by decide +kernel)

theorem propsVectorsIndex_check0 : checkFull 16 (leaves propsVectorsIndex_rows0) charText8 = true := by decide +kernel

theorem propsVectorsIndex_check1 : checkFull 16 (leaves propsVectorsIndex_rows1) charText9 = true := by decide +kernel

theorem propsVectorsIndex_check2 : checkFull 16 (leaves propsVectorsIndex_rows2) charText10 = true := by decide +kernel

theorem propsVectorsIndex_check3 : checkFull 16 (leaves propsVectorsIndex_rows3) charText11 = true := by decide +kernel

theorem propsVectorsIndex_check4 : checkFull 16 (leaves propsVectorsIndex_rows4) charText12 = true := by decide +kernel

theorem propsVectorsIndex_check5 : checkFull 16 (leaves propsVectorsIndex_rows5) charText13 = true := by decide +kernel

theorem propsVectorsIndex_check6 : checkFull 16 (leaves propsVectorsIndex_rows6) charText14 = true := by decide +kernel

/-- The lines of `propsVectorsTrie_index` hold the entries of the table. -/
theorem propsVectorsIndex_rows : LastRows ((charText8 ++ (charText9 ++ (charText10 ++ (charText11 ++ (charText12 ++ (charText13 ++ (charText14))))))) ++ charText15) (values propsVectorsIndex) :=
  table_text (A := leaves propsVectorsIndex_rows0 ++ (leaves propsVectorsIndex_rows1 ++ (leaves propsVectorsIndex_rows2 ++ (leaves propsVectorsIndex_rows3 ++ (leaves propsVectorsIndex_rows4 ++ (leaves propsVectorsIndex_rows5 ++ (leaves propsVectorsIndex_rows6))))))) (L := leaves propsVectorsIndex_rows7)
    (by simp only [List.flatMap_append]; exact rows_append (checkFull_rows (by decide) propsVectorsIndex_check0) (rows_append (checkFull_rows (by decide) propsVectorsIndex_check1) (rows_append (checkFull_rows (by decide) propsVectorsIndex_check2) (rows_append (checkFull_rows (by decide) propsVectorsIndex_check3) (rows_append (checkFull_rows (by decide) propsVectorsIndex_check4) (rows_append (checkFull_rows (by decide) propsVectorsIndex_check5) (checkFull_rows (by decide) propsVectorsIndex_check6)))))))
    (by simp only [propsVectorsIndex, leaves, List.append_assoc]) 39 156 60 (by decide) (by decide +kernel) (by decide +kernel) (by decide) (by decide +kernel) (by decide +kernel) (by decide +kernel)

theorem propsVectorsTable_check0 : checkFull 32 (leaves propsVectorsTable_rows0) charText17 = true := by decide +kernel

/-- The lines of `propsVectors` hold the entries of the table. -/
theorem propsVectorsTable_rows : LastRows ((charText17) ++ charText18) (values propsVectorsTable) :=
  table_text (A := leaves propsVectorsTable_rows0) (L := leaves propsVectorsTable_rows1)
    (checkFull_rows (by decide) propsVectorsTable_check0)
    (by simp only [propsVectorsTable, leaves]) 45 180 23 (by decide) (by decide +kernel) (by decide +kernel) (by decide) (by decide +kernel) (by decide +kernel) (by decide +kernel)

/-- The lines of `scriptExtensions` hold the entries of the table. -/
theorem scriptExtensions_rows : LastRows charText20 (values scriptExtensions) :=
  table_text (A := []) .nil rfl 4 16 6 (by decide) (by decide +kernel) (by decide) (by decide) (by decide +kernel) (by decide +kernel) (by decide +kernel)

/-- The lines of `norm2_nfc_data_indexes` hold the entries of the table. -/
theorem nfcIndexes_rows : LastRows nfcText1 (values nfcIndexes) :=
  table_text (A := []) .nil rfl 0 0 20 (by decide) (by decide +kernel) (by decide) (by decide) (by decide +kernel) (by decide +kernel) (by decide +kernel)

/-- The lines of `norm2_nfc_data_trieIndex` hold the entries of the table. -/
theorem nfcTrieIndex_rows : LastRows nfcText3 (values nfcTrieIndex) :=
  table_text (A := []) .nil rfl 27 108 18 (by decide) (by decide +kernel) (by decide) (by decide) (by decide +kernel) (by decide +kernel) (by decide +kernel)

theorem nfcTrieData_check0 : checkFull 16 (leaves nfcTrieData_rows0) nfcText5 = true := by decide +kernel

/-- The lines of `norm2_nfc_data_trieData` hold the entries of the table. -/
theorem nfcTrieData_rows : LastRows ((nfcText5) ++ nfcText6) (values nfcTrieData) :=
  table_text (A := leaves nfcTrieData_rows0) (L := leaves nfcTrieData_rows1)
    (checkFull_rows (by decide) nfcTrieData_check0)
    (by simp only [nfcTrieData, leaves]) 59 236 20 (by decide) (by decide +kernel) (by decide +kernel) (by decide) (by decide +kernel) (by decide +kernel) (by decide +kernel)

theorem nfcExtraData_check0 : checkFull 16 (leaves nfcExtraData_rows0) nfcText8 = true := by decide +kernel

/-- The lines of `norm2_nfc_data_extraData` hold the entries of the table. -/
theorem nfcExtraData_rows : LastRows ((nfcText8) ++ nfcText9) (values nfcExtraData) :=
  table_text (A := leaves nfcExtraData_rows0) (L := leaves nfcExtraData_rows1)
    (checkFull_rows (by decide) nfcExtraData_check0)
    (by simp only [nfcExtraData, leaves]) 56 224 52 (by decide) (by decide +kernel) (by decide +kernel) (by decide) (by decide +kernel) (by decide +kernel) (by decide +kernel)

/-- The lines of `norm2_nfc_data_smallFCD` hold the entries of the table. -/
theorem nfcSmallFCD_rows : LastRows nfcText11 (values nfcSmallFCD) :=
  table_text (A := []) .nil rfl 3 12 64 (by decide) (by decide +kernel) (by decide) (by decide) (by decide +kernel) (by decide +kernel) (by decide +kernel)

end Verif.DataText
