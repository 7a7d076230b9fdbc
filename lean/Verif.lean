import Verif.Data.Bidi
import Verif.Data.Case
import Verif.Data.CharProps
import Verif.Data.DataText
import Verif.Data.Keys
import Verif.Data.Names
import Verif.Data.Norm2
import Verif.Data.Source
import Verif.Data.Syntax
import Verif.Data.Tables
import Verif.Data.Text
import Verif.Lemmas.BidiData
import Verif.Lemmas.BidiWorld
import Verif.Lemmas.BigTable
import Verif.Lemmas.BitScan
import Verif.Lemmas.Bits
import Verif.Lemmas.BuildPlan
import Verif.Lemmas.Bytes
import Verif.Lemmas.CExpand
import Verif.Lemmas.CExpr
import Verif.Lemmas.CPTrieBytes
import Verif.Lemmas.CPTrieEnum
import Verif.Lemmas.CPTrieGet
import Verif.Lemmas.CPTrieStuck
import Verif.Lemmas.CaseData
import Verif.Lemmas.CaseDecomp
import Verif.Lemmas.CaseMaps
import Verif.Lemmas.CaseWorld
import Verif.Lemmas.CharBidi
import Verif.Lemmas.CharData
import Verif.Lemmas.CharDigits
import Verif.Lemmas.CharGet
import Verif.Lemmas.CharRows
import Verif.Lemmas.CharVec
import Verif.Lemmas.CharWorld
import Verif.Lemmas.DataChecks
import Verif.Lemmas.DataText
import Verif.Lemmas.DictLines
import Verif.Lemmas.ExactSets
import Verif.Lemmas.HeaderLookup
import Verif.Lemmas.HeaderText
import Verif.Lemmas.ICUDataThreads
import Verif.Lemmas.Import
import Verif.Lemmas.MapScan
import Verif.Lemmas.MapSets
import Verif.Lemmas.ModuleText
import Verif.Lemmas.NameAlg
import Verif.Lemmas.NameLengths
import Verif.Lemmas.NameLookup
import Verif.Lemmas.NameTokens
import Verif.Lemmas.NamesWorld
import Verif.Lemmas.NfcBits
import Verif.Lemmas.NfcClasses
import Verif.Lemmas.NfcData
import Verif.Lemmas.NfcEnum
import Verif.Lemmas.NfcLists
import Verif.Lemmas.NfcScan
import Verif.Lemmas.NfcTrie
import Verif.Lemmas.NormWorld
import Verif.Lemmas.Normalizer2
import Verif.Lemmas.PyBits
import Verif.Lemmas.PyExpr
import Verif.Lemmas.PyHeap
import Verif.Lemmas.PyImport
import Verif.Lemmas.PyLists
import Verif.Lemmas.PyRun
import Verif.Lemmas.PySyntax
import Verif.Lemmas.RunBidi
import Verif.Lemmas.RunCPEnum
import Verif.Lemmas.RunCPTrie
import Verif.Lemmas.RunCase
import Verif.Lemmas.RunChar
import Verif.Lemmas.RunCharCat
import Verif.Lemmas.RunCharName
import Verif.Lemmas.RunNameIter
import Verif.Lemmas.RunNames
import Verif.Lemmas.RunNorm
import Verif.Lemmas.RunNumeric
import Verif.Lemmas.RunRange
import Verif.Lemmas.RunScan
import Verif.Lemmas.RunTrie
import Verif.Lemmas.RunUSet
import Verif.Lemmas.RunUSetAdd
import Verif.Lemmas.RunUSetAddRange
import Verif.Lemmas.RunUSetChange
import Verif.Lemmas.RunUSetHeap
import Verif.Lemmas.RunUSetLoops
import Verif.Lemmas.RunUSetNew
import Verif.Lemmas.RunUSetQuery
import Verif.Lemmas.RunUSetRange
import Verif.Lemmas.RunUSetRetain
import Verif.Lemmas.RunUSetSim
import Verif.Lemmas.RunUSetText
import Verif.Lemmas.RunUSetXor
import Verif.Lemmas.RunUtilities
import Verif.Lemmas.Scan
import Verif.Lemmas.SetRuns
import Verif.Lemmas.ShippedTries
import Verif.Lemmas.SourceChecks
import Verif.Lemmas.Trie2Agree
import Verif.Lemmas.Trie2Enum
import Verif.Lemmas.Trie2EnumOk
import Verif.Lemmas.Trie2Get
import Verif.Lemmas.USetAdd
import Verif.Lemmas.USetBasic
import Verif.Lemmas.USetHeap
import Verif.Lemmas.USetHistory
import Verif.Lemmas.USetIter
import Verif.Lemmas.USetIteration
import Verif.Lemmas.USetMerge
import Verif.Lemmas.USetOps
import Verif.Lemmas.USetRange
import Verif.Lemmas.USetStrict
import Verif.Model.AnyInt
import Verif.Model.BidiProps
import Verif.Model.Build
import Verif.Model.BuilderArgs
import Verif.Model.Bytes
import Verif.Model.CPTrie
import Verif.Model.CPTrieBytes
import Verif.Model.CaseProps
import Verif.Model.CategoryMasks
import Verif.Model.CharNames
import Verif.Model.CharProps
import Verif.Model.Csv
import Verif.Model.DataModules
import Verif.Model.Dictionary
import Verif.Model.Header
import Verif.Model.Hex
import Verif.Model.ICUDataFile
import Verif.Model.ICUDataThreads
import Verif.Model.LayoutProps
import Verif.Model.Library
import Verif.Model.Lines
import Verif.Model.ModuleText
import Verif.Model.Names
import Verif.Model.NamesProgram
import Verif.Model.Normalizer2
import Verif.Model.NumericFloat
import Verif.Model.Py
import Verif.Model.PyExpr
import Verif.Model.PyHeap
import Verif.Model.PyLists
import Verif.Model.PyRun
import Verif.Model.PyStr
import Verif.Model.PySyntax
import Verif.Model.Table
import Verif.Model.Text
import Verif.Model.UCD
import Verif.Model.UCDReader
import Verif.Model.USetProgram
import Verif.Model.UnicodeSet
import Verif.Model.UnicodeSetArgs
import Verif.Model.UnicodeSetHeap
import Verif.Model.UnicodeSetIter
import Verif.Model.Utilities
import Verif.Model.Utrie2
import Verif.Props.AnyInt
import Verif.Props.Bidi
import Verif.Props.BidiMaps
import Verif.Props.BinarySets
import Verif.Props.BlockNames
import Verif.Props.BlockRanges
import Verif.Props.BreakMaps
import Verif.Props.BreakSets
import Verif.Props.Build
import Verif.Props.BuildDictionaries
import Verif.Props.BuilderArgs
import Verif.Props.CPTrie
import Verif.Props.Case
import Verif.Props.CaseDecomp
import Verif.Props.CaseMaps
import Verif.Props.CaseTexts
import Verif.Props.CategoryMap
import Verif.Props.CategoryMasks
import Verif.Props.CategorySets
import Verif.Props.Char
import Verif.Props.CharNames
import Verif.Props.ClassPredicates
import Verif.Props.Csv
import Verif.Props.CsvQuoted
import Verif.Props.DataItems
import Verif.Props.DecompTexts
import Verif.Props.Decompositions
import Verif.Props.DerivedSets
import Verif.Props.DictText
import Verif.Props.ExtendedNames
import Verif.Props.Header
import Verif.Props.HeaderConstants
import Verif.Props.HeaderModule
import Verif.Props.HeaderTranslate
import Verif.Props.Hex
import Verif.Props.ICUDataFile
import Verif.Props.ICUDataThreads
import Verif.Props.Install
import Verif.Props.Keys
import Verif.Props.Mirrors
import Verif.Props.ModuleText
import Verif.Props.ModuleValues
import Verif.Props.NamesData
import Verif.Props.NfcClasses
import Verif.Props.NormFile
import Verif.Props.Normalizer2
import Verif.Props.NumericFloat
import Verif.Props.NumericMap
import Verif.Props.RunBidiProps
import Verif.Props.RunCPEnum
import Verif.Props.RunCaseProps
import Verif.Props.RunCharNames
import Verif.Props.RunCharProps
import Verif.Props.RunNormalizer
import Verif.Props.RunUnicodeSet
import Verif.Props.ScriptMap
import Verif.Props.SetAlgebra
import Verif.Props.SetIteration
import Verif.Props.ShippedConstants
import Verif.Props.ShippedData
import Verif.Props.Tables
import Verif.Props.UCD
import Verif.Props.UCDFields
import Verif.Props.UCDReader
import Verif.Props.UnicodeSet
import Verif.Props.UnicodeSetArgs
import Verif.Props.UnicodeSetExact
import Verif.Props.UnicodeSetPin
import Verif.Props.Utilities
import Verif.Props.Utrie2
import Verif.Props.ValueNames
import Verif.Props.WidthMaps
import Verif.Spec.AgeMap
import Verif.Spec.BidiMaps
import Verif.Spec.BinarySets
import Verif.Spec.Blocks
import Verif.Spec.BreakSets
import Verif.Spec.Build
import Verif.Spec.Bytes
import Verif.Spec.CExpr
import Verif.Spec.CInit
import Verif.Spec.CPTrie
import Verif.Spec.CaseMaps
import Verif.Spec.CaseTexts
import Verif.Spec.Category
import Verif.Spec.CategoryMap
import Verif.Spec.CategoryMasks
import Verif.Spec.CategorySets
import Verif.Spec.CharNames
import Verif.Spec.Classes
import Verif.Spec.ClusterMaps
import Verif.Spec.CodePointSet
import Verif.Spec.Csv
import Verif.Spec.CsvQuoted
import Verif.Spec.DataItems
import Verif.Spec.DecompTexts
import Verif.Spec.Decompositions
import Verif.Spec.DerivedSets
import Verif.Spec.DictText
import Verif.Spec.ExtendedNames
import Verif.Spec.Header
import Verif.Spec.Hex
import Verif.Spec.ICUDataFile
import Verif.Spec.LineMap
import Verif.Spec.Mirrors
import Verif.Spec.ModuleText
import Verif.Spec.NamesData
import Verif.Spec.Normalization
import Verif.Spec.NumericMap
import Verif.Spec.Ranges
import Verif.Spec.Runs
import Verif.Spec.ScriptMap
import Verif.Spec.SentenceMap
import Verif.Spec.SetAlgebra
import Verif.Spec.SetHistory
import Verif.Spec.SetIteration
import Verif.Spec.Trie2
import Verif.Spec.UCD
import Verif.Spec.UCDReader
import Verif.Spec.ValueNames
import Verif.Spec.WidthMaps
