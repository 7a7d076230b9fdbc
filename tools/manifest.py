"""Writes MANIFEST.json from the table below: property -> (status, theorems, note)."""
import json, os
U = "Verif.USet.Props."
C = {}
def claim(pid, status, names, note=""):
    C[pid] = {"property": pid, "status": status, "theorems": names.split(), "note": note}
def q(prefix, names):
    return " ".join(prefix + n for n in names.split())

claim("C01", "proved", q(U, "union_pointwise"))
claim("C02", "proved", q(U, "intersection_pointwise"))
claim("C03", "proved", q(U, "difference_pointwise"))
claim("C04", "proved", q(U, "symmetricDifference_pointwise"))
claim("C05", "partial", q(U, "complement_pointwise complement_involutive_partial complement_involutive_refuted"),
      "pointwise part proved for all sets; state involution for canonical sets, refuted for UnicodeSet(range(0,0))")
claim("C06", "partial", q(U, "history_refines_partial history_exact history_refines_refuted"),
      "all calls except the single-code-point forms of remove/retain/complement, which are no-ops in the code")
claim("C07", "proved", q(U, "add_pointwise addRange_pointwise"))
claim("C08", "partial", q(U, "single_calls_are_noops single_calls_refuted single_calls_partial"),
      "violated by the code: the three calls never change the set")
claim("C09", "partial", q(U, "range_calls_partial range_calls_refuted"), "s < e proved; s = e is a no-op in the code")
claim("C10", "partial", q(U, "eq_same_members eq_extensional_partial eq_extensional_refuted"),
      "canonical sets; refuted for reachable non-canonical sets")
claim("C11", "partial", q(U, "canonical_history_partial canonical_history_refuted getRanges_maximal reachable_wellFormed"),
      "all calls except addAll/union and degenerate constructor arguments; refuted for those")
claim("C12", "proved", q(U, "size_counts_members"))
claim("C13", "proved", q(U, "iter_yields_members getRanges_expand"))
claim("C14", "proved", q(U, "charAt_member indexOf_member charAt_indexOf_inverse indexOf_none_iff"))
claim("C15", "partial", q(U, "containsRange_members containsRange_iff_partial containsRange_iff_refuted"),
      "True implies all members, always; the converse for canonical sets, refuted otherwise")
claim("C16", "proved", q(U, "no_aliasing"))
claim("C17", "proved", q(U, "history_terminates queries_terminate reachable_wellFormed"))
claim("C18", "partial", q(U, "mutators_return_receiver_partial mutators_return_receiver_refuted"),
      "addRange returns None on its fast path")
claim("C19", "partial", q(U, "outside_values_partial outside_values_refuted"),
      "negative values proved; values above 0x10FFFF are members when 0x10FFFF is")

T = "Verif.Utilities.Props."
claim("C20", "proved", q(T, "surrogate_roundtrip surrogate_roundtrip_pair"))
claim("C21", "proved", q(T, "surrogate_predicates surrogate_predicates_32"))
claim("C22", "proved", q(T, "arithmeticShift_signed arithmeticShift_range"))
claim("C23", "proved", q(T, "highBit_log2 highBit_zero highBit_bound_sharp"))
claim("C24", "proved", q(T, "noncharacter_iff noncharacter_count"))

R = "Verif.UTrie2.Props."
claim("C25", "partial", q(R, "get_correct_partial get_last get_correct_refuted bidi_last_value get_build shipped_get_total"),
      "all code points but 0x10FFFF, which the code answers with the error value")
claim("C26", "partial", q(R, "enumerator_agrees_partial enumerator_high enumerator_agrees_refuted enumerator_unaligned_refuted leads_represents enumerator_leads_refuted"),
      "32-aligned windows of up to 2048 code points (inside one group from U+10000 on), and windows above highStart; refuted across group boundaries, for unaligned starts and for surrogates")
claim("C27", "partial", q(R, "enumerator_tiles_partial enumerator_tiles_default enumerator_tiles_refuted overshoot_represents "
      "enumerator_terminates shipped_enumerator_total"),
      "32-aligned starts, except limits in the trail surrogates and just above; refuted for those")

B = "Verif.Bidi.Props."
claim("C31", "proved", q(B, "mirror_involution mirror_is_mirrored mirror_table mirror_delta"))
claim("C32", "proved", q(B, "pairedBracket_involution pairedBracket_types"))
claim("C33", "proved", q(B, "direction_total_named joiningType_total_named joiningGroup_total_named"))

K = "Verif.Case.Props."
claim("C34", "proved", q(K, "simple_total"))
claim("C35", "proved", q(K, "simple_idempotent"))
claim("C36", "proved", q(K, "full_total"))
claim("C37", "proved", q(K, "slot_value_correct slotOffset_counts hasSlot_iff"))
claim("C61", "proved", q(K, "upper_lower lower_upper upper_title"))
claim("C62", "proved", q(K, "category_fixed moved_category"))

H = "Verif.Char.Props."
claim("C38", "proved", q(H, "generalCategory_named block_named script_named script_invalid eastAsianWidth_named lineBreak_named "
      "sentenceBreak_named wordBreak_named graphemeClusterBreak_named decompType_named age_total numericValue_total"))
claim("C39", "partial", q(H, "isLower_iff isUpper_iff isTitle_iff isDigit_iff isalpha_iff isalnum_iff isDefined_iff isbase_iff "
      "iscntrl_iff isPrint_iff isgraph_iff isGraphPOSIX_iff isPrintPOSIX_iff ispunct_iff isJavaSpaceChar_iff isspace_iff "
      "isWhiteSpace_iff isIDStart_iff isJavaIDStart_iff isIDPart_iff isJavaIDPart_iff predicate_relations graph_print_partial "
      "graph_print_refuted"), "every predicate characterised by category names; two of the listed relations are violated "
      "(private use is graphic but not printable, U+2028 and U+2029 are controls and printable)")
claim("C40", "proved", q(H, "digitValue_spec isDigit_digitValue"))
claim("C41", "partial", q(H, "block_rows_partial block_rows_refuted"), "all code points but U+10FFFF, which the trie does not look up")
claim("C42", "partial", q(H, "columns_partial binaryProp_bit columns_refuted"), "violated for column 3 (off-by-one in the bound check)")
claim("C43", "partial", q(H, "idIgnorable_partial idIgnorable_refuted"), "violated: the ISO control case is computed but not returned")
claim("C63", "proved", q(H, "block_contiguous"))
claim("C64", "proved", q(H, "script_unknown age_unassigned"))
claim("C65", "partial", q(H, "category_implies_property grapheme_base_or_extend whiteSpace_category whiteSpace_isspace "
      "whiteSpace_isspace_differ noncharacter_partial noncharacter_refuted"), "all but the non-character property of U+10FFFF, which the trie does not look up")
claim("C66", "proved", q(H, "property_containments emoji_containments"))
claim("C67", "proved", q(H, "digits_in_tens numbers_have_values"))
claim("C68", "proved", q(H, "brackets_category bidiClass_category"))
claim("C69", "proved", q(H, "numeric_decoding numeric_encodings"), "exact rational arithmetic; Python's rounding to doubles is not modelled")
claim("C70", "partial", q(H, "numericType_partial numericType_refuted"), "violated: the function returns the general category")
claim("C71", "proved", q(H, "isISOControl_iff isBlank_iff isHexDigit_iff isalnumPOSIX_iff"))

W = "Verif.CPTrie.Props."
claim("C28", "proved", q(W, "get_correct get_build nfc_represents"))
claim("C29", "partial", q(W, "enumerator_agrees_partial nfc_enumerator_partial enumerator_terminates_refuted fast_enumerator_refuted "
      "small_enumerator_refuted enumerator_high_refuted enumerator_tiles_refuted enumerator_values_refuted enumerator_nonull_refuted"),
      "windows below 0x1000, or over null groups of small tries, where no block of different values is repeated; refuted "
      "elsewhere: endless loop at 0x1000 in every fast trie, a range delivered twice, nothing delivered from highStart on")
claim("C30", "proved", q(W, "createFromData_roundtrip createFromData_short"))
N = "Verif.Normalizer2.Props."
claim("C44", "proved", q(N, "hangul_standard hangul_syllables hangul_injective"))
claim("C45", "proved", q(N, "hangul_raw_full"))
claim("C46", "proved", q(N, "nfc_total nfc_decomposition_final nfc_expansion nfcRaw_eq"))
claim("C47", "proved", q(N, "stringFromData_utf16 stringFromData_lone_lead"))
claim("C72", "proved", q(N, "nfc_hangul"))

X = "Verif.CharNames.Props."
claim("C48", "proved", q(X, "expandGroupLengths_decodes readGroup_strings"))
claim("C49", "proved", q(X, "getGroup_exact getGroup_no_groups"))
claim("C50", "proved", q(X, "hexNames_injective factorNames_injective factorNames_exact hangulNames_injective"))
claim("C51", "partial", q(X, "nameIterator_complete_partial nameIterator_extended_refuted nameIterator_skips_refuted "
      "nameIterator_no_ranges"), "violated for extended names, and for short ranges that the steps of 32 miss")
claim("C52", "partial", q(X, "charFromName_first_partial charFromName_inverts_partial nameIterator_extended_refuted "
      "nameIterator_skips_refuted"), "violated where the iteration is incomplete")
claim("C53", "partial", q(X, "expandString_iff expandString_extended expandString_total_partial expandString_total_refuted expandName_field"),
      "violated: a string that ends in a lead byte raises IndexError")
claim("C73", "proved", q(X, "charCat_spec extendedName_total extendedName_injective extendedName_label"))

I = "Verif.ICUData.Props."
claim("C54", "proved", q(I, "lookup_exact lookup_distinct dataHeader_exact"))
claim("C55", "proved", q(I, "construct_idempotent construct_loaded failed_load_is_kept empty_file"),
      "also shows that a failed load is kept")
claim("C74", "proved", q(I, "getString_text getName_text getName_noSlash"))

D = "Verif.UCD.Props."
claim("C56", "proved", q(D, "getCharProperty_value getBooleanProperty_iff"))
claim("C57", "proved", q(D, "getCodePointsProperty_maps dmToString_spec"))
claim("C75", "proved", q(D, "characterData_total name_pound missing_bracket_rejected"), "Python's eval is an argument of the model")
claim("C76", "partial", q(D, "binaryProperties_attributes binaryProperties_fields decompProperties_attributes caseProperties_attributes "
      "bidiProperties_attributes indicProperties_attributes characterData_attributes simpleTitleCase_partial simpleTitleCase_refuted"),
      "violated for simpleTitleCase, which holds the attribute's text")

Y = "Verif.BuilderArgs.Props."
claim("C58", "proved", q(Y, "forArguments_ok forArguments_perm forArguments_error"))
G = "Verif.UCDReader.Props."
claim("C59", "proved", q(G, "generateDictionaries_ok generateDictionaries_error fileText_ok"), "the rows are those of the csv reader (C123)")

E = "Verif.Header.Props."
claim("C60", "partial", q(E, "readAll_reads_partial nextLine_some nextLine_none firstToken_total getTrailingComment_block getTrailingComment_eol "
      "getTrailingComment_none getTrailingComment_dollar_refuted readAll_midline_refuted readAll_nested_refuted readAll_between_refuted "
      "readAll_after_refuted readAll_slash_refuted readAll_close_refuted readAll_join_refuted readAll_macro_comment_refuted"),
      "headers laid out line by line: comments on lines of their own, conditionals that are not nested; refuted for the rest")
claim("C77", "partial", q(E, "translate_items_partial translate_header_partial pyInt_decimal translate_two_refuted translate_oneline_refuted "
      "translate_define_refuted translate_brace_refuted translate_comma_refuted"),
      "one enumerator on each line; Python's eval is an argument; refuted for several enumerators on a line and other layouts")

claim("C78", "partial", q(I, "layout_lookup_partial layout_missing_refuted"),
      "refuted where the file stores no trie for a property")
claim("C79", "proved", q(I, "createFromFileData_exact createFromFileData_nfc"))
claim("C80", "partial", q("Verif.Hex.", "listOfCodes_format listOfCodes_reads_back str_reads_back_partial str_injective str_negative_refuted padded"),
      "refuted for sets with negative boundaries, whose text has the sign after the prefix")
claim("C81", "proved", q(X, "populateData_exact getCharName_file getCharName_file_fields"))

claim("C82", "partial", q(U, "pinned_ranges_partial pinned_ranges_refuted"),
      "empty ranges and ranges outside the code space change nothing; refuted for the rest")
claim("C83", "partial", q(U, "laws_members laws_eq_partial laws_refuted"), "refuted for == and |: a | b == b | a can be False")
M = "Verif.ModuleText.Props."
claim("C84", "partial", q(M, "array_partial array_missing array_refuted"), "definitions in the layout of ICU, the name not occurring before; refuted for the rest")
claim("C85", "proved", q(M, "trie_values trie_values_inner"), "definitions in the layout of ICU")
claim("C86", "partial", q(M, "scalar_partial scalar_refuted"), "refuted where a semicolon follows on the line")
claim("C87", "proved", q(M, "bidiModule_text charModule_text caseModule_text icuVersions_exact"), "files are texts; the date is an argument")
L = "Verif.Tables.Props."
claim("C88", "partial", q(L, "tables_agree_partial tables_agree_refuted"), "refuted for five block names and one word break name")
claim("C89", "partial", q(L, "constants_partial constants_refuted"), "refuted for seven aliases, which are tuples")

claim("C90", "partial", q(U, "newArg_partial containsArg_partial complementArg_partial complementArg_none_int other_types_raise args_refuted"),
      "ranges with step 1; refuted for other steps and for ranges whose start is behind their stop")
claim("C91", "partial", q(U, "eqArg_partial eqArg_refuted"), "comparison with sets; refuted for other objects")

claim("C92", "proved", q(N, "nfc_hangul_classes nfc_inert"))
claim("C93", "proved", q(N, "nfc_lengths"))
claim("C94", "proved", q("Verif.Keys.Props.", "tables_fit"))

claim("C95", "proved", q(H, "binary_sets emoji_sets pictograph_sets"))
claim("C96", "proved", q(H, "category_sets"))
claim("C97", "partial", q(H, "bidi_sets_partial bidi_sets_refuted bidi_flags"), "refuted for U+10FFFF, which has class L instead of BN")
claim("C98", "partial", q(H, "block_ranges_partial block_rows_refuted"), "refuted for U+10FFFF, which is in no block")
claim("C99", "proved", q(H, "break_sets hangul_breaks"))
claim("C100", "proved", q(H, "width_sets"))
claim("C101", "proved", q("Verif.Case.Props.", "simple_maps full_maps"))
claim("C102", "proved", q(H, "category_map"))
claim("C103", "proved", q(H, "break_maps"))
claim("C104", "proved", q(H, "script_map"))
claim("C105", "proved", q(H, "width_maps"))
claim("C106", "partial", q(H, "age_map_partial age_map_refuted"), "refuted for U+10FFFF, which has no age instead of 2.0")
claim("C107", "proved", q(H, "numeric_map"))
claim("C108", "partial", q("Verif.Bidi.Props.", "class_map_partial class_map_refuted"), "refuted for U+10FFFF, which has class L instead of BN")
claim("C109", "proved", q("Verif.Bidi.Props.", "joining_maps"))
claim("C110", "proved", q(H, "derived_sets derived_calls"))
claim("C111", "partial", q(H, "noncharacters_partial noncharacters_refuted noncharacters_rule"), "refuted for U+10FFFF, which is not a noncharacter for the library")

claim("C112", "proved", q(N, "raw_map full_map"))
claim("C113", "proved", q(N, "class_maps"))
claim("C114", "proved", q("Verif.Bidi.Props.", "mirrored_set mirror_map bracket_map"))

D = "Verif.Build.Props."
claim("C115", "partial", q(D, "build_result build_files buildMain_refused buildMain_runs build_beside_refuted"),
      "refuted for the output directory above the ICU sources: the licence would be copied to itself")
claim("C116", "proved", q(D, "build_interrupted"))
claim("C117", "partial", q(D, "headerModule_text_partial") + " " + q("Verif.Header.Props.", "guardMatch_iff"), "headers of the layout of C77; ASCII")
claim("C118", "proved", q(D, "install_result install_files build_install"), "directories and links are not modelled")
claim("C119", "proved", q(D, "install_interrupted"))

claim("C120", "proved", q(H, "numeric_float"), "rounding is an argument; Python's division and product are correctly rounded")
claim("C121", "partial", q("Verif.UTrie2.Props.", "getInt_partial getInt_negative negative_form") + " " + q("Verif.CPTrie.Props.", "getInt_partial") + " " +
      q(H, "notCodePoint_refuted notCodePoint_raises"), "refuted for negative integers: -1 is punctuation with the numeric value 0, smaller ones raise IndexError")

claim("C122", "partial", q(U, "iteration_partial iteration_members iteration_ends iteration_refuted"),
      "the set itself must not change between the first and the last next; refuted otherwise: a member twice, another never, IndexError after clear")

claim("C123", "partial", q("Verif.Csv.Props.", "rows_partial rows_quoted rows_open rows_refuted rows_total"),
      "refuted for fields that begin with a quotation mark, which swallow the lines that follow; CPython's state machine is modelled from _csv.c")

claim("C124", "proved", q(H, "class_predicates category_exists"),
      "the categories are those of the independent list of ranges in Spec/CategoryMap")

claim("C125", "partial", q("Verif.ICUData.Props.", "threads_safe threads_quiet_partial threads_loaded_partial threads_return threads_refuted thread_alone"),
      "refuted: a construction returns while another thread is still reading the table of contents, and lookups raise KeyError; proved: no construction fails or hangs, no lookup gives a wrong offset, and lookups are exact when no construction is under way or one thread has gone through the table")


claim("C126", "partial", q("Verif.UCDReader.Props.", "module_partial module_of_file module_refuted") + " " + q(D, "build_dictionaries"),
      "the constants must be made of the characters of names and the short names free of quotation marks, backslashes and ends of lines; refuted otherwise: one line can make two entries")

claim("C127", "proved", q("Verif.Case.Props.", "upper_text lower_text title_text title_not_stable"),
      "texts are lists of code points; the mappings are those of C101")

claim("C128", "proved", q("Verif.Uchar.Props.", "category_masks"))

claim("C129", "partial", q("Verif.ValueNames.Props.", "constants_mean direction_constants_partial block_constants_partial"),
      "bidi class and block of U+10FFFF are wrong (class_map_refuted, block_rows_refuted)")


claim("C130", "partial", q("Verif.CHeader.Props.", "header_constants_partial pyEval_decimal header_parentheses_refuted header_order_refuted header_numbers_refuted header_scope_refuted"),
      "the header is laid out line by line as for C117, its macros are parenthesised and defined before they are used, enumerators refer to their own enumeration; each of these is necessary (refuted otherwise)")

claim("C131", "proved", q("Verif.HeaderText.Props.", "shipped_dictionaries shipped_masks shipped_numbers shipped_ucase"),
      "the texts of the files are executed by the model of Python (Model/PyExpr); the tables of the model are what comes out")

claim("C132", "partial", q("Verif.ModuleValues.", "bidi_values_partial case_values_partial char_values_partial octal_refuted"),
      "numbers must be decimal or hexadecimal without suffixes: texts are copied, so the import of octal numbers and suffixes fails (octal_refuted); layout as in C87")

claim("C133", "proved", q("Verif.DataText.Props.", "bidi_import case_import char_import nfc_import values_get shipped_tries nfc_lengths"),
      "the texts of the files are executed by the model of Python (Model/PyLists); the tables of Data are what comes out")

claim("C134", "proved", q("Verif.PyRun.CharProps.", "all_functions text_functions text_numbers text_standard"),
      "the texts of the files are parsed and executed by a model of Python (Model/PySyntax, Model/PyRun, Model/Library); the functions of Model/CharProps are what comes out")

claim("C135", "proved", q("Verif.PyRun.", "Utilities.text_utilities Utilities.text_standard BidiProps.text_functions BidiProps.text_standard"),
      "as C134; listOfCodes uses a comprehension, which Model/PyRun does not execute")
claim("C136", "proved", q("Verif.PyRun.CaseProps.", "text_functions text_standard"),
      "as C134")

claim("C137", "proved", q("Verif.PyRun.Norm.", "text_methods text_standard"),
      "as C134; createFromFileData and createFromData, which read bytes, are not executed: the values of nfkcTrie and nfkc_cfTrie are any values")

claim("C138", "proved", q("Verif.PyHeap.", "text_methods text_programs text_queries text_operators text_history text_members text_no_aliasing"),
      "as C134, with a heap of lists and objects; dump, which prints, is not executed; an iterator is run to its end when it is made (C122 models suspended iterators)")

claim("C139", "proved", q("Verif.PyRun.Names.", "text_methods text_expandString text_iterators text_names text_file"),
      "as C134; what populateData reads from the file by means of struct is a parameter (C81 models it), generators are executed to their ends, so charFromName is only related where the iteration raises nothing")

claim("C140", "proved", q("Verif.PyRun.Norm.", "text_enumerator text_window text_endless"),
      "as C134; the generator is executed to its end; that it never ends is stated as: with no amount of fuel does the interpreter return or raise")

claim("C141", "proved", q("Verif.Normalizer2.Props.", "decomposed_text decomposed_equal") + " " + q("Verif.PyRun.Norm.", "text_texts"),
      "combining marks are not reordered, since the library has no function for it")
claim("C142", "proved", q("Verif.CaseDecomp.Props.", "upper_linked lower_linked case_decomposed title_linked_refuted"),
      "for upper and lower case; that title case has no such property is title_linked_refuted")

here = os.path.dirname(os.path.abspath(__file__))
with open(os.path.join(here, "..", "MANIFEST.json"), "w") as f:
    json.dump({"claims": [C[k] for k in sorted(C, key=lambda k: int(k[1:]))]}, f, indent=1)
    f.write("\n")
