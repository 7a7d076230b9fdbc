# Axioms of the claimed theorems

Written by `tools/axioms.py` from `#print axioms`.

## Classical.choice, Quot.sound, propext (377)

* `Verif.Bidi.Props.bracket_map`
* `Verif.Bidi.Props.class_map_partial`
* `Verif.Bidi.Props.direction_total_named`
* `Verif.Bidi.Props.joiningType_total_named`
* `Verif.Bidi.Props.joining_maps`
* `Verif.Bidi.Props.mirror_delta`
* `Verif.Bidi.Props.mirror_involution`
* `Verif.Bidi.Props.mirror_is_mirrored`
* `Verif.Bidi.Props.mirror_map`
* `Verif.Bidi.Props.mirrored_set`
* `Verif.Bidi.Props.pairedBracket_involution`
* `Verif.Bidi.Props.pairedBracket_types`
* `Verif.Build.Props.buildMain_refused`
* `Verif.Build.Props.buildMain_runs`
* `Verif.Build.Props.build_beside_refuted`
* `Verif.Build.Props.build_dictionaries`
* `Verif.Build.Props.build_files`
* `Verif.Build.Props.build_install`
* `Verif.Build.Props.build_interrupted`
* `Verif.Build.Props.build_result`
* `Verif.Build.Props.headerModule_text_partial`
* `Verif.Build.Props.install_files`
* `Verif.Build.Props.install_interrupted`
* `Verif.Build.Props.install_result`
* `Verif.BuilderArgs.Props.forArguments_error`
* `Verif.BuilderArgs.Props.forArguments_ok`
* `Verif.BuilderArgs.Props.forArguments_perm`
* `Verif.CHeader.Props.header_constants_partial`
* `Verif.CHeader.Props.header_numbers_refuted`
* `Verif.CHeader.Props.header_order_refuted`
* `Verif.CHeader.Props.header_parentheses_refuted`
* `Verif.CHeader.Props.header_scope_refuted`
* `Verif.CHeader.Props.pyEval_decimal`
* `Verif.CPTrie.Props.createFromData_roundtrip`
* `Verif.CPTrie.Props.enumerator_agrees_partial`
* `Verif.CPTrie.Props.enumerator_high_refuted`
* `Verif.CPTrie.Props.enumerator_terminates_refuted`
* `Verif.CPTrie.Props.enumerator_values_refuted`
* `Verif.CPTrie.Props.fast_enumerator_refuted`
* `Verif.CPTrie.Props.getInt_partial`
* `Verif.CPTrie.Props.get_build`
* `Verif.CPTrie.Props.get_correct`
* `Verif.CPTrie.Props.nfc_enumerator_partial`
* `Verif.CPTrie.Props.nfc_represents`
* `Verif.CPTrie.Props.small_enumerator_refuted`
* `Verif.Case.Props.category_fixed`
* `Verif.Case.Props.full_maps`
* `Verif.Case.Props.full_total`
* `Verif.Case.Props.hasSlot_iff`
* `Verif.Case.Props.lower_text`
* `Verif.Case.Props.lower_upper`
* `Verif.Case.Props.moved_category`
* `Verif.Case.Props.simple_idempotent`
* `Verif.Case.Props.simple_maps`
* `Verif.Case.Props.simple_total`
* `Verif.Case.Props.slotOffset_counts`
* `Verif.Case.Props.slot_value_correct`
* `Verif.Case.Props.title_text`
* `Verif.Case.Props.upper_lower`
* `Verif.Case.Props.upper_text`
* `Verif.Case.Props.upper_title`
* `Verif.CaseDecomp.Props.case_decomposed`
* `Verif.CaseDecomp.Props.lower_linked`
* `Verif.CaseDecomp.Props.title_linked_refuted`
* `Verif.CaseDecomp.Props.upper_linked`
* `Verif.Char.Props.age_map_partial`
* `Verif.Char.Props.age_total`
* `Verif.Char.Props.age_unassigned`
* `Verif.Char.Props.bidiClass_category`
* `Verif.Char.Props.bidi_flags`
* `Verif.Char.Props.bidi_sets_partial`
* `Verif.Char.Props.bidi_sets_refuted`
* `Verif.Char.Props.binaryProp_bit`
* `Verif.Char.Props.binary_sets`
* `Verif.Char.Props.block_contiguous`
* `Verif.Char.Props.block_named`
* `Verif.Char.Props.block_ranges_partial`
* `Verif.Char.Props.block_rows_partial`
* `Verif.Char.Props.brackets_category`
* `Verif.Char.Props.break_maps`
* `Verif.Char.Props.break_sets`
* `Verif.Char.Props.category_exists`
* `Verif.Char.Props.category_implies_property`
* `Verif.Char.Props.category_map`
* `Verif.Char.Props.category_sets`
* `Verif.Char.Props.class_predicates`
* `Verif.Char.Props.columns_partial`
* `Verif.Char.Props.decompType_named`
* `Verif.Char.Props.derived_calls`
* `Verif.Char.Props.derived_sets`
* `Verif.Char.Props.digitValue_spec`
* `Verif.Char.Props.digits_in_tens`
* `Verif.Char.Props.eastAsianWidth_named`
* `Verif.Char.Props.emoji_containments`
* `Verif.Char.Props.emoji_sets`
* `Verif.Char.Props.generalCategory_named`
* `Verif.Char.Props.graph_print_partial`
* `Verif.Char.Props.graphemeClusterBreak_named`
* `Verif.Char.Props.grapheme_base_or_extend`
* `Verif.Char.Props.hangul_breaks`
* `Verif.Char.Props.idIgnorable_partial`
* `Verif.Char.Props.isBlank_iff`
* `Verif.Char.Props.isDefined_iff`
* `Verif.Char.Props.isDigit_digitValue`
* `Verif.Char.Props.isDigit_iff`
* `Verif.Char.Props.isGraphPOSIX_iff`
* `Verif.Char.Props.isHexDigit_iff`
* `Verif.Char.Props.isIDPart_iff`
* `Verif.Char.Props.isIDStart_iff`
* `Verif.Char.Props.isISOControl_iff`
* `Verif.Char.Props.isJavaIDPart_iff`
* `Verif.Char.Props.isJavaIDStart_iff`
* `Verif.Char.Props.isJavaSpaceChar_iff`
* `Verif.Char.Props.isLower_iff`
* `Verif.Char.Props.isPrintPOSIX_iff`
* `Verif.Char.Props.isPrint_iff`
* `Verif.Char.Props.isTitle_iff`
* `Verif.Char.Props.isUpper_iff`
* `Verif.Char.Props.isWhiteSpace_iff`
* `Verif.Char.Props.isalnumPOSIX_iff`
* `Verif.Char.Props.isalnum_iff`
* `Verif.Char.Props.isalpha_iff`
* `Verif.Char.Props.isbase_iff`
* `Verif.Char.Props.iscntrl_iff`
* `Verif.Char.Props.isgraph_iff`
* `Verif.Char.Props.ispunct_iff`
* `Verif.Char.Props.isspace_iff`
* `Verif.Char.Props.lineBreak_named`
* `Verif.Char.Props.noncharacter_partial`
* `Verif.Char.Props.noncharacter_refuted`
* `Verif.Char.Props.noncharacters_partial`
* `Verif.Char.Props.noncharacters_rule`
* `Verif.Char.Props.notCodePoint_refuted`
* `Verif.Char.Props.numbers_have_values`
* `Verif.Char.Props.numericType_partial`
* `Verif.Char.Props.numericType_refuted`
* `Verif.Char.Props.numericValue_total`
* `Verif.Char.Props.numeric_decoding`
* `Verif.Char.Props.numeric_encodings`
* `Verif.Char.Props.numeric_float`
* `Verif.Char.Props.numeric_map`
* `Verif.Char.Props.pictograph_sets`
* `Verif.Char.Props.predicate_relations`
* `Verif.Char.Props.property_containments`
* `Verif.Char.Props.script_map`
* `Verif.Char.Props.script_named`
* `Verif.Char.Props.script_unknown`
* `Verif.Char.Props.sentenceBreak_named`
* `Verif.Char.Props.whiteSpace_category`
* `Verif.Char.Props.whiteSpace_isspace`
* `Verif.Char.Props.width_maps`
* `Verif.Char.Props.width_sets`
* `Verif.Char.Props.wordBreak_named`
* `Verif.CharNames.Props.charCat_spec`
* `Verif.CharNames.Props.charFromName_first_partial`
* `Verif.CharNames.Props.charFromName_inverts_partial`
* `Verif.CharNames.Props.expandString_extended`
* `Verif.CharNames.Props.expandString_total_refuted`
* `Verif.CharNames.Props.extendedName_injective`
* `Verif.CharNames.Props.extendedName_label`
* `Verif.CharNames.Props.extendedName_total`
* `Verif.CharNames.Props.factorNames_exact`
* `Verif.CharNames.Props.factorNames_injective`
* `Verif.CharNames.Props.getCharName_file`
* `Verif.CharNames.Props.getCharName_file_fields`
* `Verif.CharNames.Props.getGroup_exact`
* `Verif.CharNames.Props.hangulNames_injective`
* `Verif.CharNames.Props.nameIterator_complete_partial`
* `Verif.CharNames.Props.nameIterator_extended_refuted`
* `Verif.CharNames.Props.nameIterator_skips_refuted`
* `Verif.CharNames.Props.populateData_exact`
* `Verif.CharNames.Props.readGroup_strings`
* `Verif.Csv.Props.rows_open`
* `Verif.Csv.Props.rows_partial`
* `Verif.Csv.Props.rows_quoted`
* `Verif.Csv.Props.rows_refuted`
* `Verif.Csv.Props.rows_total`
* `Verif.DataText.Props.bidi_import`
* `Verif.DataText.Props.case_import`
* `Verif.DataText.Props.char_import`
* `Verif.DataText.Props.nfc_import`
* `Verif.DataText.Props.shipped_tries`
* `Verif.Header.Props.firstToken_total`
* `Verif.Header.Props.getTrailingComment_block`
* `Verif.Header.Props.getTrailingComment_dollar_refuted`
* `Verif.Header.Props.getTrailingComment_eol`
* `Verif.Header.Props.getTrailingComment_none`
* `Verif.Header.Props.guardMatch_iff`
* `Verif.Header.Props.nextLine_none`
* `Verif.Header.Props.nextLine_some`
* `Verif.Header.Props.pyInt_decimal`
* `Verif.Header.Props.readAll_after_refuted`
* `Verif.Header.Props.readAll_between_refuted`
* `Verif.Header.Props.readAll_close_refuted`
* `Verif.Header.Props.readAll_join_refuted`
* `Verif.Header.Props.readAll_macro_comment_refuted`
* `Verif.Header.Props.readAll_midline_refuted`
* `Verif.Header.Props.readAll_nested_refuted`
* `Verif.Header.Props.readAll_reads_partial`
* `Verif.Header.Props.readAll_slash_refuted`
* `Verif.Header.Props.translate_brace_refuted`
* `Verif.Header.Props.translate_comma_refuted`
* `Verif.Header.Props.translate_define_refuted`
* `Verif.Header.Props.translate_header_partial`
* `Verif.Header.Props.translate_items_partial`
* `Verif.Header.Props.translate_oneline_refuted`
* `Verif.Header.Props.translate_two_refuted`
* `Verif.HeaderText.Props.shipped_dictionaries`
* `Verif.HeaderText.Props.shipped_masks`
* `Verif.HeaderText.Props.shipped_numbers`
* `Verif.HeaderText.Props.shipped_ucase`
* `Verif.Hex.listOfCodes_format`
* `Verif.Hex.listOfCodes_reads_back`
* `Verif.Hex.padded`
* `Verif.Hex.str_injective`
* `Verif.Hex.str_negative_refuted`
* `Verif.Hex.str_reads_back_partial`
* `Verif.ICUData.Props.createFromFileData_exact`
* `Verif.ICUData.Props.createFromFileData_nfc`
* `Verif.ICUData.Props.dataHeader_exact`
* `Verif.ICUData.Props.getName_text`
* `Verif.ICUData.Props.layout_lookup_partial`
* `Verif.ICUData.Props.layout_missing_refuted`
* `Verif.ICUData.Props.lookup_distinct`
* `Verif.ICUData.Props.lookup_exact`
* `Verif.ICUData.Props.threads_loaded_partial`
* `Verif.ICUData.Props.threads_quiet_partial`
* `Verif.ICUData.Props.threads_return`
* `Verif.ICUData.Props.threads_safe`
* `Verif.Keys.Props.tables_fit`
* `Verif.ModuleText.Props.array_missing`
* `Verif.ModuleText.Props.array_partial`
* `Verif.ModuleText.Props.array_refuted`
* `Verif.ModuleText.Props.bidiModule_text`
* `Verif.ModuleText.Props.caseModule_text`
* `Verif.ModuleText.Props.charModule_text`
* `Verif.ModuleText.Props.icuVersions_exact`
* `Verif.ModuleText.Props.scalar_partial`
* `Verif.ModuleText.Props.scalar_refuted`
* `Verif.ModuleText.Props.trie_values`
* `Verif.ModuleText.Props.trie_values_inner`
* `Verif.ModuleValues.bidi_values_partial`
* `Verif.ModuleValues.case_values_partial`
* `Verif.ModuleValues.char_values_partial`
* `Verif.ModuleValues.octal_refuted`
* `Verif.Normalizer2.Props.class_maps`
* `Verif.Normalizer2.Props.decomposed_equal`
* `Verif.Normalizer2.Props.decomposed_text`
* `Verif.Normalizer2.Props.full_map`
* `Verif.Normalizer2.Props.hangul_injective`
* `Verif.Normalizer2.Props.hangul_raw_full`
* `Verif.Normalizer2.Props.hangul_syllables`
* `Verif.Normalizer2.Props.nfcRaw_eq`
* `Verif.Normalizer2.Props.nfc_decomposition_final`
* `Verif.Normalizer2.Props.nfc_expansion`
* `Verif.Normalizer2.Props.nfc_hangul`
* `Verif.Normalizer2.Props.nfc_hangul_classes`
* `Verif.Normalizer2.Props.nfc_lengths`
* `Verif.Normalizer2.Props.nfc_total`
* `Verif.Normalizer2.Props.raw_map`
* `Verif.Normalizer2.Props.stringFromData_lone_lead`
* `Verif.Normalizer2.Props.stringFromData_utf16`
* `Verif.PyHeap.text_history`
* `Verif.PyHeap.text_members`
* `Verif.PyHeap.text_methods`
* `Verif.PyHeap.text_no_aliasing`
* `Verif.PyHeap.text_operators`
* `Verif.PyHeap.text_programs`
* `Verif.PyHeap.text_queries`
* `Verif.PyRun.BidiProps.text_functions`
* `Verif.PyRun.BidiProps.text_standard`
* `Verif.PyRun.CaseProps.text_functions`
* `Verif.PyRun.CaseProps.text_standard`
* `Verif.PyRun.CharProps.all_functions`
* `Verif.PyRun.CharProps.text_functions`
* `Verif.PyRun.CharProps.text_numbers`
* `Verif.PyRun.CharProps.text_standard`
* `Verif.PyRun.Names.text_expandString`
* `Verif.PyRun.Names.text_file`
* `Verif.PyRun.Names.text_iterators`
* `Verif.PyRun.Names.text_methods`
* `Verif.PyRun.Names.text_names`
* `Verif.PyRun.Norm.text_endless`
* `Verif.PyRun.Norm.text_enumerator`
* `Verif.PyRun.Norm.text_methods`
* `Verif.PyRun.Norm.text_standard`
* `Verif.PyRun.Norm.text_texts`
* `Verif.PyRun.Norm.text_window`
* `Verif.PyRun.Utilities.text_standard`
* `Verif.PyRun.Utilities.text_utilities`
* `Verif.Tables.Props.tables_agree_partial`
* `Verif.UCD.Props.bidiProperties_attributes`
* `Verif.UCD.Props.binaryProperties_attributes`
* `Verif.UCD.Props.binaryProperties_fields`
* `Verif.UCD.Props.caseProperties_attributes`
* `Verif.UCD.Props.characterData_attributes`
* `Verif.UCD.Props.characterData_total`
* `Verif.UCD.Props.decompProperties_attributes`
* `Verif.UCD.Props.dmToString_spec`
* `Verif.UCD.Props.getBooleanProperty_iff`
* `Verif.UCD.Props.getCharProperty_value`
* `Verif.UCD.Props.getCodePointsProperty_maps`
* `Verif.UCD.Props.indicProperties_attributes`
* `Verif.UCD.Props.missing_bracket_rejected`
* `Verif.UCD.Props.name_pound`
* `Verif.UCD.Props.simpleTitleCase_partial`
* `Verif.UCD.Props.simpleTitleCase_refuted`
* `Verif.UCDReader.Props.fileText_ok`
* `Verif.UCDReader.Props.generateDictionaries_error`
* `Verif.UCDReader.Props.generateDictionaries_ok`
* `Verif.UCDReader.Props.module_of_file`
* `Verif.UCDReader.Props.module_partial`
* `Verif.UCDReader.Props.module_refuted`
* `Verif.USet.Props.addRange_pointwise`
* `Verif.USet.Props.add_pointwise`
* `Verif.USet.Props.args_refuted`
* `Verif.USet.Props.canonical_history_partial`
* `Verif.USet.Props.charAt_indexOf_inverse`
* `Verif.USet.Props.charAt_member`
* `Verif.USet.Props.complementArg_none_int`
* `Verif.USet.Props.complementArg_partial`
* `Verif.USet.Props.complement_pointwise`
* `Verif.USet.Props.containsArg_partial`
* `Verif.USet.Props.containsRange_iff_partial`
* `Verif.USet.Props.containsRange_members`
* `Verif.USet.Props.difference_pointwise`
* `Verif.USet.Props.eq_extensional_partial`
* `Verif.USet.Props.eq_extensional_refuted`
* `Verif.USet.Props.getRanges_expand`
* `Verif.USet.Props.history_exact`
* `Verif.USet.Props.history_refines_partial`
* `Verif.USet.Props.history_terminates`
* `Verif.USet.Props.indexOf_member`
* `Verif.USet.Props.indexOf_none_iff`
* `Verif.USet.Props.intersection_pointwise`
* `Verif.USet.Props.iter_yields_members`
* `Verif.USet.Props.iteration_ends`
* `Verif.USet.Props.iteration_members`
* `Verif.USet.Props.iteration_partial`
* `Verif.USet.Props.laws_eq_partial`
* `Verif.USet.Props.laws_members`
* `Verif.USet.Props.mutators_return_receiver_partial`
* `Verif.USet.Props.newArg_partial`
* `Verif.USet.Props.no_aliasing`
* `Verif.USet.Props.outside_values_partial`
* `Verif.USet.Props.pinned_ranges_partial`
* `Verif.USet.Props.queries_terminate`
* `Verif.USet.Props.range_calls_partial`
* `Verif.USet.Props.reachable_wellFormed`
* `Verif.USet.Props.size_counts_members`
* `Verif.USet.Props.symmetricDifference_pointwise`
* `Verif.USet.Props.union_pointwise`
* `Verif.UTrie2.Props.enumerator_agrees_partial`
* `Verif.UTrie2.Props.enumerator_high`
* `Verif.UTrie2.Props.enumerator_terminates`
* `Verif.UTrie2.Props.enumerator_tiles_default`
* `Verif.UTrie2.Props.enumerator_tiles_partial`
* `Verif.UTrie2.Props.getInt_partial`
* `Verif.UTrie2.Props.get_build`
* `Verif.UTrie2.Props.get_correct_partial`
* `Verif.UTrie2.Props.get_correct_refuted`
* `Verif.UTrie2.Props.leads_represents`
* `Verif.UTrie2.Props.overshoot_represents`
* `Verif.UTrie2.Props.shipped_enumerator_total`
* `Verif.UTrie2.Props.shipped_get_total`
* `Verif.Uchar.Props.category_masks`
* `Verif.Utilities.Props.arithmeticShift_range`
* `Verif.Utilities.Props.arithmeticShift_signed`
* `Verif.Utilities.Props.noncharacter_count`
* `Verif.Utilities.Props.noncharacter_iff`
* `Verif.Utilities.Props.surrogate_predicates`
* `Verif.Utilities.Props.surrogate_predicates_32`
* `Verif.Utilities.Props.surrogate_roundtrip`
* `Verif.Utilities.Props.surrogate_roundtrip_pair`
* `Verif.ValueNames.Props.block_constants_partial`
* `Verif.ValueNames.Props.constants_mean`
* `Verif.ValueNames.Props.direction_constants_partial`

## Quot.sound, propext (33)

* `Verif.Bidi.Props.class_map_refuted`
* `Verif.Bidi.Props.joiningGroup_total_named`
* `Verif.CPTrie.Props.createFromData_short`
* `Verif.CPTrie.Props.enumerator_nonull_refuted`
* `Verif.CPTrie.Props.enumerator_tiles_refuted`
* `Verif.Char.Props.noncharacters_refuted`
* `Verif.Char.Props.notCodePoint_raises`
* `Verif.Char.Props.whiteSpace_isspace_differ`
* `Verif.CharNames.Props.expandGroupLengths_decodes`
* `Verif.CharNames.Props.expandName_field`
* `Verif.CharNames.Props.expandString_iff`
* `Verif.CharNames.Props.expandString_total_partial`
* `Verif.CharNames.Props.getGroup_no_groups`
* `Verif.CharNames.Props.hexNames_injective`
* `Verif.ICUData.Props.construct_idempotent`
* `Verif.ICUData.Props.construct_loaded`
* `Verif.ICUData.Props.empty_file`
* `Verif.ICUData.Props.failed_load_is_kept`
* `Verif.ICUData.Props.getName_noSlash`
* `Verif.ICUData.Props.thread_alone`
* `Verif.ICUData.Props.threads_refuted`
* `Verif.Normalizer2.Props.hangul_standard`
* `Verif.Normalizer2.Props.nfc_inert`
* `Verif.Tables.Props.constants_partial`
* `Verif.Tables.Props.constants_refuted`
* `Verif.USet.Props.complement_involutive_partial`
* `Verif.USet.Props.containsRange_iff_refuted`
* `Verif.USet.Props.getRanges_maximal`
* `Verif.UTrie2.Props.bidi_last_value`
* `Verif.UTrie2.Props.getInt_negative`
* `Verif.UTrie2.Props.get_last`
* `Verif.UTrie2.Props.negative_form`
* `Verif.Utilities.Props.highBit_log2`

## no axioms (4)

* `Verif.Char.Props.columns_refuted`
* `Verif.Tables.Props.tables_agree_refuted`
* `Verif.Utilities.Props.highBit_bound_sharp`
* `Verif.Utilities.Props.highBit_zero`

## propext (31)

* `Verif.Bidi.Props.mirror_table`
* `Verif.Case.Props.title_not_stable`
* `Verif.Char.Props.age_map_refuted`
* `Verif.Char.Props.block_rows_refuted`
* `Verif.Char.Props.graph_print_refuted`
* `Verif.Char.Props.idIgnorable_refuted`
* `Verif.Char.Props.script_invalid`
* `Verif.CharNames.Props.nameIterator_no_ranges`
* `Verif.DataText.Props.nfc_lengths`
* `Verif.DataText.Props.values_get`
* `Verif.ICUData.Props.getString_text`
* `Verif.USet.Props.canonical_history_refuted`
* `Verif.USet.Props.complement_involutive_refuted`
* `Verif.USet.Props.eqArg_partial`
* `Verif.USet.Props.eqArg_refuted`
* `Verif.USet.Props.eq_same_members`
* `Verif.USet.Props.history_refines_refuted`
* `Verif.USet.Props.iteration_refuted`
* `Verif.USet.Props.laws_refuted`
* `Verif.USet.Props.mutators_return_receiver_refuted`
* `Verif.USet.Props.other_types_raise`
* `Verif.USet.Props.outside_values_refuted`
* `Verif.USet.Props.pinned_ranges_refuted`
* `Verif.USet.Props.range_calls_refuted`
* `Verif.USet.Props.single_calls_are_noops`
* `Verif.USet.Props.single_calls_partial`
* `Verif.USet.Props.single_calls_refuted`
* `Verif.UTrie2.Props.enumerator_agrees_refuted`
* `Verif.UTrie2.Props.enumerator_leads_refuted`
* `Verif.UTrie2.Props.enumerator_tiles_refuted`
* `Verif.UTrie2.Props.enumerator_unaligned_refuted`
