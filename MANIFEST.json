{
 "claims": [
  {
   "property": "C01",
   "status": "proved",
   "theorems": [
    "Verif.USet.Props.union_pointwise"
   ],
   "note": ""
  },
  {
   "property": "C02",
   "status": "proved",
   "theorems": [
    "Verif.USet.Props.intersection_pointwise"
   ],
   "note": ""
  },
  {
   "property": "C03",
   "status": "proved",
   "theorems": [
    "Verif.USet.Props.difference_pointwise"
   ],
   "note": ""
  },
  {
   "property": "C04",
   "status": "proved",
   "theorems": [
    "Verif.USet.Props.symmetricDifference_pointwise"
   ],
   "note": ""
  },
  {
   "property": "C05",
   "status": "partial",
   "theorems": [
    "Verif.USet.Props.complement_pointwise",
    "Verif.USet.Props.complement_involutive_partial",
    "Verif.USet.Props.complement_involutive_refuted"
   ],
   "note": "pointwise part proved for all sets; state involution for canonical sets, refuted for UnicodeSet(range(0,0))"
  },
  {
   "property": "C06",
   "status": "partial",
   "theorems": [
    "Verif.USet.Props.history_refines_partial",
    "Verif.USet.Props.history_exact",
    "Verif.USet.Props.history_refines_refuted"
   ],
   "note": "all calls except the single-code-point forms of remove/retain/complement, which are no-ops in the code"
  },
  {
   "property": "C07",
   "status": "proved",
   "theorems": [
    "Verif.USet.Props.add_pointwise",
    "Verif.USet.Props.addRange_pointwise"
   ],
   "note": ""
  },
  {
   "property": "C08",
   "status": "partial",
   "theorems": [
    "Verif.USet.Props.single_calls_are_noops",
    "Verif.USet.Props.single_calls_refuted",
    "Verif.USet.Props.single_calls_partial"
   ],
   "note": "violated by the code: the three calls never change the set"
  },
  {
   "property": "C09",
   "status": "partial",
   "theorems": [
    "Verif.USet.Props.range_calls_partial",
    "Verif.USet.Props.range_calls_refuted"
   ],
   "note": "s < e proved; s = e is a no-op in the code"
  },
  {
   "property": "C10",
   "status": "partial",
   "theorems": [
    "Verif.USet.Props.eq_same_members",
    "Verif.USet.Props.eq_extensional_partial",
    "Verif.USet.Props.eq_extensional_refuted"
   ],
   "note": "canonical sets; refuted for reachable non-canonical sets"
  },
  {
   "property": "C11",
   "status": "partial",
   "theorems": [
    "Verif.USet.Props.canonical_history_partial",
    "Verif.USet.Props.canonical_history_refuted",
    "Verif.USet.Props.getRanges_maximal",
    "Verif.USet.Props.reachable_wellFormed"
   ],
   "note": "all calls except addAll/union and degenerate constructor arguments; refuted for those"
  },
  {
   "property": "C12",
   "status": "proved",
   "theorems": [
    "Verif.USet.Props.size_counts_members"
   ],
   "note": ""
  },
  {
   "property": "C13",
   "status": "proved",
   "theorems": [
    "Verif.USet.Props.iter_yields_members",
    "Verif.USet.Props.getRanges_expand"
   ],
   "note": ""
  },
  {
   "property": "C14",
   "status": "proved",
   "theorems": [
    "Verif.USet.Props.charAt_member",
    "Verif.USet.Props.indexOf_member",
    "Verif.USet.Props.charAt_indexOf_inverse",
    "Verif.USet.Props.indexOf_none_iff"
   ],
   "note": ""
  },
  {
   "property": "C15",
   "status": "partial",
   "theorems": [
    "Verif.USet.Props.containsRange_members",
    "Verif.USet.Props.containsRange_iff_partial",
    "Verif.USet.Props.containsRange_iff_refuted"
   ],
   "note": "True implies all members, always; the converse for canonical sets, refuted otherwise"
  },
  {
   "property": "C16",
   "status": "proved",
   "theorems": [
    "Verif.USet.Props.no_aliasing"
   ],
   "note": ""
  },
  {
   "property": "C17",
   "status": "proved",
   "theorems": [
    "Verif.USet.Props.history_terminates",
    "Verif.USet.Props.queries_terminate",
    "Verif.USet.Props.reachable_wellFormed"
   ],
   "note": ""
  },
  {
   "property": "C18",
   "status": "partial",
   "theorems": [
    "Verif.USet.Props.mutators_return_receiver_partial",
    "Verif.USet.Props.mutators_return_receiver_refuted"
   ],
   "note": "addRange returns None on its fast path"
  },
  {
   "property": "C19",
   "status": "partial",
   "theorems": [
    "Verif.USet.Props.outside_values_partial",
    "Verif.USet.Props.outside_values_refuted"
   ],
   "note": "negative values proved; values above 0x10FFFF are members when 0x10FFFF is"
  },
  {
   "property": "C20",
   "status": "proved",
   "theorems": [
    "Verif.Utilities.Props.surrogate_roundtrip",
    "Verif.Utilities.Props.surrogate_roundtrip_pair"
   ],
   "note": ""
  },
  {
   "property": "C21",
   "status": "proved",
   "theorems": [
    "Verif.Utilities.Props.surrogate_predicates",
    "Verif.Utilities.Props.surrogate_predicates_32"
   ],
   "note": ""
  },
  {
   "property": "C22",
   "status": "proved",
   "theorems": [
    "Verif.Utilities.Props.arithmeticShift_signed",
    "Verif.Utilities.Props.arithmeticShift_range"
   ],
   "note": ""
  },
  {
   "property": "C23",
   "status": "proved",
   "theorems": [
    "Verif.Utilities.Props.highBit_log2",
    "Verif.Utilities.Props.highBit_zero",
    "Verif.Utilities.Props.highBit_bound_sharp"
   ],
   "note": ""
  },
  {
   "property": "C24",
   "status": "proved",
   "theorems": [
    "Verif.Utilities.Props.noncharacter_iff",
    "Verif.Utilities.Props.noncharacter_count"
   ],
   "note": ""
  },
  {
   "property": "C25",
   "status": "partial",
   "theorems": [
    "Verif.UTrie2.Props.get_correct_partial",
    "Verif.UTrie2.Props.get_last",
    "Verif.UTrie2.Props.get_correct_refuted",
    "Verif.UTrie2.Props.bidi_last_value",
    "Verif.UTrie2.Props.get_build",
    "Verif.UTrie2.Props.shipped_get_total"
   ],
   "note": "all code points but 0x10FFFF, which the code answers with the error value"
  },
  {
   "property": "C26",
   "status": "partial",
   "theorems": [
    "Verif.UTrie2.Props.enumerator_agrees_partial",
    "Verif.UTrie2.Props.enumerator_high",
    "Verif.UTrie2.Props.enumerator_agrees_refuted",
    "Verif.UTrie2.Props.enumerator_unaligned_refuted",
    "Verif.UTrie2.Props.leads_represents",
    "Verif.UTrie2.Props.enumerator_leads_refuted"
   ],
   "note": "32-aligned windows of up to 2048 code points (inside one group from U+10000 on), and windows above highStart; refuted across group boundaries, for unaligned starts and for surrogates"
  },
  {
   "property": "C27",
   "status": "partial",
   "theorems": [
    "Verif.UTrie2.Props.enumerator_tiles_partial",
    "Verif.UTrie2.Props.enumerator_tiles_default",
    "Verif.UTrie2.Props.enumerator_tiles_refuted",
    "Verif.UTrie2.Props.overshoot_represents",
    "Verif.UTrie2.Props.enumerator_terminates",
    "Verif.UTrie2.Props.shipped_enumerator_total"
   ],
   "note": "32-aligned starts, except limits in the trail surrogates and just above; refuted for those"
  },
  {
   "property": "C28",
   "status": "proved",
   "theorems": [
    "Verif.CPTrie.Props.get_correct",
    "Verif.CPTrie.Props.get_build",
    "Verif.CPTrie.Props.nfc_represents"
   ],
   "note": ""
  },
  {
   "property": "C29",
   "status": "partial",
   "theorems": [
    "Verif.CPTrie.Props.enumerator_agrees_partial",
    "Verif.CPTrie.Props.nfc_enumerator_partial",
    "Verif.CPTrie.Props.enumerator_terminates_refuted",
    "Verif.CPTrie.Props.fast_enumerator_refuted",
    "Verif.CPTrie.Props.small_enumerator_refuted",
    "Verif.CPTrie.Props.enumerator_high_refuted",
    "Verif.CPTrie.Props.enumerator_tiles_refuted",
    "Verif.CPTrie.Props.enumerator_values_refuted",
    "Verif.CPTrie.Props.enumerator_nonull_refuted"
   ],
   "note": "windows below 0x1000, or over null groups of small tries, where no block of different values is repeated; refuted elsewhere: endless loop at 0x1000 in every fast trie, a range delivered twice, nothing delivered from highStart on"
  },
  {
   "property": "C30",
   "status": "proved",
   "theorems": [
    "Verif.CPTrie.Props.createFromData_roundtrip",
    "Verif.CPTrie.Props.createFromData_short"
   ],
   "note": ""
  },
  {
   "property": "C31",
   "status": "proved",
   "theorems": [
    "Verif.Bidi.Props.mirror_involution",
    "Verif.Bidi.Props.mirror_is_mirrored",
    "Verif.Bidi.Props.mirror_table",
    "Verif.Bidi.Props.mirror_delta"
   ],
   "note": ""
  },
  {
   "property": "C32",
   "status": "proved",
   "theorems": [
    "Verif.Bidi.Props.pairedBracket_involution",
    "Verif.Bidi.Props.pairedBracket_types"
   ],
   "note": ""
  },
  {
   "property": "C33",
   "status": "proved",
   "theorems": [
    "Verif.Bidi.Props.direction_total_named",
    "Verif.Bidi.Props.joiningType_total_named",
    "Verif.Bidi.Props.joiningGroup_total_named"
   ],
   "note": ""
  },
  {
   "property": "C34",
   "status": "proved",
   "theorems": [
    "Verif.Case.Props.simple_total"
   ],
   "note": ""
  },
  {
   "property": "C35",
   "status": "proved",
   "theorems": [
    "Verif.Case.Props.simple_idempotent"
   ],
   "note": ""
  },
  {
   "property": "C36",
   "status": "proved",
   "theorems": [
    "Verif.Case.Props.full_total"
   ],
   "note": ""
  },
  {
   "property": "C37",
   "status": "proved",
   "theorems": [
    "Verif.Case.Props.slot_value_correct",
    "Verif.Case.Props.slotOffset_counts",
    "Verif.Case.Props.hasSlot_iff"
   ],
   "note": ""
  },
  {
   "property": "C38",
   "status": "proved",
   "theorems": [
    "Verif.Char.Props.generalCategory_named",
    "Verif.Char.Props.block_named",
    "Verif.Char.Props.script_named",
    "Verif.Char.Props.script_invalid",
    "Verif.Char.Props.eastAsianWidth_named",
    "Verif.Char.Props.lineBreak_named",
    "Verif.Char.Props.sentenceBreak_named",
    "Verif.Char.Props.wordBreak_named",
    "Verif.Char.Props.graphemeClusterBreak_named",
    "Verif.Char.Props.decompType_named",
    "Verif.Char.Props.age_total",
    "Verif.Char.Props.numericValue_total"
   ],
   "note": ""
  },
  {
   "property": "C39",
   "status": "partial",
   "theorems": [
    "Verif.Char.Props.isLower_iff",
    "Verif.Char.Props.isUpper_iff",
    "Verif.Char.Props.isTitle_iff",
    "Verif.Char.Props.isDigit_iff",
    "Verif.Char.Props.isalpha_iff",
    "Verif.Char.Props.isalnum_iff",
    "Verif.Char.Props.isDefined_iff",
    "Verif.Char.Props.isbase_iff",
    "Verif.Char.Props.iscntrl_iff",
    "Verif.Char.Props.isPrint_iff",
    "Verif.Char.Props.isgraph_iff",
    "Verif.Char.Props.isGraphPOSIX_iff",
    "Verif.Char.Props.isPrintPOSIX_iff",
    "Verif.Char.Props.ispunct_iff",
    "Verif.Char.Props.isJavaSpaceChar_iff",
    "Verif.Char.Props.isspace_iff",
    "Verif.Char.Props.isWhiteSpace_iff",
    "Verif.Char.Props.isIDStart_iff",
    "Verif.Char.Props.isJavaIDStart_iff",
    "Verif.Char.Props.isIDPart_iff",
    "Verif.Char.Props.isJavaIDPart_iff",
    "Verif.Char.Props.predicate_relations",
    "Verif.Char.Props.graph_print_partial",
    "Verif.Char.Props.graph_print_refuted"
   ],
   "note": "every predicate characterised by category names; two of the listed relations are violated (private use is graphic but not printable, U+2028 and U+2029 are controls and printable)"
  },
  {
   "property": "C40",
   "status": "proved",
   "theorems": [
    "Verif.Char.Props.digitValue_spec",
    "Verif.Char.Props.isDigit_digitValue"
   ],
   "note": ""
  },
  {
   "property": "C41",
   "status": "partial",
   "theorems": [
    "Verif.Char.Props.block_rows_partial",
    "Verif.Char.Props.block_rows_refuted"
   ],
   "note": "all code points but U+10FFFF, which the trie does not look up"
  },
  {
   "property": "C42",
   "status": "partial",
   "theorems": [
    "Verif.Char.Props.columns_partial",
    "Verif.Char.Props.binaryProp_bit",
    "Verif.Char.Props.columns_refuted"
   ],
   "note": "violated for column 3 (off-by-one in the bound check)"
  },
  {
   "property": "C43",
   "status": "partial",
   "theorems": [
    "Verif.Char.Props.idIgnorable_partial",
    "Verif.Char.Props.idIgnorable_refuted"
   ],
   "note": "violated: the ISO control case is computed but not returned"
  },
  {
   "property": "C44",
   "status": "proved",
   "theorems": [
    "Verif.Normalizer2.Props.hangul_standard",
    "Verif.Normalizer2.Props.hangul_syllables",
    "Verif.Normalizer2.Props.hangul_injective"
   ],
   "note": ""
  },
  {
   "property": "C45",
   "status": "proved",
   "theorems": [
    "Verif.Normalizer2.Props.hangul_raw_full"
   ],
   "note": ""
  },
  {
   "property": "C46",
   "status": "proved",
   "theorems": [
    "Verif.Normalizer2.Props.nfc_total",
    "Verif.Normalizer2.Props.nfc_decomposition_final",
    "Verif.Normalizer2.Props.nfc_expansion",
    "Verif.Normalizer2.Props.nfcRaw_eq"
   ],
   "note": ""
  },
  {
   "property": "C47",
   "status": "proved",
   "theorems": [
    "Verif.Normalizer2.Props.stringFromData_utf16",
    "Verif.Normalizer2.Props.stringFromData_lone_lead"
   ],
   "note": ""
  },
  {
   "property": "C48",
   "status": "proved",
   "theorems": [
    "Verif.CharNames.Props.expandGroupLengths_decodes",
    "Verif.CharNames.Props.readGroup_strings"
   ],
   "note": ""
  },
  {
   "property": "C49",
   "status": "proved",
   "theorems": [
    "Verif.CharNames.Props.getGroup_exact",
    "Verif.CharNames.Props.getGroup_no_groups"
   ],
   "note": ""
  },
  {
   "property": "C50",
   "status": "proved",
   "theorems": [
    "Verif.CharNames.Props.hexNames_injective",
    "Verif.CharNames.Props.factorNames_injective",
    "Verif.CharNames.Props.factorNames_exact",
    "Verif.CharNames.Props.hangulNames_injective"
   ],
   "note": ""
  },
  {
   "property": "C51",
   "status": "partial",
   "theorems": [
    "Verif.CharNames.Props.nameIterator_complete_partial",
    "Verif.CharNames.Props.nameIterator_extended_refuted",
    "Verif.CharNames.Props.nameIterator_skips_refuted",
    "Verif.CharNames.Props.nameIterator_no_ranges"
   ],
   "note": "violated for extended names, and for short ranges that the steps of 32 miss"
  },
  {
   "property": "C52",
   "status": "partial",
   "theorems": [
    "Verif.CharNames.Props.charFromName_first_partial",
    "Verif.CharNames.Props.charFromName_inverts_partial",
    "Verif.CharNames.Props.nameIterator_extended_refuted",
    "Verif.CharNames.Props.nameIterator_skips_refuted"
   ],
   "note": "violated where the iteration is incomplete"
  },
  {
   "property": "C53",
   "status": "partial",
   "theorems": [
    "Verif.CharNames.Props.expandString_iff",
    "Verif.CharNames.Props.expandString_extended",
    "Verif.CharNames.Props.expandString_total_partial",
    "Verif.CharNames.Props.expandString_total_refuted",
    "Verif.CharNames.Props.expandName_field"
   ],
   "note": "violated: a string that ends in a lead byte raises IndexError"
  },
  {
   "property": "C54",
   "status": "proved",
   "theorems": [
    "Verif.ICUData.Props.lookup_exact",
    "Verif.ICUData.Props.lookup_distinct",
    "Verif.ICUData.Props.dataHeader_exact"
   ],
   "note": ""
  },
  {
   "property": "C55",
   "status": "proved",
   "theorems": [
    "Verif.ICUData.Props.construct_idempotent",
    "Verif.ICUData.Props.construct_loaded",
    "Verif.ICUData.Props.failed_load_is_kept",
    "Verif.ICUData.Props.empty_file"
   ],
   "note": "also shows that a failed load is kept"
  },
  {
   "property": "C56",
   "status": "proved",
   "theorems": [
    "Verif.UCD.Props.getCharProperty_value",
    "Verif.UCD.Props.getBooleanProperty_iff"
   ],
   "note": ""
  },
  {
   "property": "C57",
   "status": "proved",
   "theorems": [
    "Verif.UCD.Props.getCodePointsProperty_maps",
    "Verif.UCD.Props.dmToString_spec"
   ],
   "note": ""
  },
  {
   "property": "C58",
   "status": "proved",
   "theorems": [
    "Verif.BuilderArgs.Props.forArguments_ok",
    "Verif.BuilderArgs.Props.forArguments_perm",
    "Verif.BuilderArgs.Props.forArguments_error"
   ],
   "note": ""
  },
  {
   "property": "C59",
   "status": "proved",
   "theorems": [
    "Verif.UCDReader.Props.generateDictionaries_ok",
    "Verif.UCDReader.Props.generateDictionaries_error",
    "Verif.UCDReader.Props.fileText_ok"
   ],
   "note": "the rows are those of the csv reader (C123)"
  },
  {
   "property": "C60",
   "status": "partial",
   "theorems": [
    "Verif.Header.Props.readAll_reads_partial",
    "Verif.Header.Props.nextLine_some",
    "Verif.Header.Props.nextLine_none",
    "Verif.Header.Props.firstToken_total",
    "Verif.Header.Props.getTrailingComment_block",
    "Verif.Header.Props.getTrailingComment_eol",
    "Verif.Header.Props.getTrailingComment_none",
    "Verif.Header.Props.getTrailingComment_dollar_refuted",
    "Verif.Header.Props.readAll_midline_refuted",
    "Verif.Header.Props.readAll_nested_refuted",
    "Verif.Header.Props.readAll_between_refuted",
    "Verif.Header.Props.readAll_after_refuted",
    "Verif.Header.Props.readAll_slash_refuted",
    "Verif.Header.Props.readAll_close_refuted",
    "Verif.Header.Props.readAll_join_refuted",
    "Verif.Header.Props.readAll_macro_comment_refuted"
   ],
   "note": "headers laid out line by line: comments on lines of their own, conditionals that are not nested; refuted for the rest"
  },
  {
   "property": "C61",
   "status": "proved",
   "theorems": [
    "Verif.Case.Props.upper_lower",
    "Verif.Case.Props.lower_upper",
    "Verif.Case.Props.upper_title"
   ],
   "note": ""
  },
  {
   "property": "C62",
   "status": "proved",
   "theorems": [
    "Verif.Case.Props.category_fixed",
    "Verif.Case.Props.moved_category"
   ],
   "note": ""
  },
  {
   "property": "C63",
   "status": "proved",
   "theorems": [
    "Verif.Char.Props.block_contiguous"
   ],
   "note": ""
  },
  {
   "property": "C64",
   "status": "proved",
   "theorems": [
    "Verif.Char.Props.script_unknown",
    "Verif.Char.Props.age_unassigned"
   ],
   "note": ""
  },
  {
   "property": "C65",
   "status": "partial",
   "theorems": [
    "Verif.Char.Props.category_implies_property",
    "Verif.Char.Props.grapheme_base_or_extend",
    "Verif.Char.Props.whiteSpace_category",
    "Verif.Char.Props.whiteSpace_isspace",
    "Verif.Char.Props.whiteSpace_isspace_differ",
    "Verif.Char.Props.noncharacter_partial",
    "Verif.Char.Props.noncharacter_refuted"
   ],
   "note": "all but the non-character property of U+10FFFF, which the trie does not look up"
  },
  {
   "property": "C66",
   "status": "proved",
   "theorems": [
    "Verif.Char.Props.property_containments",
    "Verif.Char.Props.emoji_containments"
   ],
   "note": ""
  },
  {
   "property": "C67",
   "status": "proved",
   "theorems": [
    "Verif.Char.Props.digits_in_tens",
    "Verif.Char.Props.numbers_have_values"
   ],
   "note": ""
  },
  {
   "property": "C68",
   "status": "proved",
   "theorems": [
    "Verif.Char.Props.brackets_category",
    "Verif.Char.Props.bidiClass_category"
   ],
   "note": ""
  },
  {
   "property": "C69",
   "status": "proved",
   "theorems": [
    "Verif.Char.Props.numeric_decoding",
    "Verif.Char.Props.numeric_encodings"
   ],
   "note": "exact rational arithmetic; Python's rounding to doubles is not modelled"
  },
  {
   "property": "C70",
   "status": "partial",
   "theorems": [
    "Verif.Char.Props.numericType_partial",
    "Verif.Char.Props.numericType_refuted"
   ],
   "note": "violated: the function returns the general category"
  },
  {
   "property": "C71",
   "status": "proved",
   "theorems": [
    "Verif.Char.Props.isISOControl_iff",
    "Verif.Char.Props.isBlank_iff",
    "Verif.Char.Props.isHexDigit_iff",
    "Verif.Char.Props.isalnumPOSIX_iff"
   ],
   "note": ""
  },
  {
   "property": "C72",
   "status": "proved",
   "theorems": [
    "Verif.Normalizer2.Props.nfc_hangul"
   ],
   "note": ""
  },
  {
   "property": "C73",
   "status": "proved",
   "theorems": [
    "Verif.CharNames.Props.charCat_spec",
    "Verif.CharNames.Props.extendedName_total",
    "Verif.CharNames.Props.extendedName_injective",
    "Verif.CharNames.Props.extendedName_label"
   ],
   "note": ""
  },
  {
   "property": "C74",
   "status": "proved",
   "theorems": [
    "Verif.ICUData.Props.getString_text",
    "Verif.ICUData.Props.getName_text",
    "Verif.ICUData.Props.getName_noSlash"
   ],
   "note": ""
  },
  {
   "property": "C75",
   "status": "proved",
   "theorems": [
    "Verif.UCD.Props.characterData_total",
    "Verif.UCD.Props.name_pound",
    "Verif.UCD.Props.missing_bracket_rejected"
   ],
   "note": "Python's eval is an argument of the model"
  },
  {
   "property": "C76",
   "status": "partial",
   "theorems": [
    "Verif.UCD.Props.binaryProperties_attributes",
    "Verif.UCD.Props.binaryProperties_fields",
    "Verif.UCD.Props.decompProperties_attributes",
    "Verif.UCD.Props.caseProperties_attributes",
    "Verif.UCD.Props.bidiProperties_attributes",
    "Verif.UCD.Props.indicProperties_attributes",
    "Verif.UCD.Props.characterData_attributes",
    "Verif.UCD.Props.simpleTitleCase_partial",
    "Verif.UCD.Props.simpleTitleCase_refuted"
   ],
   "note": "violated for simpleTitleCase, which holds the attribute's text"
  },
  {
   "property": "C77",
   "status": "partial",
   "theorems": [
    "Verif.Header.Props.translate_items_partial",
    "Verif.Header.Props.translate_header_partial",
    "Verif.Header.Props.pyInt_decimal",
    "Verif.Header.Props.translate_two_refuted",
    "Verif.Header.Props.translate_oneline_refuted",
    "Verif.Header.Props.translate_define_refuted",
    "Verif.Header.Props.translate_brace_refuted",
    "Verif.Header.Props.translate_comma_refuted"
   ],
   "note": "one enumerator on each line; Python's eval is an argument; refuted for several enumerators on a line and other layouts"
  },
  {
   "property": "C78",
   "status": "partial",
   "theorems": [
    "Verif.ICUData.Props.layout_lookup_partial",
    "Verif.ICUData.Props.layout_missing_refuted"
   ],
   "note": "refuted where the file stores no trie for a property"
  },
  {
   "property": "C79",
   "status": "proved",
   "theorems": [
    "Verif.ICUData.Props.createFromFileData_exact",
    "Verif.ICUData.Props.createFromFileData_nfc"
   ],
   "note": ""
  },
  {
   "property": "C80",
   "status": "partial",
   "theorems": [
    "Verif.Hex.listOfCodes_format",
    "Verif.Hex.listOfCodes_reads_back",
    "Verif.Hex.str_reads_back_partial",
    "Verif.Hex.str_injective",
    "Verif.Hex.str_negative_refuted",
    "Verif.Hex.padded"
   ],
   "note": "refuted for sets with negative boundaries, whose text has the sign after the prefix"
  },
  {
   "property": "C81",
   "status": "proved",
   "theorems": [
    "Verif.CharNames.Props.populateData_exact",
    "Verif.CharNames.Props.getCharName_file",
    "Verif.CharNames.Props.getCharName_file_fields"
   ],
   "note": ""
  },
  {
   "property": "C82",
   "status": "partial",
   "theorems": [
    "Verif.USet.Props.pinned_ranges_partial",
    "Verif.USet.Props.pinned_ranges_refuted"
   ],
   "note": "empty ranges and ranges outside the code space change nothing; refuted for the rest"
  },
  {
   "property": "C83",
   "status": "partial",
   "theorems": [
    "Verif.USet.Props.laws_members",
    "Verif.USet.Props.laws_eq_partial",
    "Verif.USet.Props.laws_refuted"
   ],
   "note": "refuted for == and |: a | b == b | a can be False"
  },
  {
   "property": "C84",
   "status": "partial",
   "theorems": [
    "Verif.ModuleText.Props.array_partial",
    "Verif.ModuleText.Props.array_missing",
    "Verif.ModuleText.Props.array_refuted"
   ],
   "note": "definitions in the layout of ICU, the name not occurring before; refuted for the rest"
  },
  {
   "property": "C85",
   "status": "proved",
   "theorems": [
    "Verif.ModuleText.Props.trie_values",
    "Verif.ModuleText.Props.trie_values_inner"
   ],
   "note": "definitions in the layout of ICU"
  },
  {
   "property": "C86",
   "status": "partial",
   "theorems": [
    "Verif.ModuleText.Props.scalar_partial",
    "Verif.ModuleText.Props.scalar_refuted"
   ],
   "note": "refuted where a semicolon follows on the line"
  },
  {
   "property": "C87",
   "status": "proved",
   "theorems": [
    "Verif.ModuleText.Props.bidiModule_text",
    "Verif.ModuleText.Props.charModule_text",
    "Verif.ModuleText.Props.caseModule_text",
    "Verif.ModuleText.Props.icuVersions_exact"
   ],
   "note": "files are texts; the date is an argument"
  },
  {
   "property": "C88",
   "status": "partial",
   "theorems": [
    "Verif.Tables.Props.tables_agree_partial",
    "Verif.Tables.Props.tables_agree_refuted"
   ],
   "note": "refuted for five block names and one word break name"
  },
  {
   "property": "C89",
   "status": "partial",
   "theorems": [
    "Verif.Tables.Props.constants_partial",
    "Verif.Tables.Props.constants_refuted"
   ],
   "note": "refuted for seven aliases, which are tuples"
  },
  {
   "property": "C90",
   "status": "partial",
   "theorems": [
    "Verif.USet.Props.newArg_partial",
    "Verif.USet.Props.containsArg_partial",
    "Verif.USet.Props.complementArg_partial",
    "Verif.USet.Props.complementArg_none_int",
    "Verif.USet.Props.other_types_raise",
    "Verif.USet.Props.args_refuted"
   ],
   "note": "ranges with step 1; refuted for other steps and for ranges whose start is behind their stop"
  },
  {
   "property": "C91",
   "status": "partial",
   "theorems": [
    "Verif.USet.Props.eqArg_partial",
    "Verif.USet.Props.eqArg_refuted"
   ],
   "note": "comparison with sets; refuted for other objects"
  },
  {
   "property": "C92",
   "status": "proved",
   "theorems": [
    "Verif.Normalizer2.Props.nfc_hangul_classes",
    "Verif.Normalizer2.Props.nfc_inert"
   ],
   "note": ""
  },
  {
   "property": "C93",
   "status": "proved",
   "theorems": [
    "Verif.Normalizer2.Props.nfc_lengths"
   ],
   "note": ""
  },
  {
   "property": "C94",
   "status": "proved",
   "theorems": [
    "Verif.Keys.Props.tables_fit"
   ],
   "note": ""
  },
  {
   "property": "C95",
   "status": "proved",
   "theorems": [
    "Verif.Char.Props.binary_sets",
    "Verif.Char.Props.emoji_sets",
    "Verif.Char.Props.pictograph_sets"
   ],
   "note": ""
  },
  {
   "property": "C96",
   "status": "proved",
   "theorems": [
    "Verif.Char.Props.category_sets"
   ],
   "note": ""
  },
  {
   "property": "C97",
   "status": "partial",
   "theorems": [
    "Verif.Char.Props.bidi_sets_partial",
    "Verif.Char.Props.bidi_sets_refuted",
    "Verif.Char.Props.bidi_flags"
   ],
   "note": "refuted for U+10FFFF, which has class L instead of BN"
  },
  {
   "property": "C98",
   "status": "partial",
   "theorems": [
    "Verif.Char.Props.block_ranges_partial",
    "Verif.Char.Props.block_rows_refuted"
   ],
   "note": "refuted for U+10FFFF, which is in no block"
  },
  {
   "property": "C99",
   "status": "proved",
   "theorems": [
    "Verif.Char.Props.break_sets",
    "Verif.Char.Props.hangul_breaks"
   ],
   "note": ""
  },
  {
   "property": "C100",
   "status": "proved",
   "theorems": [
    "Verif.Char.Props.width_sets"
   ],
   "note": ""
  },
  {
   "property": "C101",
   "status": "proved",
   "theorems": [
    "Verif.Case.Props.simple_maps",
    "Verif.Case.Props.full_maps"
   ],
   "note": ""
  },
  {
   "property": "C102",
   "status": "proved",
   "theorems": [
    "Verif.Char.Props.category_map"
   ],
   "note": ""
  },
  {
   "property": "C103",
   "status": "proved",
   "theorems": [
    "Verif.Char.Props.break_maps"
   ],
   "note": ""
  },
  {
   "property": "C104",
   "status": "proved",
   "theorems": [
    "Verif.Char.Props.script_map"
   ],
   "note": ""
  },
  {
   "property": "C105",
   "status": "proved",
   "theorems": [
    "Verif.Char.Props.width_maps"
   ],
   "note": ""
  },
  {
   "property": "C106",
   "status": "partial",
   "theorems": [
    "Verif.Char.Props.age_map_partial",
    "Verif.Char.Props.age_map_refuted"
   ],
   "note": "refuted for U+10FFFF, which has no age instead of 2.0"
  },
  {
   "property": "C107",
   "status": "proved",
   "theorems": [
    "Verif.Char.Props.numeric_map"
   ],
   "note": ""
  },
  {
   "property": "C108",
   "status": "partial",
   "theorems": [
    "Verif.Bidi.Props.class_map_partial",
    "Verif.Bidi.Props.class_map_refuted"
   ],
   "note": "refuted for U+10FFFF, which has class L instead of BN"
  },
  {
   "property": "C109",
   "status": "proved",
   "theorems": [
    "Verif.Bidi.Props.joining_maps"
   ],
   "note": ""
  },
  {
   "property": "C110",
   "status": "proved",
   "theorems": [
    "Verif.Char.Props.derived_sets",
    "Verif.Char.Props.derived_calls"
   ],
   "note": ""
  },
  {
   "property": "C111",
   "status": "partial",
   "theorems": [
    "Verif.Char.Props.noncharacters_partial",
    "Verif.Char.Props.noncharacters_refuted",
    "Verif.Char.Props.noncharacters_rule"
   ],
   "note": "refuted for U+10FFFF, which is not a noncharacter for the library"
  },
  {
   "property": "C112",
   "status": "proved",
   "theorems": [
    "Verif.Normalizer2.Props.raw_map",
    "Verif.Normalizer2.Props.full_map"
   ],
   "note": ""
  },
  {
   "property": "C113",
   "status": "proved",
   "theorems": [
    "Verif.Normalizer2.Props.class_maps"
   ],
   "note": ""
  },
  {
   "property": "C114",
   "status": "proved",
   "theorems": [
    "Verif.Bidi.Props.mirrored_set",
    "Verif.Bidi.Props.mirror_map",
    "Verif.Bidi.Props.bracket_map"
   ],
   "note": ""
  },
  {
   "property": "C115",
   "status": "partial",
   "theorems": [
    "Verif.Build.Props.build_result",
    "Verif.Build.Props.build_files",
    "Verif.Build.Props.buildMain_refused",
    "Verif.Build.Props.buildMain_runs",
    "Verif.Build.Props.build_beside_refuted"
   ],
   "note": "refuted for the output directory above the ICU sources: the licence would be copied to itself"
  },
  {
   "property": "C116",
   "status": "proved",
   "theorems": [
    "Verif.Build.Props.build_interrupted"
   ],
   "note": ""
  },
  {
   "property": "C117",
   "status": "partial",
   "theorems": [
    "Verif.Build.Props.headerModule_text_partial",
    "Verif.Header.Props.guardMatch_iff"
   ],
   "note": "headers of the layout of C77; ASCII"
  },
  {
   "property": "C118",
   "status": "proved",
   "theorems": [
    "Verif.Build.Props.install_result",
    "Verif.Build.Props.install_files",
    "Verif.Build.Props.build_install"
   ],
   "note": "directories and links are not modelled"
  },
  {
   "property": "C119",
   "status": "proved",
   "theorems": [
    "Verif.Build.Props.install_interrupted"
   ],
   "note": ""
  },
  {
   "property": "C120",
   "status": "proved",
   "theorems": [
    "Verif.Char.Props.numeric_float"
   ],
   "note": "rounding is an argument; Python's division and product are correctly rounded"
  },
  {
   "property": "C121",
   "status": "partial",
   "theorems": [
    "Verif.UTrie2.Props.getInt_partial",
    "Verif.UTrie2.Props.getInt_negative",
    "Verif.UTrie2.Props.negative_form",
    "Verif.CPTrie.Props.getInt_partial",
    "Verif.Char.Props.notCodePoint_refuted",
    "Verif.Char.Props.notCodePoint_raises"
   ],
   "note": "refuted for negative integers: -1 is punctuation with the numeric value 0, smaller ones raise IndexError"
  },
  {
   "property": "C122",
   "status": "partial",
   "theorems": [
    "Verif.USet.Props.iteration_partial",
    "Verif.USet.Props.iteration_members",
    "Verif.USet.Props.iteration_ends",
    "Verif.USet.Props.iteration_refuted"
   ],
   "note": "the set itself must not change between the first and the last next; refuted otherwise: a member twice, another never, IndexError after clear"
  },
  {
   "property": "C123",
   "status": "partial",
   "theorems": [
    "Verif.Csv.Props.rows_partial",
    "Verif.Csv.Props.rows_quoted",
    "Verif.Csv.Props.rows_open",
    "Verif.Csv.Props.rows_refuted",
    "Verif.Csv.Props.rows_total"
   ],
   "note": "refuted for fields that begin with a quotation mark, which swallow the lines that follow; CPython's state machine is modelled from _csv.c"
  },
  {
   "property": "C124",
   "status": "proved",
   "theorems": [
    "Verif.Char.Props.class_predicates",
    "Verif.Char.Props.category_exists"
   ],
   "note": "the categories are those of the independent list of ranges in Spec/CategoryMap"
  },
  {
   "property": "C125",
   "status": "partial",
   "theorems": [
    "Verif.ICUData.Props.threads_safe",
    "Verif.ICUData.Props.threads_quiet_partial",
    "Verif.ICUData.Props.threads_loaded_partial",
    "Verif.ICUData.Props.threads_return",
    "Verif.ICUData.Props.threads_refuted",
    "Verif.ICUData.Props.thread_alone"
   ],
   "note": "refuted: a construction returns while another thread is still reading the table of contents, and lookups raise KeyError; proved: no construction fails or hangs, no lookup gives a wrong offset, and lookups are exact when no construction is under way or one thread has gone through the table"
  },
  {
   "property": "C126",
   "status": "partial",
   "theorems": [
    "Verif.UCDReader.Props.module_partial",
    "Verif.UCDReader.Props.module_of_file",
    "Verif.UCDReader.Props.module_refuted",
    "Verif.Build.Props.build_dictionaries"
   ],
   "note": "the constants must be made of the characters of names and the short names free of quotation marks, backslashes and ends of lines; refuted otherwise: one line can make two entries"
  },
  {
   "property": "C127",
   "status": "proved",
   "theorems": [
    "Verif.Case.Props.upper_text",
    "Verif.Case.Props.lower_text",
    "Verif.Case.Props.title_text",
    "Verif.Case.Props.title_not_stable"
   ],
   "note": "texts are lists of code points; the mappings are those of C101"
  },
  {
   "property": "C128",
   "status": "proved",
   "theorems": [
    "Verif.Uchar.Props.category_masks"
   ],
   "note": ""
  },
  {
   "property": "C129",
   "status": "partial",
   "theorems": [
    "Verif.ValueNames.Props.constants_mean",
    "Verif.ValueNames.Props.direction_constants_partial",
    "Verif.ValueNames.Props.block_constants_partial"
   ],
   "note": "bidi class and block of U+10FFFF are wrong (class_map_refuted, block_rows_refuted)"
  },
  {
   "property": "C130",
   "status": "partial",
   "theorems": [
    "Verif.CHeader.Props.header_constants_partial",
    "Verif.CHeader.Props.pyEval_decimal",
    "Verif.CHeader.Props.header_parentheses_refuted",
    "Verif.CHeader.Props.header_order_refuted",
    "Verif.CHeader.Props.header_numbers_refuted",
    "Verif.CHeader.Props.header_scope_refuted"
   ],
   "note": "the header is laid out line by line as for C117, its macros are parenthesised and defined before they are used, enumerators refer to their own enumeration; each of these is necessary (refuted otherwise)"
  },
  {
   "property": "C131",
   "status": "proved",
   "theorems": [
    "Verif.HeaderText.Props.shipped_dictionaries",
    "Verif.HeaderText.Props.shipped_masks",
    "Verif.HeaderText.Props.shipped_numbers",
    "Verif.HeaderText.Props.shipped_ucase"
   ],
   "note": "the texts of the files are executed by the model of Python (Model/PyExpr); the tables of the model are what comes out"
  },
  {
   "property": "C132",
   "status": "partial",
   "theorems": [
    "Verif.ModuleValues.bidi_values_partial",
    "Verif.ModuleValues.case_values_partial",
    "Verif.ModuleValues.char_values_partial",
    "Verif.ModuleValues.octal_refuted"
   ],
   "note": "numbers must be decimal or hexadecimal without suffixes: texts are copied, so the import of octal numbers and suffixes fails (octal_refuted); layout as in C87"
  },
  {
   "property": "C133",
   "status": "proved",
   "theorems": [
    "Verif.DataText.Props.bidi_import",
    "Verif.DataText.Props.case_import",
    "Verif.DataText.Props.char_import",
    "Verif.DataText.Props.nfc_import",
    "Verif.DataText.Props.values_get",
    "Verif.DataText.Props.shipped_tries",
    "Verif.DataText.Props.nfc_lengths"
   ],
   "note": "the texts of the files are executed by the model of Python (Model/PyLists); the tables of Data are what comes out"
  },
  {
   "property": "C134",
   "status": "proved",
   "theorems": [
    "Verif.PyRun.CharProps.all_functions",
    "Verif.PyRun.CharProps.text_functions",
    "Verif.PyRun.CharProps.text_numbers",
    "Verif.PyRun.CharProps.text_standard"
   ],
   "note": "the texts of the files are parsed and executed by a model of Python (Model/PySyntax, Model/PyRun, Model/Library); the functions of Model/CharProps are what comes out"
  },
  {
   "property": "C135",
   "status": "proved",
   "theorems": [
    "Verif.PyRun.Utilities.text_utilities",
    "Verif.PyRun.Utilities.text_standard",
    "Verif.PyRun.BidiProps.text_functions",
    "Verif.PyRun.BidiProps.text_standard"
   ],
   "note": "as C134; listOfCodes uses a comprehension, which Model/PyRun does not execute"
  },
  {
   "property": "C136",
   "status": "proved",
   "theorems": [
    "Verif.PyRun.CaseProps.text_functions",
    "Verif.PyRun.CaseProps.text_standard"
   ],
   "note": "as C134"
  },
  {
   "property": "C137",
   "status": "proved",
   "theorems": [
    "Verif.PyRun.Norm.text_methods",
    "Verif.PyRun.Norm.text_standard"
   ],
   "note": "as C134; createFromFileData and createFromData, which read bytes, are not executed: the values of nfkcTrie and nfkc_cfTrie are any values"
  },
  {
   "property": "C138",
   "status": "proved",
   "theorems": [
    "Verif.PyHeap.text_methods",
    "Verif.PyHeap.text_programs",
    "Verif.PyHeap.text_queries",
    "Verif.PyHeap.text_operators",
    "Verif.PyHeap.text_history",
    "Verif.PyHeap.text_members",
    "Verif.PyHeap.text_no_aliasing"
   ],
   "note": "as C134, with a heap of lists and objects; dump, which prints, is not executed; an iterator is run to its end when it is made (C122 models suspended iterators)"
  },
  {
   "property": "C139",
   "status": "proved",
   "theorems": [
    "Verif.PyRun.Names.text_methods",
    "Verif.PyRun.Names.text_expandString",
    "Verif.PyRun.Names.text_iterators",
    "Verif.PyRun.Names.text_names",
    "Verif.PyRun.Names.text_file"
   ],
   "note": "as C134; what populateData reads from the file by means of struct is a parameter (C81 models it), generators are executed to their ends, so charFromName is only related where the iteration raises nothing"
  },
  {
   "property": "C140",
   "status": "proved",
   "theorems": [
    "Verif.PyRun.Norm.text_enumerator",
    "Verif.PyRun.Norm.text_window",
    "Verif.PyRun.Norm.text_endless"
   ],
   "note": "as C134; the generator is executed to its end; that it never ends is stated as: with no amount of fuel does the interpreter return or raise"
  },
  {
   "property": "C141",
   "status": "proved",
   "theorems": [
    "Verif.Normalizer2.Props.decomposed_text",
    "Verif.Normalizer2.Props.decomposed_equal",
    "Verif.PyRun.Norm.text_texts"
   ],
   "note": "combining marks are not reordered, since the library has no function for it"
  },
  {
   "property": "C142",
   "status": "proved",
   "theorems": [
    "Verif.CaseDecomp.Props.upper_linked",
    "Verif.CaseDecomp.Props.lower_linked",
    "Verif.CaseDecomp.Props.case_decomposed",
    "Verif.CaseDecomp.Props.title_linked_refuted"
   ],
   "note": "for upper and lower case; that title case has no such property is title_linked_refuted"
  }
 ]
}
