{"id": "C01", "title": "Union is pointwise OR", "statement": "For any two UnicodeSets a and b, a code point is contained in a.union(b) (equivalently a|b, a.addAll(b), a|=b) exactly when it is contained in a or in b.", "quantifier": "all pairs of well-formed sets and all code points 0..0x10FFFF", "why_tests_cant": "The merge has four polarity states times three comparisons plus back-up over the output buffer; a handful of literal sets reaches few of the interleavings of two unbounded range lists.", "anchors": ["UnicodeData/UnicodeSet.py: UnicodeSet.union, addAll, __or__, __ior__, _addList, contains"]}
{"id": "C02", "title": "Intersection is pointwise AND", "statement": "A code point is contained in a.intersection(b) (a&b, retainAll, &=) exactly when it is contained in both a and b.", "quantifier": "all pairs of well-formed sets and all code points", "why_tests_cant": "Unbounded interleavings of two range lists.", "anchors": ["UnicodeData/UnicodeSet.py: UnicodeSet.intersection, retainAll, _retainList (polarity 0)"]}
{"id": "C03", "title": "Difference is pointwise AND NOT", "statement": "A code point is contained in a.difference(b) (a-b, removeAll, -=) exactly when it is contained in a and not in b.", "quantifier": "all pairs of well-formed sets and all code points", "why_tests_cant": "Unbounded interleavings of two range lists.", "anchors": ["UnicodeData/UnicodeSet.py: UnicodeSet.difference, removeAll, _retainList (polarity 2)"]}
{"id": "C04", "title": "Symmetric difference is pointwise XOR", "statement": "A code point is contained in a.symmetric_difference(b) (a^b, complementAll, ^=) exactly when it is contained in exactly one of a and b.", "quantifier": "all pairs of well-formed sets and all code points", "why_tests_cant": "Unbounded interleavings of two range lists.", "anchors": ["UnicodeData/UnicodeSet.py: UnicodeSet.symmetric_difference, complementAll, _exclusiveOrList"]}
{"id": "C05", "title": "Complement is pointwise NOT and an involution", "statement": "After complement() a code point is contained exactly when it was not contained before, and complementing twice restores the very same set object state.", "quantifier": "all well-formed sets and all code points", "why_tests_cant": "Boundary code points 0 and 0x10FFFF combine with every possible list shape.", "anchors": ["UnicodeData/UnicodeSet.py: UnicodeSet.complement"]}
{"id": "C06", "title": "Any history of operations behaves like a mathematical set", "statement": "Starting from an empty set, after any finite sequence of public mutators with legal arguments, contains(cp) answers exactly what a reference set of code points subjected to the same operations answers.", "quantifier": "all finite operation histories over any number of sets, all legal arguments, all code points", "why_tests_cant": "Histories are unbounded; a bug that needs a particular list shape produced by an earlier operation is missed by single-operation tests.", "anchors": ["UnicodeData/UnicodeSet.py: UnicodeSet (all mutators), contains"]}
{"id": "C07", "title": "add and addRange insert exactly the given code points", "statement": "add(cp) makes cp a member and changes no other membership; addRange(s,e) with s<=e adds exactly the code points s..e, whichever internal path is taken.", "quantifier": "all well-formed sets, all legal cp, s<=e, all code points", "why_tests_cant": "Six structural cases of add and three paths of addRange depend on neighbouring ranges and on 0x10FFFF.", "anchors": ["UnicodeData/UnicodeSet.py: UnicodeSet.add, addRange"]}
{"id": "C08", "title": "Single code point remove/retain/complement act on that code point", "statement": "remove(cp) removes exactly cp, retain(cp) keeps at most cp, complement(cp) flips exactly cp.", "quantifier": "all well-formed sets and all legal cp", "why_tests_cant": "The documented contract ranges over every set and every code point.", "anchors": ["UnicodeData/UnicodeSet.py: UnicodeSet.remove, retain, complement(int), removeRange, retainRange, complementRange"]}
{"id": "C09", "title": "Range remove/retain/complement", "statement": "removeRange(s,e), retainRange(s,e), complementRange(s,e) remove, keep only, or flip exactly the code points s..e of the set.", "quantifier": "all well-formed sets, all legal s<=e, all code points", "why_tests_cant": "Unbounded set shapes.", "anchors": ["UnicodeData/UnicodeSet.py: UnicodeSet.removeRange, retainRange, complementRange, complement(range)"]}
{"id": "C10", "title": "Set equality is extensional", "statement": "Two sets produced by the API compare equal (==) exactly when they contain the same code points.", "quantifier": "all sets reachable by API histories", "why_tests_cant": "Needs a canonical form to be maintained by every operation in every history.", "anchors": ["UnicodeData/UnicodeSet.py: UnicodeSet.__eq__, __ne__"]}
{"id": "C11", "title": "Canonical form is an invariant", "statement": "After any operation the exposed range list is strictly ascending and ends in 0x110000, so ranges are disjoint, non-adjacent and non-empty and getRangeCount is the number of maximal runs.", "quantifier": "all API histories", "why_tests_cant": "An invariant over unbounded histories.", "anchors": ["UnicodeData/UnicodeSet.py: UnicodeSet.list, getRangeCount, getRanges"]}
{"id": "C12", "title": "size counts the members", "statement": "size() equals the number of code points c for which contains(c) is true.", "quantifier": "all well-formed sets", "why_tests_cant": "Counts over up to 1114112 members of arbitrary range lists.", "anchors": ["UnicodeData/UnicodeSet.py: UnicodeSet.size, getRangeStart, getRangeEnd"]}
{"id": "C13", "title": "Iteration yields exactly the members, ascending, once each", "statement": "Iterating a set, and flattening getRanges(), yields precisely the contained code points in strictly ascending order without repetition.", "quantifier": "all well-formed sets", "why_tests_cant": "Same.", "anchors": ["UnicodeData/UnicodeSet.py: UnicodeSet.__iter__, getRanges"]}
{"id": "C14", "title": "indexOf and charAt are mutually inverse", "statement": "charAt(i) is the i-th smallest member for 0<=i<size() and None otherwise; indexOf(cp) is its rank for members and None for non-members; the two are inverse bijections.", "quantifier": "all well-formed sets, all indices, all code points", "why_tests_cant": "Quantifies over all sets and both directions.", "anchors": ["UnicodeData/UnicodeSet.py: UnicodeSet.indexOf, charAt"]}
{"id": "C15", "title": "contains(range) means all members", "statement": "contains(range(a,b)) for a<b is True exactly when every code point a..b-1 is contained.", "quantifier": "all sets reachable by API histories, all non-empty ranges", "why_tests_cant": "Depends on the run structure left by earlier operations.", "anchors": ["UnicodeData/UnicodeSet.py: UnicodeSet.contains, __contains__"]}
{"id": "C16", "title": "Operations touch only their receiver (no aliasing)", "statement": "The copying operators never change either operand, mutators change only the receiver, and copies made by the constructor stay independent: no later history of operations on one set changes what another set contains.", "quantifier": "all histories over any number of live sets", "why_tests_cant": "Aliasing shows only in particular interleavings of operations on several objects.", "anchors": ["UnicodeData/UnicodeSet.py: UnicodeSet.__init__, union, intersection, difference, symmetric_difference, clear, complement"]}
{"id": "C17", "title": "Set operations terminate without exceptions", "statement": "On sets produced by the API with legal arguments, no operation loops forever or raises IndexError.", "quantifier": "all API histories, all legal arguments", "why_tests_cant": "'while True' merge loops with index increments and no bounds check; termination is not testable.", "anchors": ["UnicodeData/UnicodeSet.py: UnicodeSet._findCodePoint, _retainList, _addList, _exclusiveOrList"]}
{"id": "C18", "title": "Mutators return self for chaining", "statement": "Every mutator documented ':return: self, to support chaining' returns the receiver on every path.", "quantifier": "all sets and arguments", "why_tests_cant": "Return value depends on the internal path chosen from the set's shape.", "anchors": ["UnicodeData/UnicodeSet.py: UnicodeSet.add, addRange, addAll, remove*, retain*, complement*, clear"]}
{"id": "C19", "title": "Values outside 0..0x10FFFF are never members", "statement": "contains(c) is False for every integer c outside 0..0x10FFFF.", "quantifier": "all reachable sets, all integers outside the code space", "why_tests_cant": "Unbounded argument domain crossed with list shapes.", "anchors": ["UnicodeData/UnicodeSet.py: UnicodeSet.contains, _findCodePoint, _pinCodePoint"]}
{"id": "C20", "title": "Surrogate pair round trip", "statement": "charFromSurrogates(*surrogatesFromChar(c)) = c for every supplementary code point, the halves are a lead and a trail surrogate, and conversely every (lead, trail) pair round-trips.", "quantifier": "all 1048576 supplementary code points and all lead/trail pairs", "why_tests_cant": "A law over the whole domain in both directions.", "anchors": ["UnicodeData/Utilities.py: charFromSurrogates, surrogatesFromChar, isLead, isTrail"]}
{"id": "C21", "title": "Surrogate predicates classify exactly", "statement": "For every code point, isSurrogate/isLead/isTrail hold exactly on D800..DFFF / D800..DBFF / DC00..DFFF, and isSurrogateLead/isSurrogateTrail split the surrogates into those halves.", "quantifier": "all code points", "why_tests_cant": "Whole-domain characterisation.", "anchors": ["UnicodeData/Utilities.py: isSurrogate, isSurrogateLead, isSurrogateTrail, isLead, isTrail"]}
{"id": "C22", "title": "arithmeticShift is the signed top field", "statement": "For every w-bit word and field width 0<f<=w, arithmeticShift returns the two's complement value of the top f bits.", "quantifier": "all widths and all words", "why_tests_cant": "Unbounded widths.", "anchors": ["UnicodeData/Utilities.py: arithmeticShift"]}
{"id": "C23", "title": "highBit is floor(log2)", "statement": "For 1 <= v < 2^64 highBit(v) is the unique b with 2^b <= v < 2^(b+1); None for 0.", "quantifier": "all 64-bit values", "why_tests_cant": "2^64 inputs.", "anchors": ["UnicodeData/Utilities.py: highBit"]}
{"id": "C24", "title": "Noncharacters are exactly the 66", "statement": "isUnicodeNoncharacter holds exactly for FDD0..FDEF and the last two code points of each of the 17 planes.", "quantifier": "all integers", "why_tests_cant": "Unbounded integer domain.", "anchors": ["UnicodeData/Utilities.py: isUnicodeNoncharacter"]}
{"id": "C25", "title": "UTrie2.get implements the three-stage lookup for every code point", "statement": "For every well-formed trie and every code point, get(c) returns without exception the value the UTrie2 format assigns to c, and the error value for c > 0x10FFFF.", "quantifier": "all well-formed tries, all code points", "why_tests_cant": "Tries are arbitrary data; every stage boundary must be right.", "anchors": ["UnicodeData/Utrie2.py: UTrie2.get, indexFromCodePoint, indexFromSupp, indexRaw"]}
{"id": "C26", "title": "UTrie2.enumerator agrees with get", "statement": "For every range (r, v) yielded by enumerator() and every c in r, v equals valueFunction(get(c)).", "quantifier": "the shipped tries (and tries in general), all code points", "why_tests_cant": "The skip logic for repeated and null blocks depends on the whole table contents.", "anchors": ["UnicodeData/Utrie2.py: UTrie2.enumerator"]}
{"id": "C27", "title": "UTrie2.enumerator tiles the requested interval", "statement": "The yielded ranges are non-empty, ascending, contiguous, start at start and end at limit, with adjacent ranges carrying different values.", "quantifier": "all tries, value functions, starts and limits", "why_tests_cant": "Control flow depends on unbounded table data.", "anchors": ["UnicodeData/Utrie2.py: UTrie2.enumerator"]}
{"id": "C28", "title": "CPTrie.get implements the fast/small lookup for every code point", "statement": "For every well-formed CPTrie of either type and every code point, get(c) returns without exception the value the UCPTrie format assigns to c (ASCII shortcut, fast index, multi-stage index with 16- and 18-bit index-3 entries, high value, error value).", "quantifier": "all well-formed tries, all code points", "why_tests_cant": "Arbitrary table data, five lookup paths.", "anchors": ["UnicodeData/CPTrie.py: CPTrie.get, cpIndex, fastIndex, smallIndex, internalSmallIndex"]}
{"id": "C29", "title": "CPTrie.enumerator terminates and agrees with get", "statement": "enumerator(start, limit) terminates and its ranges tile [start, limit) with value get(c) throughout.", "quantifier": "all well-formed tries, starts and limits", "why_tests_cant": "Termination and agreement for arbitrary data.", "anchors": ["UnicodeData/CPTrie.py: CPTrie.enumerator"]}
{"id": "C30", "title": "Serialized tries are parsed back exactly", "statement": "createFromData of a little-endian serialisation of a trie returns its type, value width, null offsets, high start, index and data arrays.", "quantifier": "all header fields and arrays in range", "why_tests_cant": "Round trip over unbounded arrays.", "anchors": ["UnicodeData/CPTrie.py: CPTrie.createFromData"]}
{"id": "C31", "title": "Bidi mirroring is an involution", "statement": "getMirror(getMirror(c)) = c for every code point, and a code point with a mirror different from itself is reported mirrored.", "quantifier": "all code points with the shipped data", "why_tests_cant": "1114112 inputs against data tables; tests compare with another data file instead of the law.", "anchors": ["UnicodeData/BidiProps.py: getMirror, getMirrorFromProps, isMirrored", "UnicodeData/BidiPropsData.py"]}
{"id": "C32", "title": "Paired brackets pair up", "statement": "getPairedBracket is an involution; a bracket's partner has the opposite bracket type; non-brackets map to themselves.", "quantifier": "all code points with the shipped data", "why_tests_cant": "Whole-domain law over table data.", "anchors": ["UnicodeData/BidiProps.py: getPairedBracket, getPairedBracketType"]}
{"id": "C33", "title": "Joining and direction getters are total and named", "statement": "getCharDirection, getJoiningType, getJoiningGroup never raise for any code point and each result is a key of the corresponding name dictionary.", "quantifier": "all code points with the shipped data", "why_tests_cant": "Whole-domain totality over table data.", "anchors": ["UnicodeData/BidiProps.py: getCharDirection, getJoiningType, getJoiningGroup", "UnicodeData/UCDTypeDictionaries.py: bidiClassNames, joiningTypeNames, joiningGroupNames"]}
{"id": "C34", "title": "Simple case mappings are total and closed", "statement": "toLower, toUpper, toTitle never raise and return a code point (0..0x10FFFF, not a surrogate unless the input is) for every code point.", "quantifier": "all code points with the shipped data", "why_tests_cant": "Exception table slots are reached only by particular code points.", "anchors": ["UnicodeData/CaseProps.py: toLower, toUpper, toTitle, getSlotValue"]}
{"id": "C35", "title": "Simple case mappings are idempotent", "statement": "toLower(toLower(c)) = toLower(c), toUpper(toUpper(c)) = toUpper(c), toTitle(toTitle(c)) = toTitle(c).", "quantifier": "all code points with the shipped data", "why_tests_cant": "Whole-domain law.", "anchors": ["UnicodeData/CaseProps.py: toLower, toUpper, toTitle"]}
{"id": "C36", "title": "Full case mappings are total and extend the simple ones", "statement": "toFullLower, toFullUpper, toFullTitle never raise, return a non-empty string, and when the string has one character it is the simple mapping.", "quantifier": "all code points with the shipped data", "why_tests_cant": "Whole-domain law over packed exception data.", "anchors": ["UnicodeData/CaseProps.py: toFullLower, toFullUpper, toFullTitle, toUpperOrTitle"]}
{"id": "C37", "title": "Exception slots are addressed by popcount", "statement": "getSlotValue(word, slot, base) reads the value stored for that slot: the slot offset is the number of present lower slots, doubled (with a 32-bit value) when the double-slot flag is set.", "quantifier": "all exception words, slots and tables", "why_tests_cant": "256 flag patterns times table contents.", "anchors": ["UnicodeData/CaseProps.py: flagsOffset, slotOffset, getSlotValue, hasSlot"]}
{"id": "C38", "title": "Character property getters are total and named", "statement": "getGeneralCategory, getScript, getBlock, getEastAsianWidth, getLineBreak, getSentenceBreak, getWordBreak, getGraphemeClusterBreak, getDecompType, getAge, getNumericValue never raise for a code point and enumerated results are keys of their name dictionaries.", "quantifier": "all code points with the shipped data", "why_tests_cant": "Whole-domain totality over table data.", "anchors": ["UnicodeData/CharProps.py", "UnicodeData/UCDTypeDictionaries.py"]}
{"id": "C39", "title": "Category predicates are consistent", "statement": "isalpha/isalnum/isDigit/isLower/isUpper/isTitle/isDefined/isPrint/isgraph/iscntrl/ispunct/isspace/isIDStart/isIDPart satisfy the expected set relations (isalnum = isalpha or isDigit, isLower/isUpper/isTitle disjoint and included in isalpha, isIDStart included in isIDPart, iscntrl and isPrint disjoint, isgraph included in isPrint, ...).", "quantifier": "all code points", "why_tests_cant": "Relations over all code points and table data.", "anchors": ["UnicodeData/CharProps.py: isalpha, isalnum, isgraph, isPrint, iscntrl, isIDStart, isIDPart, ..."]}
{"id": "C40", "title": "Digit values match digits", "statement": "digitValue(c) is in 0..9 exactly for decimal digits and -1 otherwise, and getNumericValue agrees with it.", "quantifier": "all code points with the shipped data", "why_tests_cant": "Whole-domain law.", "anchors": ["UnicodeData/CharProps.py: digitValue, isDigit, getNumericValue"]}
{"id": "C41", "title": "Blocks are unions of 16-code-point rows", "statement": "Code points in the same aligned row of 16 are in the same block.", "quantifier": "all code points with the shipped data", "why_tests_cant": "Whole-domain law.", "anchors": ["UnicodeData/CharProps.py: getBlock, blockFromVecIndex"]}
{"id": "C42", "title": "Requests outside the property vector are answered with a default", "statement": "getUnicodeProperties(c, column) returns 0 for a column that does not exist and getBinaryProp returns False for a bit that does not exist; existing columns are read from the right vector.", "quantifier": "all code points, all columns and bits", "why_tests_cant": "Off-by-one at the bound needs an exact statement over all c.", "anchors": ["UnicodeData/CharProps.py: getUnicodeProperties, getBinaryProp"]}
{"id": "C43", "title": "Identifier-ignorable includes the ISO controls", "statement": "isIDIgnorable(c) holds for the ISO controls that are not white space and for format characters, and for nothing else; isIDPart and isJavaIDPart include them.", "quantifier": "all code points", "why_tests_cant": "Whole-domain characterisation.", "anchors": ["UnicodeData/CharProps.py: isIDIgnorable, isIDPart, isJavaIDPart"]}
{"id": "C44", "title": "Hangul decomposition is the standard bijection", "statement": "hangulDecomposition gives for each of the 11172 syllables the L V [T] jamo sequence whose standard composition is the syllable, and different syllables have different decompositions.", "quantifier": "all Hangul syllables", "why_tests_cant": "A bijection over the whole range.", "anchors": ["UnicodeData/Normalizer2.py: Normalizer2.hangulDecomposition"]}
{"id": "C45", "title": "Raw and full Hangul decompositions agree", "statement": "Expanding the first character of rawHangulDecomposition again (when it is an LV syllable) gives hangulDecomposition.", "quantifier": "all Hangul syllables", "why_tests_cant": "Whole-domain law.", "anchors": ["UnicodeData/Normalizer2.py: Normalizer2.rawHangulDecomposition, hangulDecomposition"]}
{"id": "C46", "title": "Canonical decomposition is complete", "statement": "With the shipped NFC data getDecomposition never raises, its result contains no character that decomposes further, and it equals the exhaustive expansion of getRawDecomposition.", "quantifier": "all code points with the shipped data", "why_tests_cant": "Whole-domain law over packed data.", "anchors": ["UnicodeData/Normalizer2.py: Normalizer2.getDecomposition, getRawDecomposition", "UnicodeData/Norm2NFCData.py"]}
{"id": "C47", "title": "Extra data strings decode as UTF-16", "statement": "stringFromData applied to the UTF-16 encoding of any list of scalar values returns that list.", "quantifier": "all lists of scalar values, at any offset in the extra data", "why_tests_cant": "Unbounded strings.", "anchors": ["UnicodeData/Normalizer2.py: Normalizer2.stringFromData"]}
{"id": "C48", "title": "Group lengths decode", "statement": "expandGroupLengths decodes the nibble encoding of any 32 string lengths (0..75) into those lengths, their running offsets, and the position after the encoding.", "quantifier": "all sequences of 32 lengths", "why_tests_cant": "76^32 inputs with carry of half-consumed nibbles.", "anchors": ["UnicodeData/CharNames.py: Group.expandGroupLengths"]}
{"id": "C49", "title": "Group lookup is exact", "statement": "getGroup(code) returns the group whose code block contains code if there is one, else None.", "quantifier": "all non-empty sorted group tables, all codes", "why_tests_cant": "Binary search over arbitrary tables.", "anchors": ["UnicodeData/CharNames.py: CharNames.getGroup"]}
{"id": "C50", "title": "Algorithmic names are injective", "statement": "Within an algorithmic range, different code points have different names: hex-suffixed names for every range and factorised names when the element lists are uniquely decodable.", "quantifier": "all ranges, all pairs of code points", "why_tests_cant": "Quadratic in unbounded ranges.", "anchors": ["UnicodeData/CharNames.py: AlgorithmicRange.getName, factorSuffix"]}
{"id": "C51", "title": "Name iteration is complete and agrees with lookup", "statement": "nameIterator yields exactly the (code, name) pairs with non-empty getCharName(code) name, in ascending order, for every well-formed name table.", "quantifier": "all well-formed name tables", "why_tests_cant": "Depends on interplay of groups, ranges and 32-steps.", "anchors": ["UnicodeData/CharNames.py: CharNames.nameIterator, getCharName"]}
{"id": "C52", "title": "charFromName inverts getCharName", "statement": "If name = getCharName(c) is non-empty and no other code has it then charFromName(name) = c; if no code has the name the result is 0xFFFFFFFF.", "quantifier": "all well-formed name tables, all names", "why_tests_cant": "Depends on completeness of iteration for arbitrary tables.", "anchors": ["UnicodeData/CharNames.py: CharNames.charFromName"]}
{"id": "C53", "title": "Token expansion stops at the field end and is total", "statement": "expandString expands tokens and literal bytes up to the first semicolon; for extended names, leading semicolons are skipped first, so that the first field which is not empty is expanded; it never raises for well-formed token tables.", "quantifier": "all byte strings and well-formed token tables", "why_tests_cant": "Unbounded strings.", "anchors": ["UnicodeData/CharNames.py: Tokens.expandString, Group.expandName"]}
{"id": "C54", "title": "Data item lookup finds the stored item", "statement": "After loading a data file image containing a table of contents, getDataOffset(name) is the offset recorded for that name for every item, and unknown names raise KeyError.", "quantifier": "all well-formed file images", "why_tests_cant": "Unbounded tables and names.", "anchors": ["UnicodeData/ICUDataFile.py: ICUData._populateData, getName, getString, getDataOffset"]}
{"id": "C55", "title": "Loading is idempotent", "statement": "Constructing ICUData any number of times leaves the loaded image and offsets as after the first time.", "quantifier": "all construction histories", "why_tests_cant": "Histories.", "anchors": ["UnicodeData/ICUDataFile.py: ICUData.__init__, _populateData"]}
{"id": "C56", "title": "Character attributes override group attributes", "statement": "getCharProperty(p) is the char element's attribute if present, else the group's attribute, else the empty string.", "quantifier": "all elements and property names", "why_tests_cant": "Any attribute set.", "anchors": ["UnicodeData/UCDProperties.py: UCDProperties.getCharProperty, getBooleanProperty"]}
{"id": "C57", "title": "Code point list properties parse back", "statement": "getCodePointsProperty and dmToString return the characters whose hexadecimal code points are listed, and the character itself for '' or '#'.", "quantifier": "all lists of code points", "why_tests_cant": "Unbounded lists.", "anchors": ["UnicodeData/UCDProperties.py: UCDProperties.getCodePointsProperty", "UnicodeData/DecompProperties.py: DecompProperties.dmToString"]}
{"id": "C58", "title": "Argument processing accepts exactly the complete option sets", "statement": "forArguments succeeds exactly when each of --sourceDir, --buildDir, --outputDir is given once with a non-empty value, in any order, and the result does not depend on the order.", "quantifier": "all argument lists", "why_tests_cant": "Unbounded argument lists.", "anchors": ["module_builder/ModuleBuilder.py: ModuleBuilderArgs.processArguments, processArgument, completeInit"]}
{"id": "C59", "title": "Generated dictionaries contain one line per mapped value row", "statement": "generateDictionaries emits, per property type and in file order, exactly one line for each 'value' row of a known type whose long name is not mapped to the empty string.", "quantifier": "all row sequences", "why_tests_cant": "Unbounded files.", "anchors": ["module_builder/UCDReader.py: UCDReader.generateDictionaries"]}
{"id": "C60", "title": "Header reader strips comments and conditionals", "statement": "nextLine never returns text from inside a block comment, a conditional section or a full-line comment, joins continued #defines, and consumes the file.", "quantifier": "all header files", "why_tests_cant": "A line-by-line state machine over unbounded input.", "anchors": ["module_builder/HeaderToPtyhon.py: HeaderFile.nextLine"]}
{"id": "C61", "title": "Case round trips", "statement": "toUpper(toLower(c)) = toUpper(c) except for exactly six code points, toLower(toUpper(c)) = toLower(c) except for exactly twenty-three; toUpper(toTitle(c)) = toUpper(c) always; lower-casing after upper-casing is stable.", "quantifier": "all code points with the shipped data", "why_tests_cant": "A law over the whole domain with an exact exception list.", "anchors": ["UnicodeData/CaseProps.py: toLower, toUpper, toTitle"]}
{"id": "C62", "title": "Case mappings agree with general categories", "statement": "toUpper fixes every Lu, toLower every Ll, toTitle every Lt; a code point changed by a simple mapping is Lu, Ll, Lt, Nl, So or U+0345.", "quantifier": "all code points with the shipped data", "why_tests_cant": "Relates two independently packed tries on every code point.", "anchors": ["UnicodeData/CaseProps.py: toLower, toUpper, toTitle", "UnicodeData/CharProps.py: getGeneralCategory"]}
{"id": "C63", "title": "Named blocks are intervals", "statement": "If two code points have the same block other than \"no block\", every code point between them has that block.", "quantifier": "all code points with the shipped data", "why_tests_cant": "A relation between all triples of code points.", "anchors": ["UnicodeData/CharProps.py: getBlock"]}
{"id": "C64", "title": "Unknown script and zero age are exactly the unassigned", "statement": "getScript(c) is Zzzz exactly for unassigned, private-use and surrogate code points; getAge(c) is 0.0 exactly for unassigned code points without Noncharacter_Code_Point.", "quantifier": "all code points with the shipped data", "why_tests_cant": "Relates two independently packed tries on every code point.", "anchors": ["UnicodeData/CharProps.py: getScript, getAge, getGeneralCategory"]}
{"id": "C65", "title": "Binary properties agree with the category", "statement": "Letters and Nl are Alphabetic, Mn/Me are Grapheme_Extend, Sm is Math, Pd is Dash; Grapheme_Base and Grapheme_Extend split the code points outside C*, Zl, Zp; White_Space is the separators and some controls and differs from isspace on U+001C..U+001F only; Noncharacter_Code_Point holds exactly for the 66 non-characters.", "quantifier": "all code points with the shipped data", "why_tests_cant": "Relates two independently packed tries on every code point.", "anchors": ["UnicodeData/CharProps.py: getBinaryProp, isAlphabetic, isUWhiteSpace, isspace"]}
{"id": "C66", "title": "Containments between binary properties", "statement": "XID_Start within XID_Continue within ID_Continue, XID_Start within ID_Start within ID_Continue, ASCII_Hex_Digit within Hex_Digit, Unified_Ideograph within Ideographic, Pattern_White_Space and Pattern_Syntax disjoint; emoji presentation, modifier and modifier base characters are emoji, modifiers are not bases.", "quantifier": "all code points with the shipped data", "why_tests_cant": "Whole-domain set relations.", "anchors": ["UnicodeData/CharProps.py: getBinaryProp, isEmoji, isEmojiPresentation, isEmojiModifier, isEmojiModifierBase"]}
{"id": "C67", "title": "Decimal digits come in tens and numbers have values", "statement": "A decimal digit of value d is one of ten consecutive decimal digits with values 0..9 in order; every Nd, Nl, No character has a numeric value.", "quantifier": "all code points with the shipped data", "why_tests_cant": "Relates neighbouring code points everywhere in the tables.", "anchors": ["UnicodeData/CharProps.py: digitValue, isDigit, getNumericValue"]}
{"id": "C68", "title": "Bidi data agree with the category", "statement": "Opening paired brackets are Ps and closing ones Pe; NSM characters are Mn or Me and Me are NSM; explicit formatting characters are Cf; class B is Cc or Zp; EN and AN are numbers, Cf or Po; Mc has class L; bracket and quotation punctuation has class ON.", "quantifier": "all code points with the shipped data", "why_tests_cant": "Relates two independently packed tries on every code point.", "anchors": ["UnicodeData/BidiProps.py: getPairedBracketType, getCharDirection", "UnicodeData/CharProps.py: getGeneralCategory"]}
{"id": "C69", "title": "The numeric encoding is decoded exactly", "statement": "numericValueFromProps returns the integer, fraction, mantissa times power of ten, multiple of a power of 60, twentieth or thirty-second that the type-value field encodes, and None for 0 and reserved values.", "quantifier": "all property words", "why_tests_cant": "The power-of-ten loop runs over an exponent; every field value matters.", "anchors": ["UnicodeData/CharProps.py: numericValueFromProps"]}
{"id": "C70", "title": "The numeric type tells numbers from others", "statement": "getNumericType(c) is a key of numberTypeNames, None exactly for characters without numeric value and De exactly for decimal digits.", "quantifier": "all code points with the shipped data", "why_tests_cant": "Whole-domain characterisation.", "anchors": ["UnicodeData/CharProps.py: getNumericType, numericTypeFromProps"]}
{"id": "C71", "title": "Further character classes", "statement": "isISOControl is exactly category Cc; isBlank is exactly tab and Zs; isHexDigit is exactly the decimal digits and the ASCII and full-width letters A to F; isalnumPOSIX is exactly Alphabetic or Nd.", "quantifier": "all code points with the shipped data", "why_tests_cant": "Whole-domain characterisation.", "anchors": ["UnicodeData/CharProps.py: isISOControl, isBlank, isHexDigit, isalnumPOSIX"]}
{"id": "C72", "title": "Shipped data decompose Hangul algorithmically", "statement": "With the shipped NFC data getDecomposition and getRawDecomposition of each Hangul syllable give the standard jamo sequences.", "quantifier": "all Hangul syllables with the shipped data", "why_tests_cant": "Relates the trie content of 11172 code points to arithmetic.", "anchors": ["UnicodeData/Normalizer2.py: getDecomposition, getRawDecomposition", "UnicodeData/Norm2NFCData.py"]}
{"id": "C73", "title": "Extended names exist for all codes and differ", "statement": "Outside the algorithmic ranges getCharName(c, U_EXTENDED_CHAR_NAME) is '<category-HEX>' with a category from the table of category names, never 'unknown', which says the general category of the code point in the standard in words, and different codes get different names; noncharacters and lead and trail surrogates have categories of their own.", "quantifier": "all codes, all name tables", "why_tests_cant": "All pairs of codes, and every category the shipped tables give.", "anchors": ["UnicodeData/CharNames.py: CharNames.getCharName, getCharCat, getCharCatName"]}
{"id": "C74", "title": "Stored names are read back", "statement": "getString(offset) is the text stored there before its zero byte; getName(offset) is the text after the first slash and raises ValueError when there is none.", "quantifier": "all data files, offsets and texts", "why_tests_cant": "Unbounded texts at any position.", "anchors": ["UnicodeData/ICUDataFile.py: ICUData.getString, getName"]}
{"id": "C75", "title": "Character records load", "statement": "CharacterData(char, group) succeeds for every record with well-formed attributes; all its parts have the record's code point; combining class, numeric value, mirrored glyph, paired bracket, case mappings and decompositions are the values written in the record; '#' in the name stands for the code point.", "quantifier": "all well-formed char and group elements", "why_tests_cant": "Any combination of attributes in the two elements.", "anchors": ["UnicodeData/CharacterData.py: CharacterData", "UnicodeData/BidiProperties.py: BidiProperties", "UnicodeData/CaseProperties.py: CaseProperties", "UnicodeData/DecompProperties.py: DecompProperties"]}
{"id": "C76", "title": "Record fields hold what their names say", "statement": "Each field of a record holds the UCD attribute that it is named after: texts as they are, binary properties as true exactly when the value is Y, lists split at spaces; every case mapping field, simple title case included, holds the mapped characters.", "quantifier": "all records, all fields", "why_tests_cant": "Any record.", "anchors": ["UnicodeData/BinaryProperties.py: BinaryProperties, propsList", "UnicodeData/CaseProperties.py: CaseProperties", "UnicodeData/CharacterData.py: CharacterData", "UnicodeData/DecompProperties.py: DecompProperties", "UnicodeData/BidiProperties.py: BidiProperties", "UnicodeData/IndicProperties.py: IndicProperties"]}
{"id": "C77", "title": "Translated headers define the constants of the C header", "statement": "translate writes, in order, one Python assignment for each #define with a value that is not ignored and takes no arguments, and one for each enumerator, whose value is the one C gives it: its expression, otherwise one more than the enumerator before, starting from 0.", "quantifier": "all headers", "why_tests_cant": "Unbounded headers and enumerations; the numbering depends on all enumerators before.", "anchors": ["module_builder/HeaderToPtyhon.py: HeaderFile.translate, firstToken, getTrailingComment"]}
{"id": "C78", "title": "Layout properties come from the data file", "statement": "Importing the layout properties from a data file whose item ulayout.icu holds the tries of the Indic positional category, the Indic syllabic category and the vertical orientation makes getInPC, getInSC and getVO return, for every code point, the value that the respective trie stores; where the file stores no trie for a property the import works and the values are 0.", "quantifier": "all data files with such an item, all tries and code points", "why_tests_cant": "Unbounded files, arbitrary trie contents, every code point.", "anchors": ["UnicodeData/LayoutProps.py: getInPC, getInSC, getVO", "UnicodeData/ICUDataFile.py: ICUData", "UnicodeData/CPTrie.py: CPTrie.createFromData"]}
{"id": "C79", "title": "Normalization data read from a file", "statement": "createFromFileData(package) makes a normalizer with exactly the indexes, the trie and the extra data of the item <package>.nrm of the data file; with an item that holds the shipped NFC tables its decompositions are those of the normalizer made from the hard-coded data.", "quantifier": "all data files with such an item, all code points", "why_tests_cant": "Unbounded files and every code point; the data file is not part of the tests.", "anchors": ["UnicodeData/Normalizer2.py: Normalizer2.createFromFileData, createFromHardCodedData, getDecomposition, getRawDecomposition"]}
{"id": "C80", "title": "Code lists and sets print losslessly", "statement": "listOfCodes writes every code as an upper case hexadecimal numeral with at least four digits, separated by ', ', and the text reads back as the same codes; str of a UnicodeSet is a bracketed list of 0x numerals that reads back as its range boundaries, so sets with different boundaries have different texts.", "quantifier": "all lists of codes, all sets", "why_tests_cant": "Lists of any length and codes of any size.", "anchors": ["UnicodeData/Utilities.py: listOfCodes", "UnicodeData/UnicodeSet.py: UnicodeSet.__str__"]}
{"id": "C81", "title": "Names come from the data file", "statement": "When the item unames.icu of the data file holds tokens, sorted groups of 32 tokenised strings and sorted disjoint ranges, the names can be loaded, and getCharName returns for a code point of a range the prefix and the padded hexadecimal code, or the prefix and the words of its factorisation; for any other code point of a group the expansion of its string (or, for the other name choices, of the respective field); and the empty name for the rest.", "quantifier": "all such data files, all code points", "why_tests_cant": "Unbounded files, any tokens, strings, ranges and padding, every code point.", "anchors": ["UnicodeData/CharNames.py: CharNames.populateData, getCharName, Tokens.populateData, Group, AlgorithmicRange", "UnicodeData/ICUDataFile.py: ICUData"]}
{"id": "C82", "title": "Arguments outside the code space act like the nearest code point", "statement": "add, addRange, removeRange, retainRange and complementRange with arguments outside 0..0x10FFFF act like the same call with the arguments moved to the nearest code point, and a range whose end is before its start is empty and changes nothing.", "quantifier": "all sets, all integer arguments", "why_tests_cant": "Every integer below 0 and above 0x10FFFF and every set.", "anchors": ["UnicodeData/UnicodeSet.py: _pinCodePoint, UnicodeSet.add, addRange, removeRange, retainRange, complementRange"]}
{"id": "C83", "title": "The operators obey the laws of set algebra", "statement": "Two expressions built from sets with |, &, -, ^ and the complement that are equal by the laws of set algebra (commutativity, associativity, distributivity, De Morgan, ...) give sets with the same members, and these sets are ==.", "quantifier": "all expressions of any size, all assignments of sets to their variables", "why_tests_cant": "Infinitely many laws, expressions of any depth, every combination of sets.", "anchors": ["UnicodeData/UnicodeSet.py: UnicodeSet.__or__, __and__, __sub__, __xor__, __eq__, __ne__, union, intersection, difference, symmetric_difference, complement"]}
{"id": "C84", "title": "Generated arrays hold the elements of the C arrays", "statement": "For an array defined in a C source, arrayToPython adds one Python list with the same elements in the same order; only white space differs. When the array does not occur, it raises an error and adds nothing.", "quantifier": "all C sources, array names and initialisers", "why_tests_cant": "Unbounded sources and initialisers; the ICU sources are not part of the tests.", "anchors": ["module_builder/ModuleBuilder.py: ModuleBuilder.getArrayDeclaration, arrayToPython"]}
{"id": "C85", "title": "Generated trie constants are the fields of the C structure", "statement": "For a trie defined in a C source in the layout of ICU, one field on a line, on its own or as the first inner structure of a structure, the builder writes index_length, index_2_null_offset, data_null_offset, high_start and high_value_index with the values of the fields 3, 5, 6, 9 and 10 of the initialiser.", "quantifier": "all C sources, names and field texts", "why_tests_cant": "Unbounded sources and fields; the ICU sources are not part of the tests.", "anchors": ["module_builder/ModuleBuilder.py: ModuleBuilder.getPropsDeclaration, trieValues, trieValuesFromPropsDeclaration, trieValuesFromTrieDeclaration"]}
{"id": "C86", "title": "Generated scalars have the values of the C variables", "statement": "For a variable defined in a C source, scalarToPython adds a line that gives the name exactly the value of the definition.", "quantifier": "all C sources, names and values", "why_tests_cant": "Unbounded sources and values.", "anchors": ["module_builder/ModuleBuilder.py: ModuleBuilder.getScalarDeclaration, scalarToPython"]}
{"id": "C87", "title": "Generated data modules are complete", "statement": "From C sources that define the arrays, tries and variables, the builder makes the modules BidiPropsData, CharPropsData and CasePropsData with a header and exactly the definitions the library uses, in a fixed order, each with the value of the C source; the ICU version and the name of the data file come from the version header.", "quantifier": "all such C sources, all dates", "why_tests_cant": "Unbounded sources; running the builder needs an ICU source tree.", "anchors": ["module_builder/ModuleBuilder.py: build, ModuleBuilder.__init__, writeFile"]}
{"id": "C88", "title": "Hand-written and generated name tables agree", "statement": "For every natural number, the name dictionaries of Blocks, Boundaries, CharDirection, DecompositionType, EastAsianWidth, GeneralCategories, JoiningTypesAndGroups, LayoutTypes and Scripts give the same name as the corresponding dictionary of UCDTypeDictionaries, or neither has one.", "quantifier": "all natural numbers (no key is negative), all fifteen dictionaries", "why_tests_cant": "Each dictionary is used by different modules; no test compares them, and the keys are constants whose values are not written beside the names.", "anchors": ["UnicodeData/Blocks.py: blockNames", "UnicodeData/Boundaries.py", "UnicodeData/Scripts.py: scriptCodes", "UnicodeData/JoiningTypesAndGroups.py", "UnicodeData/LayoutTypes.py", "UnicodeData/UCDTypeDictionaries.py"]}
{"id": "C89", "title": "Hand-written constants have the values of the C headers", "statement": "Every constant that a hand-written module shares with a module generated from the C headers is the same integer in both.", "quantifier": "all 890 shared constants", "why_tests_cant": "A constant used in no test can be anything; an alias that is a tuple compares unequal to every code.", "anchors": ["UnicodeData/Blocks.py", "UnicodeData/Scripts.py", "UnicodeData/uchar_h.py", "UnicodeData/uscript_h.py"]}
{"id": "C90", "title": "Arguments act by their type", "statement": "UnicodeSet(x), x in set and complement(x) act on exactly the code points x stands for: none, a set, one code point, or the elements of a Python range; an argument of any other type raises TypeError and changes nothing.", "quantifier": "all sets, all arguments", "why_tests_cant": "Unbounded combinations of sets and range objects, including steps and empty ranges.", "anchors": ["UnicodeData/UnicodeSet.py: UnicodeSet.__init__, contains, __contains__, complement"]}
{"id": "C91", "title": "Comparison with any object", "statement": "set == x and set != x return a truth value for every Python object x, opposite to each other, and == is False when x is not a set.", "quantifier": "all sets, all objects", "why_tests_cant": "Sets are compared with arbitrary objects by containers.", "anchors": ["UnicodeData/UnicodeSet.py: UnicodeSet.__eq__, __ne__"]}
{"id": "C92", "title": "Classes of code points for normalization", "statement": "With the shipped NFC data, the normalizer's tests for conjoining jamo and Hangul syllables are true for exactly those code points: leading consonants U+1100–U+1112, vowels U+1161–U+1175 and trailing consonants U+11A8–U+11C2, syllables without and with trailing consonant. Lead surrogates are inert, and an inert code point has no decomposition.", "quantifier": "all code points", "why_tests_cant": "1.1 million code points and two encodings of the syllables in the table.", "anchors": ["UnicodeData/Normalizer2.py: Normalizer2.getNorm16, isJamoL, isJamoVT, isHangulLV, isHangulLVT, isInert", "UnicodeData/Norm2NFCData.py"]}
{"id": "C93", "title": "Lengths of canonical decompositions", "statement": "With the shipped NFC data, the raw decomposition of a code point has one or two code points and its full decomposition one to four.", "quantifier": "all code points with a decomposition", "why_tests_cant": "A wrong length in one mapping shows only for the code points that use it.", "anchors": ["UnicodeData/Normalizer2.py: Normalizer2.getDecomposition, getRawDecomposition", "UnicodeData/Norm2NFCData.py"]}
{"id": "C94", "title": "Generator tables and generated dictionaries fit", "statement": "The shipped type dictionaries are those of the generator's table of property types, in its order. Every key consists of the prefix of its type, an underscore and a name, and is a constant of the header modules. Every constant that the generator's mapping gives is a key; the names that it replaces or leaves out are not.", "quantifier": "all property types, all keys, all mappings", "why_tests_cant": "The relation is between every entry of three tables in different files.", "anchors": ["module_builder/UCDReader.py: prefix", "UnicodeData/UCDTypeDictionaries.py", "UnicodeData/uchar_h.py", "UnicodeData/uscript_h.py"]}
{"id": "C95", "title": "Binary properties are the sets of the standard", "statement": "For White_Space, Dash, Hyphen, Quotation_Mark, Hex_Digit, ASCII_Hex_Digit, Ideographic, Extender, IDS operators, Radical, Unified_Ideograph, Default_Ignorable_Code_Point, Deprecated, Logical_Order_Exception, Variation_Selector, Pattern_Syntax, Pattern_White_Space, Prepended_Concatenation_Mark, Extended_Pictographic, Emoji_Component, Emoji_Modifier and Emoji_Modifier_Base, getBinaryProp (and the calls named after them) is true for exactly the code points that Unicode 13.0 lists.", "quantifier": "all code points, the 23 properties", "why_tests_cant": "Tests look at single characters; a wrong boundary of a range shows only at that code point.", "anchors": ["UnicodeData/CharProps.py: getBinaryProp, isExtendedPictograph, isEmojiComponent, isEmojiModifier, isEmojiModifierBase", "UnicodeData/CharPropsData.py", "UnicodeData/uprops_h.py"]}
{"id": "C96", "title": "General categories are the sets of the standard", "statement": "For the general categories Lt, Me, Nl, Zs, Zl, Zp, Cc, Cf, Co, Cs, Pd, Pc, Sc, Sk, Pi and Pf, getGeneralCategory returns the category for exactly the code points that Unicode 13.0 lists.", "quantifier": "all code points, the 16 categories", "why_tests_cant": "A wrong boundary of a range shows only at that code point.", "anchors": ["UnicodeData/CharProps.py: getGeneralCategory", "UnicodeData/CharPropsData.py"]}
{"id": "C97", "title": "Bidi classes and controls are the sets of the standard", "statement": "For every bidi class except L, ON and NSM, getCharDirection returns the class for exactly the code points that Unicode 13.0 lists; isJoinControl, isBidiControl and getPairedBracketType likewise.", "quantifier": "all code points, the 20 classes", "why_tests_cant": "A wrong boundary of a range shows only at that code point.", "anchors": ["UnicodeData/BidiProps.py: getCharDirection, isJoinControl, isBidiControl, getPairedBracketType", "UnicodeData/BidiPropsData.py"]}
{"id": "C98", "title": "Blocks are the ranges of the standard", "statement": "For each of the 308 blocks, getBlock returns its number for exactly the code points from the start given in the comment beside its constant to the end given by Unicode 13.0.", "quantifier": "all blocks, all code points", "why_tests_cant": "616 boundaries.", "anchors": ["UnicodeData/CharProps.py: getBlock", "UnicodeData/Blocks.py", "UnicodeData/CharPropsData.py"]}
{"id": "C99", "title": "Break classes are the sets of the standard", "statement": "For the grapheme cluster, word, sentence and line break classes that the standard lists with few ranges (60 of them), the calls return the class for exactly the code points that Unicode 13.0 lists. Hangul syllables have the classes LV and H2 without trailing consonant, LVT and H3 with one, and no other code point has them.", "quantifier": "all code points, the 64 classes", "why_tests_cant": "A wrong boundary of a range shows only at that code point.", "anchors": ["UnicodeData/CharProps.py: getGraphemeClusterBreak, getWordBreak, getSentenceBreak, getLineBreak", "UnicodeData/CharPropsData.py"]}
{"id": "C100", "title": "Widths and decomposition types are the sets of the standard", "statement": "For the East Asian widths H, F and Na and ten decomposition types, getEastAsianWidth and getDecompType return the value for exactly the code points that Unicode 13.0 lists.", "quantifier": "all code points, the 13 values", "why_tests_cant": "A wrong boundary of a range shows only at that code point.", "anchors": ["UnicodeData/CharProps.py: getEastAsianWidth, getDecompType", "UnicodeData/CharPropsData.py"]}
{"id": "C101", "title": "Case mappings are those of the standard", "statement": "For every code point, toLower, toUpper and toTitle return its simple case mapping of Unicode 13.0, and toFullLower, toFullUpper and toFullTitle its unconditional full mapping, which is a list of code points.", "quantifier": "all code points", "why_tests_cant": "About 1400 letters with six mappings each; the code point without a mapping must be returned unchanged.", "anchors": ["UnicodeData/CaseProps.py: toLower, toUpper, toTitle, toFullLower, toFullUpper, toFullTitle", "UnicodeData/CasePropsData.py"]}
{"id": "C102", "title": "General categories are those of the standard", "statement": "For every code point, getGeneralCategory returns the number of its general category in Unicode 13.0, and the dictionary of names gives that number the name of the standard.", "quantifier": "all code points", "why_tests_cant": "1.1 million values; a wrong boundary of a range shows only at that code point.", "anchors": ["UnicodeData/CharProps.py: getGeneralCategory", "UnicodeData/CharPropsData.py"]}
{"id": "C103", "title": "Break classes are those of the standard", "statement": "For every code point, the grapheme cluster, word, sentence and line break calls return the number of its class in Unicode 13.0, and the dictionaries of names give these numbers the names of the standard.", "quantifier": "all code points", "why_tests_cant": "1.1 million values; a wrong boundary of a range shows only at that code point.", "anchors": ["UnicodeData/CharProps.py: getGraphemeClusterBreak, getWordBreak, getSentenceBreak, getLineBreak", "UnicodeData/CharPropsData.py"]}
{"id": "C104", "title": "Scripts are those of the standard", "statement": "For every code point, getScript returns the number of its script in Unicode 13.0, and the dictionary of names gives that number the name of the standard.", "quantifier": "all code points", "why_tests_cant": "1.1 million values; a wrong boundary of a range shows only at that code point.", "anchors": ["UnicodeData/CharProps.py: getScript", "UnicodeData/CharPropsData.py"]}
{"id": "C105", "title": "Widths and decomposition types are those of the standard", "statement": "For every code point, getEastAsianWidth and getDecompType return the numbers of its width and decomposition type in Unicode 13.0, and the dictionaries give these numbers the names of the standard.", "quantifier": "all code points", "why_tests_cant": "1.1 million values; a wrong boundary of a range shows only at that code point.", "anchors": ["UnicodeData/CharProps.py: getEastAsianWidth, getDecompType", "UnicodeData/CharPropsData.py"]}
{"id": "C106", "title": "Ages are those of the standard", "statement": "For every code point, getAge returns the major and minor number of the version of Unicode in which it was assigned, followed by two zeros, and four zeros if it is not assigned in Unicode 13.0.", "quantifier": "all code points", "why_tests_cant": "1.1 million values; a wrong boundary of a range shows only at that code point.", "anchors": ["UnicodeData/CharProps.py: getAge", "UnicodeData/CharPropsData.py"]}
{"id": "C107", "title": "Numeric values are those of the standard", "statement": "For every code point, getNumericValue returns the numeric value of Unicode 13.0 as an exact fraction, or None if it has none, and digitValue returns the value of the decimal digits and -1 for everything else.", "quantifier": "all code points", "why_tests_cant": "The values are packed in nine encodings; each must be decoded to the exact fraction.", "anchors": ["UnicodeData/CharProps.py: getNumericValue, digitValue", "UnicodeData/CharPropsData.py"]}
{"id": "C108", "title": "Bidi classes are those of the standard", "statement": "For every code point, getCharDirection returns the number of its bidi class in Unicode 13.0, with the defaults the standard sets for unassigned code points, and the dictionary gives that number the name of the standard.", "quantifier": "all code points", "why_tests_cant": "1.1 million values; a wrong boundary of a range shows only at that code point.", "anchors": ["UnicodeData/BidiProps.py: getCharDirection", "UnicodeData/BidiPropsData.py"]}
{"id": "C109", "title": "Joining types and groups are those of the standard", "statement": "For every code point, getJoiningType and getJoiningGroup return the numbers of its joining type and joining group in Unicode 13.0, and the dictionaries give these numbers the names of the standard.", "quantifier": "all code points", "why_tests_cant": "1.1 million values; a wrong boundary of a range shows only at that code point.", "anchors": ["UnicodeData/BidiProps.py: getJoiningType, getJoiningGroup", "UnicodeData/BidiPropsData.py"]}
{"id": "C110", "title": "Derived properties are the sets of the standard", "statement": "For the large binary properties (Alphabetic, identifiers, grapheme base and extend, ignorable, emoji and the others in the list), the property is true for exactly the code points that Unicode 13.0 lists. isAlphabetic, isEmoji and isEmojiPresentation are true for exactly the code points of their properties.", "quantifier": "all code points", "why_tests_cant": "1.1 million values; a wrong boundary of a range shows only at that code point.", "anchors": ["UnicodeData/CharProps.py: getBinaryProp, isAlphabetic, isEmoji, isEmojiPresentation", "UnicodeData/CharPropsData.py"]}
{"id": "C111", "title": "Noncharacters are those of the standard", "statement": "The noncharacter property is true for exactly the code points from U+FDD0 to U+FDEF and the last two code points of each plane.", "quantifier": "all code points", "why_tests_cant": "66 code points out of 1.1 million.", "anchors": ["UnicodeData/CharProps.py: getBinaryProp", "UnicodeData/CharPropsData.py"]}
{"id": "C112", "title": "Decompositions are those of the standard", "statement": "For every code point, getRawDecomposition returns its canonical decomposition mapping in Unicode 13.0 and getDecomposition its full canonical decomposition (the mappings applied until none applies); both return None for a code point without mapping.", "quantifier": "all code points", "why_tests_cant": "1.1 million code points, 13233 with a mapping; a wrong value shows only at that code point.", "anchors": ["UnicodeData/Normalizer2.py: getRawDecomposition, getDecomposition", "UnicodeData/Norm2NFCData.py"]}
{"id": "C113", "title": "Normalization classes are those of the standard", "statement": "For every code point c and v = getNorm16(c): isDecompYes(v) holds exactly if the standard has no canonical mapping for c; isMaybeOrNonZeroCC(v) exactly if c has none and has a combining class or is the second part of a composition; isInert(v) exactly if c has no mapping, no combining class and is no part of a composition.", "quantifier": "all code points", "why_tests_cant": "The classes are encoded as ranges of a number; a wrong limit shows only for the few code points beside it.", "anchors": ["UnicodeData/Normalizer2.py: getNorm16, isDecompYes, isMaybeOrNonZeroCC, isInert", "UnicodeData/Norm2NFCData.py"]}
{"id": "C114", "title": "Mirrors and brackets are those of the standard", "statement": "For every code point, isMirrored answers whether it has the property Bidi_Mirrored in Unicode 13.0, getMirror returns the code point of BidiMirroring.txt (or its argument), and getPairedBracket the one of BidiBrackets.txt (or its argument).", "quantifier": "all code points", "why_tests_cant": "1.1 million code points; mirrors are encoded as small differences or as indices into a second table.", "anchors": ["UnicodeData/BidiProps.py: isMirrored, getMirror, getPairedBracket", "UnicodeData/BidiPropsData.py"]}
{"id": "C115", "title": "What a build leaves in the output directory", "statement": "build reads its sources below the ICU source and build directories and writes eleven files into the output directory, in a fixed order. It succeeds if and only if all of them can be made; otherwise it fails with the first fault in that order, the outputs before the faulty one are complete, and nothing else on the disk has changed. Arguments that are refused end it with nothing written. If the output directory is the one above the ICU sources, it never succeeds.", "quantifier": "all disks, directories and arguments", "why_tests_cant": "The outcome depends on the contents of ten source files and on which of them are missing; tests run one good tree.", "anchors": ["module_builder/ModuleBuilder.py: build", "module_builder/HeaderToPtyhon.py: HeaderFile.__init__, HeaderFile.writeFile"]}
{"id": "C116", "title": "A build that is interrupted", "statement": "If the machine stops at any moment during build, some of the outputs are complete, at most one has only the beginning of its contents, and every other file is as it was before.", "quantifier": "all disks, and every point at which the execution can stop", "why_tests_cant": "Every operation is a possible crash point.", "anchors": ["module_builder/ModuleBuilder.py: build", "module_builder/HeaderToPtyhon.py: HeaderFile.writeFile"]}
{"id": "C117", "title": "The module made from a header", "statement": "The module made from the header NAME.h consists of a docstring with both names and the date, the extra code, and then the lines for the constants and enumerators of the header; the line that opens the include guard of the header, with the name NAME_H with or without two underscores on either side, does not hide them.", "quantifier": "all headers of the supported layout, all names", "why_tests_cant": "The include guard is found by a pattern made from the name of the header; only four headers are ever tried.", "anchors": ["module_builder/HeaderToPtyhon.py: HeaderFile.__init__, HeaderFile.translate, HeaderFile.writeFile"]}
{"id": "C118", "title": "What an installation does", "statement": "install copies all Python files of a directory to UnicodeData and the data file and the licence to UnicodeData/Data, whatever the order in which they are listed; it changes nothing else, and succeeds if and only if the data file and the licence exist and the directory is not one of the targets. After a successful build it installs every file that build made, with the contents that it made.", "quantifier": "all disks, directories and orders of listing", "why_tests_cant": "The order of a directory listing is not determined; source and target can overlap.", "anchors": ["module_builder/ModuleInstaller.py: install", "module_builder/ModuleBuilder.py: build"]}
{"id": "C119", "title": "An installation that is interrupted", "statement": "If install is stopped at any moment, or fails, some files are in place, at most one has only the beginning of its contents, and every other file is as it was before.", "quantifier": "all disks, directories, orders of listing, and every point at which the execution can stop", "why_tests_cant": "Every operation is a possible crash point.", "anchors": ["module_builder/ModuleInstaller.py: install"]}
{"id": "C120", "title": "Numeric values are rounded once", "statement": "For every code point that has a numeric value, getNumericValue returns the double nearest to the exact value of the standard: the loops and divisions of the decoding do not add a second rounding error.", "quantifier": "all code points, every correct rounding of rationals to doubles", "why_tests_cant": "Multiplying by powers of ten in floating point can round more than once; that it never does must hold for all values of all encodings.", "anchors": ["UnicodeData/CharProps.py: getNumericValue"]}
{"id": "C121", "title": "Integers that are no code points are looked up as unassigned", "statement": "A lookup of any integer outside 0..10FFFF yields the error value of the trie, so that no such integer has properties of a character.", "quantifier": "all integers, all tries of both formats", "why_tests_cant": "Unbounded integer domain; Python counts negative indices from the end of a list, so that the outcome depends on the data.", "anchors": ["UnicodeData/Utrie2.py: UTrie2.get, indexRaw", "UnicodeData/CPTrie.py: CPTrie.get", "UnicodeData/CharProps.py: getGeneralCategory, ispunct, getNumericValue"]}
{"id": "C122", "title": "Iterating while sets change", "statement": "An iteration over a set delivers the members that the set has when it begins, each once, in ascending order, whatever happens to this set, to other sets and to other iterations between the calls of next; it ends, and every value it delivers was a member.", "quantifier": "all interleavings of calls on any number of sets with next of any number of iterators", "why_tests_cant": "The generator reads the list again at every range, so that the outcome depends on the schedule.", "anchors": ["UnicodeData/UnicodeSet.py: UnicodeSet.__iter__"]}
{"id": "C123", "title": "Every line of the property file is one row", "statement": "The reader of ppucd.txt sees each line of the file as one row, split at the semicolons, and an empty line as an empty row, whatever the ends of the lines are; no file makes it fail.", "quantifier": "all texts, lines and fields", "why_tests_cant": "The reader is a state machine over arbitrary text; a single quotation mark changes the meaning of everything after it.", "anchors": ["module_builder/UCDReader.py: UCDReader.__init__, generateDictionaries"]}
{"id": "C124", "title": "Character classes select the categories of the standard", "statement": "Each of the functions isLower, isUpper, isTitle, isDigit, isalpha, isalnum, isDefined, isbase, iscntrl, isPrint, isgraph, isGraphPOSIX, isPrintPOSIX, ispunct, isJavaSpaceChar, isspace, isWhiteSpace, isIDStart, isJavaIDStart, isIDPart, isJavaIDPart, isBlank, isHexDigit and isISOControl returns for every code point, and is true exactly for the code points whose general category in Unicode 13.0 is in its list, with the stated exceptions.", "quantifier": "all code points", "why_tests_cant": "There are 1114112 code points for each of 24 functions, and a test of the functions against the library's own categories does not see an error in both.", "anchors": ["UnicodeData/CharProps.py: isLower ... isISOControl", "UnicodeData/CharPropsData.py: propsTrie_index"]}
{"id": "C125", "title": "Threads that load the data file at the same time", "statement": "When several threads construct ICUData objects at the same time, every construction returns, and every item of the data file can be looked up as soon as the construction of the thread that looks has returned.", "quantifier": "all data files, all numbers of threads, all interleavings of their steps", "why_tests_cant": "The outcome depends on the schedule; a test sees one of them, and the bad ones are rare.", "anchors": ["UnicodeData/ICUDataFile.py: ICUData.__init__, _populateData, getDataOffset, getData", "UnicodeData/Normalizer2.py: Normalizer2.createFromFileData"]}
{"id": "C126", "title": "The generated module of dictionaries is the Python text of the property file's values", "statement": "The file UCDTypeDictionaries.py that the builder makes from ppucd.txt is, behind its header, Python text that assigns one dictionary for each known property type, in the order in which the types first occur, and the dictionary has one entry for each value line of the type: the constant for the long name and the text for the short name.", "quantifier": "all property files, with fields written plainly or between quotation marks", "why_tests_cant": "The text is put together without escapes, so whether it says what was meant depends on every character of every line.", "anchors": ["module_builder/UCDReader.py: UCDReader.generateDictionaries, UCDReader.writeFile"]}
{"id": "C127", "title": "Texts in upper and lower case", "statement": "Replacing every character of a text by its full upper case gives a text that the same replacement leaves alone; the same holds for lower case. A text whose characters were replaced by their title case has the same upper case as the text itself. (Title case is not stable in this sense, because it is applied to every character.)", "quantifier": "all texts of any length over all code points", "why_tests_cant": "The mappings depend on special casings of single code points and compose over texts of any length.", "anchors": ["UnicodeData/CaseProps.py: toFullUpper, toFullLower, toFullTitle"]}
{"id": "C128", "title": "Masks of general categories", "statement": "For every code point, the bit U_MASK(getGeneralCategory(c)) is set in the mask U_GC_XX_MASK (and GC_XX_MASK) exactly if the general category of c in the standard is XX, belongs to the group with the single letter XX, or for LC is that of a cased letter. Both modules have masks for all categories and groups.", "quantifier": "all code points, all masks of both modules", "why_tests_cant": "38 masks in two modules times all code points; a wrong bit shows only for one category.", "anchors": ["UnicodeData/uchar_h.py: U_MASK, U_GC_*_MASK", "UnicodeData/GeneralCategories.py: GC_*_MASK", "UnicodeData/CharProps.py: getGeneralCategory, gcMask"]}
{"id": "C129", "title": "Constants for property values mean what their names say", "statement": "For every code point, the calls for general category, bidi class, joining type and group, grapheme cluster, word, sentence and line break, East Asian width, decomposition type, script and block return the value of the constant whose name is the long name of the property value that the standard gives the code point (with the prefix of the property, in capitals), or the name that ICU has for it where it differs; the dictionary entry of that constant has the short name of the value.", "quantifier": "all code points, twelve properties, all constants that occur", "why_tests_cant": "Relates headers, dictionaries and tables for every code point; a pair of constants swapped in a header shows only for code points with these values.", "anchors": ["UnicodeData/UCDTypeDictionaries.py", "UnicodeData/uchar_h.py", "UnicodeData/uscript_h.py", "UnicodeData/CharProps.py", "UnicodeData/BidiProps.py"]}
{"id": "C130", "title": "Constants of a header have their C values after import", "statement": "For every C header, importing the Python module that is made from it gives every macro with a value and every enumerator the value that the C compiler gives it (macros replaced, operators by precedence, int arithmetic), texts in quotation marks their characters, and binds no other names but those of the extra code.", "quantifier": "all headers, all expressions of numbers, names, calls, parentheses, unary and binary operators of any size", "why_tests_cant": "Expressions and headers are unbounded, and a wrong precedence or numbering shows only for particular expressions; only four headers are ever translated.", "anchors": ["module_builder/HeaderToPtyhon.py: HeaderFile.translate, HeaderFile.writeFile", "module_builder/ModuleBuilder.py: build"]}
{"id": "C131", "title": "The shipped modules of constants import and give the dictionaries their keys", "statement": "The shipped uchar_h, uscript_h, uprops_h and ucase_h modules can be imported; every key of every dictionary of UCDTypeDictionaries is bound by the modules it imports, no two keys of a dictionary are equal, and each key, mask and bit-field constant has the number that the properties above are proved about.", "quantifier": "all lines of the five shipped files, all keys of all dictionaries, all masks and bit-field constants that the library uses", "why_tests_cant": "A test reads the entries it asks for; a missing name, a second key with the same number or a later name that hides an earlier one changes only other entries.", "anchors": ["UnicodeData/uchar_h.py", "UnicodeData/uscript_h.py", "UnicodeData/uprops_h.py", "UnicodeData/ucase_h.py", "UnicodeData/UCDTypeDictionaries.py"]}
{"id": "C132", "title": "Generated data modules have the numbers of the C arrays after import", "statement": "For every C source, importing the Python module that is made from it binds each array that the module is made from to the list of exactly the numbers of the C initialiser, in order, and each constant to the number of the C field, and nothing else; and the trie that the lookup classes build from the module answers every lookup as the C arrays and fields say.", "quantifier": "all C sources, all arrays of any length and layout, all numbers, all lookups", "why_tests_cant": "The arrays have thousands of numbers; a row that is joined wrongly, a number that is read in another base or a field that is taken from the wrong place changes the answers for a few code points only.", "anchors": ["module_builder/ModuleBuilder.py: ModuleBuilder.arrayToPython, ModuleBuilder.trieValues, build", "UnicodeData/BidiProps.py", "UnicodeData/CaseProps.py", "UnicodeData/CharProps.py", "UnicodeData/Utrie2.py: UTrie2.__init__"]}
{"id": "C133", "title": "The shipped data modules hold the tables", "statement": "The shipped BidiPropsData, CasePropsData, CharPropsData and Norm2NFCData modules can be imported; each of their names is bound to exactly the numbers that the properties of characters are proved about, no other names are bound, and the tries made from them answer every lookup as those properties say.", "quantifier": "all lines of the four shipped files, all numbers of all arrays, all code points", "why_tests_cant": "The files have about ninety thousand numbers on nearly seven thousand lines; one wrong character changes the answers for a few code points only.", "anchors": ["UnicodeData/BidiPropsData.py", "UnicodeData/CasePropsData.py", "UnicodeData/CharPropsData.py", "UnicodeData/Norm2NFCData.py", "UnicodeData/BidiProps.py: bidiPropsTrie", "UnicodeData/CaseProps.py: casePropsTrie", "UnicodeData/CharProps.py: propsTrie, propsVectorTrie", "UnicodeData/Normalizer2.py"]}
{"id": "C134", "title": "The character properties as the shipped text computes them", "statement": "The shipped CharProps module, with the modules that it imports, can be imported, and each of its functions then returns for every argument the value or raises the exception that the other properties of this list say; in particular getGeneralCategory and getNumericValue give every code point its general category and its numeric value, rounded once, in Unicode 13.0.", "quantifier": "all 69 functions of the file, all natural numbers as arguments, all ways of rounding floats that keep rounded numbers", "why_tests_cant": "There are more than a million code points, seventy functions and, for the functions on property words and indexes, no bound on the arguments; a test cannot tell that a transcription of the code agrees with the code.", "anchors": ["UnicodeData/CharProps.py: all functions", "UnicodeData/Utrie2.py: UTrie2.get", "UnicodeData/Utilities.py", "UnicodeData/Characters.py", "UnicodeData/GeneralCategories.py", "UnicodeData/CharPropsData.py", "UnicodeData/uprops_h.py", "UnicodeData/uscript_h.py"]}
{"id": "C135", "title": "The utilities and the bidi properties as the shipped texts compute them", "statement": "The shipped Utilities and BidiProps modules, with the modules that they import, can be imported, and each of their functions (apart from listOfCodes, which is C80) then returns for every argument the value or raises the exception that the other properties of this list say; in particular surrogatesFromChar and charFromSurrogates are inverse, and BidiProps gives every code point its joining type, joining group, mirror and paired bracket of Unicode 13.0, and every one but U+10FFFF its bidi class.", "quantifier": "all functions of the two files, all integers (Utilities) and all natural numbers (BidiProps) as arguments", "why_tests_cant": "There are more than a million code points and no bound on the arguments of the functions on property words; a test cannot tell that a transcription of the code agrees with the code.", "anchors": ["UnicodeData/Utilities.py: isUnicodeNoncharacter, isSurrogate, isLead, isTrail, charFromSurrogates, surrogatesFromChar, arithmeticShift, highBit", "UnicodeData/BidiProps.py: all functions", "UnicodeData/BidiPropsData.py", "UnicodeData/uchar_h.py", "UnicodeData/Utrie2.py: UTrie2.get"]}
{"id": "C136", "title": "The case mappings as the shipped text computes them", "statement": "The shipped CaseProps module, with the modules that it imports, can be imported, and each of its functions then returns for every argument the value or raises the exception that the other properties of this list say; in particular toLower, toUpper, toTitle, toFullLower, toFullUpper and toFullTitle give every code point its simple and full case mappings of Unicode 13.0.", "quantifier": "all 15 functions of the file, all natural numbers (and both Booleans for toUpperOrTitle) as arguments", "why_tests_cant": "There are more than a million code points, and no bound on the arguments of the functions on property and exception words; a test cannot tell that a transcription of the code agrees with the code.", "anchors": ["UnicodeData/CaseProps.py: all functions", "UnicodeData/CasePropsData.py", "UnicodeData/Utilities.py: arithmeticShift", "UnicodeData/Utrie2.py: UTrie2.get"]}
{"id": "C137", "title": "The canonical decompositions as the shipped texts compute them", "statement": "The shipped Normalizer2 module, with the modules that it imports, can be imported up to the two statements that read the data file of ICU, and each method of the object nfcTrie then returns for every argument the value or raises the exception that the other properties of this list say; in particular getRawDecomposition and getDecomposition give every code point its canonical decomposition mapping and its full canonical decomposition of Unicode 13.0. This does not depend on what the two statements store.", "quantifier": "all methods of the class but the two that construct objects, all natural numbers (and all integers for the functions on Hangul syllables and on positions in the data) as arguments, all values of the other two objects", "why_tests_cant": "There are more than a million code points, and no bound on the arguments of the methods on classes and positions; a test cannot tell that a transcription of the code agrees with the code.", "anchors": ["UnicodeData/Normalizer2.py: Normalizer2, nfcTrie", "UnicodeData/CPTrie.py: CPTrie.__init__, CPTrie.get", "UnicodeData/Norm2NFCData.py", "UnicodeData/Utilities.py: isLead, charFromSurrogates"]}
{"id": "C138", "title": "Programs with UnicodeSet objects, as the shipped text executes them", "statement": "The shipped UnicodeSet module can be imported, and every program that constructs sets and calls their methods and operators, with any integers and sets as arguments, returns the objects and values or raises the exceptions that the other properties of this list say, also when the same set is used twice or is changed by several calls. In particular, after a legal program `c in x` is True for exactly the code points that the calls put in the set (apart from the calls that do nothing by the findings of C06), size, iteration, charAt and indexOf speak of the same members, and no call changes a set that is not its receiver.", "quantifier": "all sequences of calls of the constructor, the methods and the operators, all integer arguments, all states of other objects in memory", "why_tests_cant": "There is no bound on the length of a program or of the lists; aliasing bugs show only in particular histories; and a test cannot tell that a transcription of the code agrees with the code.", "anchors": ["UnicodeData/UnicodeSet.py: UnicodeSet", "UnicodeData/UnicodeSet.py: _pinCodePoint"]}
{"id": "C139", "title": "Character names, as the shipped text computes them", "statement": "The shipped CharNames module can be imported, and for whatever tokens, groups and ranges the data file holds, getCharName, with and without a name choice, getCharCat, getCharCatName, getGroup, expandName, expandString, and charInRange, factorSuffix and getName of the algorithmic ranges return the texts or raise the exceptions that the other properties of this list say. What nameIterator yields to its end, or raises, and what charFromName returns where that iteration raises nothing, are also as the other properties say: for the name tables and choices of C51 the pairs of the iteration are exactly the code points and the non-empty names that getCharName returns for them, in ascending order, and charFromName returns the first code point with the name. In particular getCharName(c) is the name that the data file gives to c, by its range or by its string, and the empty text for code points without a name.", "quantifier": "all data files with names, all code points, all name choices, all names, all strings of bytes, all recursion limits from some number on", "why_tests_cant": "The data file is not part of the repository and may hold any tokens and strings; and a test cannot tell that a transcription of the code agrees with the code.", "anchors": ["UnicodeData/CharNames.py: CharNames.getCharName", "UnicodeData/CharNames.py: Tokens.expandString", "UnicodeData/CharNames.py: Group.expandName", "UnicodeData/CharNames.py: AlgorithmicRange.getName", "UnicodeData/CharNames.py: CharNames.nameIterator", "UnicodeData/CharNames.py: CharNames.charFromName"]}
{"id": "C140", "title": "Enumerating the trie of the normalizer, as the shipped text does it", "statement": "For the shipped CPTrie and Normalizer2 modules: nfcTrie.trie.enumerator(start, limit) with start < limit <= 0x1000 yields ranges that are contiguous from start to limit, whose neighbours have different values, and nfcTrie.trie.get(c) returns the value of the range that holds c. With start <= 0xFFFF and a limit above start and above 0x1000, and so without arguments, the iteration neither ends nor raises. In general the iteration of any such trie yields, raises or goes on for ever as the other properties of this list say.", "quantifier": "all starts and limits, all numbers of steps of the execution", "why_tests_cant": "A test cannot observe that an iteration never ends, nor try all windows; and a test cannot tell that a transcription of the code agrees with the code.", "anchors": ["UnicodeData/CPTrie.py: CPTrie.enumerator", "UnicodeData/CPTrie.py: CPTrie.get", "UnicodeData/Normalizer2.py: nfcTrie"]}
{"id": "C141", "title": "Texts whose characters are decomposed", "statement": "Replacing every character of a text by nfcTrie.getDecomposition of it (the character itself where that returns None) never raises. The result is what is left when the canonical decomposition mappings of Unicode 13.0 are applied to the text as long as one applies; the same replacement leaves it alone; it has at least as many characters as the text and at most four times as many; and it is the text itself exactly if no character of the text has a mapping. Two texts have the same result exactly if one becomes the other by replacing characters by their mappings and mappings by their characters, in any number and order.", "quantifier": "all texts, all pairs of texts, all chains of replacements", "why_tests_cant": "There are infinitely many texts, and infinitely many chains of replacements between them.", "anchors": ["UnicodeData/Normalizer2.py: Normalizer2.getDecomposition", "UnicodeData/Normalizer2.py: nfcTrie", "UnicodeData/Norm2NFCData.py"]}
{"id": "C142", "title": "Case mappings respect canonical decompositions", "statement": "If one text becomes another by replacing characters by their canonical decomposition mappings and mappings by their characters, then so do their upper cases (every character replaced by toFullUpper of it), and so do their lower cases (toFullLower). The decomposition of the upper or lower case of a text is that of the upper or lower case of its decomposition. Title case has no such property: U+1F80 and its decomposition become different texts.", "quantifier": "all pairs of texts that decompositions link, all texts", "why_tests_cant": "It relates two modules with separate tables for infinitely many texts.", "anchors": ["UnicodeData/CaseProps.py: toFullUpper, toFullLower, toFullTitle", "UnicodeData/Normalizer2.py: Normalizer2.getDecomposition", "UnicodeData/CasePropsData.py", "UnicodeData/Norm2NFCData.py"]}
