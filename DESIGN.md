# Formal model of ermader/UnicodeData in Lean 4

## Method

The Python code in `/repo` is read as text and modelled function by function as total Lean functions. Nothing of `/repo` is
run.

* A Python `int` is `Int`, or `Nat` where the file header of the model says so (code point arguments of the data lookups).
* A list or tuple of integers is a `List`, or an `Arr` (length and entries) when it is a large constant table. Indexing follows
  Python: an index outside raises.
* A `str` is the list of its code points (`Str`); a `bytes` object is the list of its bytes.
* Exceptions are values: a function that can raise returns `Py α = Except PyErr α`.
* `while` loops become structural recursion on the list that is consumed, or recursion on a fuel argument with the separate
  result `diverges`. That a result is obtained is then a termination proof; that every fuel runs out is a proof of
  non-termination (C29).
* Generators become the list of yielded values, with the exception that ends them where one can occur (`Gen`).
* `UnicodeSet` objects are modelled twice: as the value of their list, and as references into a heap of lists, which is where
  sharing (C16) and return values (C18) are stated.

Layout under `lean/Verif`:

* `Model/*`: the code. Each definition cites the lines it models.
* `Spec/*`: specifications, written from the documented meaning or the file format, without the model's functions.
* `Props/*`: the theorems of the properties, each followed by an example that meets its hypotheses.
* `Lemmas/*`: proof support.
* `Data/*`: the tables of `/repo`, generated.

A property that the code violates has a theorem `…_refuted`, which proves a counterexample, and a theorem `…_partial`, which
proves what does hold. A theorem over all code points of a shipped table is proved by a kernel computation over the whole
table (`decide +kernel` on a Boolean function that visits every row or range) and a lemma that lifts it to every code point.

## Trusted base

* The kernel of Lean 4.33.0. No other checker, no compiled code.
* Axioms: `propext`, `Classical.choice`, `Quot.sound`, and no others. `AXIOMS.md` lists the axioms of each claimed theorem; it
  is written by `tools/axioms.py` from `#print axioms`.
* The faithfulness of each definition in `Model/*` to the lines it cites, and the reading of Python in `Model/Py.lean`,
  `Model/PyStr.lean`, `Model/Text.lean`, `Model/Bytes.lean`.
* `tools/gen_data.py`, `tools/gen_tables.py`, `tools/gen_keys.py`, `tools/gen_text.py`, `tools/gen_datatext.py`, `tools/gen_source.py` and `tools/tables.py`, which transcribe the tables of `/repo` into `Data/*`.
  The dictionaries of `Data/Names` and `Data/Keys` need no trust: C131 derives them from the texts of the files, which `tools/gen_text.py` copies
  character by character. In the same way the tables of `Data/Bidi`, `Data/Case`, `Data/CharProps` and `Data/Norm2` are derived by C133 from the
  texts that `tools/gen_datatext.py` copies (but for `caseFlagsOffset`, which is in `CaseProps.py`).
* The lists in `Spec/*Sets`, `Spec/*Map(s)`, `Spec/Blocks`, `Spec/Decompositions` and `Spec/Mirrors` as a transcription of
  Unicode 13.0, whose files are not in the sandbox. `Spec/Decompositions` and `Spec/Mirrors` were made from the tables that come
  with Perl. The others, except for the case mappings, were first decoded from the shipped tables, and then compared with the tables of
  Unicode 15.0 that come with Perl by `tools/check_spec.py`. A code point of age 13.0 or less must have the value of 15.0, with
  the exceptions listed there (`CHANGED…`, 26 values that later versions changed, and three blocks); any other code point must
  have the default value. What the comparison cannot see is an error at one of these exceptions.
* Libraries that are not part of the repository, as stated in the models:
  * `struct` and fontTools' `sstruct` with formats without byte order: native sizes on a little-endian machine, no padding.
  * FontDocTools' `ArgumentIterator`: an iterator whose `nextExtra` takes the next element if it is acceptable; which
    elements are acceptable is a parameter (`okExtra`).
  * `csv`: the state machine of CPython's `_csv.c` is written down in `Model/Csv`, without the limit of the field size. `xml`: elements are their attributes. `str.upper`, `str.lower`: parameters. `eval` is a parameter except in C130, where it and the execution of
    a module of constants are the part of Python written down in `Model/PyExpr`; modules of numbers and lists are executed by `Model/PyLists` (C132).
    The functions of CharProps.py, BidiProps.py, CaseProps.py and Utilities.py (without `listOfCodes`), the methods of Normalizer2.py that do not
    read files, `CPTrie.get` and `CPTrie.enumerator`, all of UnicodeSet.py but `dump`, and all of CharNames.py but what reads the file (`populateData`, the constructors, `expandGroupLengths`) are read and executed by `Model/PySyntax`
    and `Model/PyRun` (C134 to C140; `Model/PyHeap` for UnicodeSet.py), so that for them not the transcriptions in `Model/CharProps`, … are trusted but these two: a lexer, a parser (it gives the trees that Python's own parser gives, `Data/Syntax`) and an
    interpreter that is `stuck` on everything it does not model. Its simplifications are listed at the top of `Model/PyRun` and `Model/PyHeap`.
  * `re`: the patterns that are used are modelled one by one; `\w` for ASCII.
  * `int(text)`: ASCII digits only.

## What is modelled

| file in `/repo` | model | not modelled |
|---|---|---|
| `UnicodeData/UnicodeSet.py` | `Model/UnicodeSet`, `Model/UnicodeSetArgs`, `Model/UnicodeSetHeap`, `Model/UnicodeSetIter`, `Model/Hex` (`__str__`); `Model/PyHeap`, `Model/USetProgram` | test code, `dump`; operator overloads are the calls they make |
| `UnicodeData/Utilities.py` | `Model/Utilities`, `Model/Hex` (`listOfCodes`) | `_object` |
| `UnicodeData/Utrie2.py` | `Model/Utrie2`, `Model/AnyInt` | test code |
| `UnicodeData/CPTrie.py` | `Model/CPTrie`, `Model/CPTrieBytes`, `Model/AnyInt` | test code |
| `UnicodeData/BidiProps.py`, `BidiPropsData.py` | `Model/BidiProps`, `Data/Bidi` | unused constants |
| `UnicodeData/CaseProps.py`, `CasePropsData.py` | `Model/CaseProps`, `Data/Case` | unused constants |
| `UnicodeData/CharProps.py`, `CharPropsData.py` | `Model/CharProps`, `Model/NumericFloat`, `Data/CharProps` | the rounding of a rational to a double, which is an argument (C120); Python's `/` and `*` are trusted to round correctly |
| `UnicodeData/Normalizer2.py`, `NFCData.py` | `Model/Normalizer2`, `Model/LayoutProps` (`createFromFileData`), `Data/Norm2` | fields that are never read |
| `UnicodeData/LayoutProps.py` | `Model/LayoutProps` | the path of the data file |
| `UnicodeData/CharNames.py` | `Model/CharNames`, `Model/NamesProgram` | `charOffsetInRange` (not used), timing and test code |
| `UnicodeData/ICUDataFile.py` | `Model/ICUDataFile`, `Model/ICUDataThreads` | opening the file: its contents are an argument |
| `UCDProperties.py`, `DecompProperties.py`, `CaseProperties.py`, `BidiProperties.py`, `BinaryProperties.py`, `IndicProperties.py`, `CharacterData.py` | `Model/UCD` | the XML parser |
| the dictionaries of names and constants (`Blocks.py`, `Boundaries.py`, `GeneralCategories.py`, `Scripts.py`, `UCDTypeDictionaries.py`, …) | `Data/Names`, `Data/Tables`, `Data/Keys`, `Model/CategoryMasks`, and lists in the models | constants no header defines |
| `module_builder/ModuleBuilder.py` | `Model/BuilderArgs`, `Model/ModuleText`, `Model/Build` | directories, permissions, links, encodings; the date is an argument |
| `module_builder/UCDReader.py` | `Model/UCDReader`, `Model/Csv`, `Model/Build` | the limit of the field size in the csv reader |
| `module_builder/HeaderToPtyhon.py` | `Model/Header`, `Model/Build` | as for `ModuleBuilder.py` |
| `module_builder/ModuleInstaller.py` | `Model/Build` | the listing of the directory is an argument; file times |

The contents of `icudata.dat` are not in the repository, so what is read from it is universally quantified.

## Plan per property

| id | modelled | proof |
|----|----------|-------|
| C01–C04 | merge loops `_addList`, `_retainList`, `_exclusiveOrList` branch by branch on list tails | induction on the two tails with an invariant relating the output buffer to membership parity |
| C05 | `complement()` list surgery | parity lemma |
| C06 | one step function for all mutators, many sets | refinement to sets of code points, induction over the history |
| C07 | `add` (6 cases), `addRange` (fast paths, slow path) | case analysis with split lists |
| C08 | `remove`, `retain`, `complement(int)` | refuted (strict comparison); exact behaviour |
| C09 | range versions | corollaries of the merge theorems |
| C10, C11 | `__eq__`, strict ascending form | canonical ⇒ extensional; preservation by each operation; union refuted |
| C12–C14 | `size`, `__iter__`, `getRanges`, `indexOf`, `charAt` | induction on range pairs |
| C15 | `contains(range)` | on canonical lists; refuted on reachable others |
| C16 | heap of lists, object → reference | frame lemma per operation, induction over histories |
| C17 | fuelled loops | enough fuel always exists and no exception results |
| C18, C19 | return values; arguments out of range | exact characterisation, refutations |
| C20–C24 | `Utilities.py` | bit arithmetic, `omega` |
| C25–C27 | `UTrie2` | specification of the format, lemmas about any trie, whole-table computation |
| C28–C30 | `CPTrie` | same; non-termination for every fuel |
| C31–C33, C68 | `BidiProps` with the shipped tables | whole-table computation |
| C34–C37, C61, C62 | `CaseProps` with the shipped tables | same; slot arithmetic for all tables |
| C38–C43, C63–C67, C69–C71 | `CharProps` with the shipped tables | same; predicates by case analysis over all categories |
| C44–C47, C72 | `Normalizer2` | arithmetic; shipped NFC tables; UTF-16 round trip by induction |
| C48–C53, C73 | `CharNames`, for any names | induction, binary search invariant, mixed radix arithmetic |
| C54, C55, C74 | `ICUDataFile`, for any file | induction over the table of contents |
| C56, C57, C75, C76 | UCD records | list induction, numerals |
| C58 | arguments of the module builder | fold over arguments |
| C59 | dictionaries | fold over rows |
| C60, C77 | header reader and translator | induction over lines; refutations for layouts it does not handle |
| C78, C79 | layout properties and normalization data from a file | composition of C54, C30 and C28 |
| C80 | printing of codes | numerals, splitting and joining |
| C81 | names from a file | composition of C54, C48–C50, C53 |
| C82 | arguments outside the code space | case analysis; refutation by evaluation |
| C83 | set expressions | induction over expressions from C01–C05, C10 and C11 |
| C84–C87 | the module builder's text functions | first occurrence and shortest match by induction over the text |
| C88, C89 | name dictionaries, constants | kernel computation over all entries, lifted to every key |
| C90, C91 | arguments by type | case analysis on the argument from C05, C09, C10 and C15 |
| C92, C93 | `Normalizer2` with the shipped tables | scan of the whole trie, lifted to every code point |
| C94 | generator tables, keys of the dictionaries as numbers | kernel computation over all entries, lifted to every key |
| C95, C110, C111 | `CharProps` with the shipped tables | a scan of the trie compares 32 code points at a time with lists of ranges (`Spec/BinarySets`, `Spec/DerivedSets`), both ways |
| C101 | `CaseProps` with the shipped tables | scan of the trie for code points that map to themselves, and a walk over the runs of mappings (`Spec/CaseMaps`) for the others |
| C102–C109 | `CharProps`, `BidiProps` with the shipped tables | the runs of equal values in the standard (`Spec/*Map(s)`) are walked together with the slices of the trie |
| C96, C97, C99, C100 | same | the sets of single values, from the complete maps C102–C108 |
| C98 | same | the ends of each block, and C63 between them |
| C112, C113 | `Normalizer2` with the shipped tables | the sets of the standard (`Spec/Decompositions`) as numbers, one bit for each code point; a scan of the trie compares its classes with these bits, and each mapping is computed |
| C114 | `BidiProps` with the shipped tables | each entry of `Spec/Mirrors` is computed; a scan of the trie finds no other mirror or bracket |
| C115, C116, C118, C119 | `build` and `install` as programs that yield a list of disk operations | both follow a plan, a list of paths with contents or faults (`Lemmas/BuildPlan`); induction over the plan gives the result and every state in between |
| C117 | the contents of a module made from a header | C77, and the pattern of the include guard |
| C120 | `getNumericValue` with a rounding function after every division and product | the exact map (C107) over all encodings; at most 9·5^21 < 2^53, so products are exact |
| C121 | `get` of both tries for integers, with Python's negative indices | case by case; the refutation and the limit of `IndexError` by evaluation of the shipped table |
| C122 | `__iter__` as a generator object with its suspended loops, schedules of calls, `iter` and `next` | induction over the schedule; the frame property of C16; a measure for the end |
| C123 | the state machine of `csv.reader` with the arguments of `UCDReader.py` | induction over the lines and fields of a text, plain or between quotation marks; an invariant of the states |
| C124 | the class predicates of `CharProps.py` and the ranges of Spec/CategoryMap | from C39, C71 and C102 |
| C125 | `_populateData` as a program of atomic accesses to the class attributes, schedules of any number of threads | an invariant of all reachable states; a rank for termination; a single thread refines to the sequential model |
| C126 | `generateDictionaries` and `writeFile` on the rows of the `csv` reader | a reader for the needed part of Python in the specification; induction over entries and dictionaries shows that it reads back what the rows say; composition with C115 and C123 for the files that a build leaves |
| C127 | the full case mappings applied to the characters of a text | the tables of the standard (C101) are checked against one another in the kernel; induction over texts |
| C128 | the masks of `uchar_h.py` and `GeneralCategories.py` | the 30 numbers times the 38 groups of the standard in the kernel, with C102 |
| C129 | `Data/Names` (values of the keys) with `Data/Keys` (their names) and the calls for properties | the long names of the standard (`Spec/ValueNames`) against both tables in the kernel, for the values that occur in the runs of C102–C109 |
| C130 | Python's `eval` and `import` for constants (`Model/PyExpr`) on the modules of C117 | the grammar of C with values (`Spec/CExpr`), by induction: tokens, precedence climbing, `& \| ^ ~` against 32-bit vectors; replacement of macros keeps values of primary texts; C117 |
| C131 | the texts of the four header modules and of `UCDTypeDictionaries.py`, line by line (`Data/Text`); `importModule`, `readDictionaries` | the kernel executes the texts piece by piece; pieces are put together by monotonicity of evaluation in the names; dictionaries by the reader theorem of C126 |
| C132 | Python's `import` of numbers and lists (`Model/PyLists`) on the modules of C87; the tries of the lookup classes (`Model/DataModules`) | initialisers as a grammar (`Spec/CInit`); the reader token by token, by induction; C84, C85, C87 and the trie theorem |
| C133 | the texts of the four data modules, line by line (`Data/DataText`); `importModule` (`Model/PyLists`), `trieOf` | the kernel writes every row of every table down as a line and compares it with the line of the file; the import theorem of C132 reads the lines |
| C134 | the texts of CharProps.py and of all modules it imports (`Data/Source`, C131, C133); a parser (`Model/PySyntax`) and an interpreter (`Model/PyRun`) for the Python they use; the imports (`Model/Library`) | the kernel parses the texts and runs the imports; each function is executed symbolically, for all arguments, and compared with the model; loops by induction |
| C135 | the texts of Utilities.py and BidiProps.py and of what they import, executed as in C134 | as C134; `highBit` and the search in the mirrors by induction over the loop; then composed with C20 to C24, C108, C109, C114 |
| C136 | the text of CaseProps.py and of what it imports, executed as in C134 | as C134; the loop over the characters of a full mapping by induction; then composed with C101 |
| C137 | the texts of CPTrie.py and Normalizer2.py and of what they import, executed as in C134 | as C134; the loop of `stringFromData` by induction; then composed with C112 |
| C138 | the text of UnicodeSet.py, parsed as in C134 and executed with a heap of lists and objects (`Model/PyHeap`) | symbolic execution of every method, loops by induction; a simulation relation between heaps and the model of C06 and C16; programs by induction; then composed with C06, C13, C14, C16 |
| C139 | the text of CharNames.py, parsed and executed as in C134, with what `populateData` stores as a parameter (`Model/NamesProgram`) | as C134; the loops of `expandString`, `getGroup`, `factorSuffix`, `getCharName` and the iterators by induction; generators are lists (eager); then composed with C51, C52 and C81 |
| C140 | the text of `CPTrie.enumerator`, executed as in C134, on the trie of C137 | as C134; the nested loops by induction against `enumValues`, `enumBlocks` and `enumLoop`; a pass of the main loop always ends, so that endless loops of the model are endless loops of the text; then composed with C29 |
| C141 | `getDecomposition` of the shipped data, mapped over texts | expansions of concatenations are concatenations of expansions, so the result is the unique expansion of the text (C112); links keep the expansion, and every text is linked to its expansion; `text_texts` has the same for the function executed from the text of Normalizer2.py (C137) |
| C142 | `toFullUpper`, `toFullLower` and `getDecomposition` of the shipped data, mapped over texts | code points without mapping: nothing to do; Hangul syllables, jamos and ideographs: no run of the case mappings meets their intervals; the other entries of the list of mappings: evaluated by the kernel, all of them; then by induction over the text, and C141 |

All properties are expressible in the model.

## Findings

Violations that are proved (`…_refuted` theorems); each is a consequence of the code as it stands:

* `UnicodeSet`: `remove(c)`, `retain(c)`, `complement(c)` of a single code point do nothing, and so do the range forms with
  equal ends (C08, C09); `union` and `addAll` can leave lists that are not canonical, so that equal sets compare unequal and
  `contains(range)` is wrong (C10, C11, C15); `addRange` returns `None` on its fast path (C18); values above U+10FFFF are
  members when U+10FFFF is (C19); the text of a set with negative boundaries is not readable (C80); arguments outside the
  code space are checked but not moved, which breaks the order of the list or raises `IndexError` (C82); `a | b == b | a` can be
  false (C83); changing a set while iterating over it repeats and skips members or raises `IndexError` (C122); the step of a range argument is ignored (C90); comparing with anything but a set raises (C91).
* `UTrie2.get(0x10FFFF)` is the error value, which shows in C41, C65, C97, C98, C106, C108 and C111; the enumerator disagrees
  with `get` and does not tile across group boundaries (C26, C27).
* Negative integers are looked up from the end of the tables: `ispunct(-1)` is true, `getNumericValue(-1)` is 0, and smaller
  ones raise `IndexError` (C121).
* `CPTrie`'s enumerator loops forever at U+1000 for fast tries, delivers ranges twice and nothing from `highStart` on (C29).
* `CharProps`: a bound check is off by one (C42), a computed answer is not returned (C43), the numeric type is the general
  category (C70), two character classes disagree with ICU's definition (C39).
* `CharNames`: the iteration disagrees with `getCharName` for extended names and skips short ranges (C51, C52); a truncated
  string raises (C53).
* UCD records: `simpleTitleCase` holds the text of the attribute (C76).
* `ICUData`: the constructor returns while another thread is still filling the table of offsets, so that lookups raise `KeyError` (C125).
* `UCDReader`: short names are written without escapes, so that one with quotation marks can make another entry (C126).
* `UCDReader`: a field of `ppucd.txt` that begins with a quotation mark swallows the lines that follow (C123).
* `LayoutProps`: a file without one of the three tries, which the documentation allows, makes the import fail (C78).
* `ModuleBuilder`: an array whose name ends with the wanted name is taken for it, an array without dimension or declared before
  its definition gets the elements of another (C84); a semicolon behind a variable becomes part of its value (C86); `build` fails part-way if the
  output directory is the one above the ICU sources (C115).
* Hand-written tables: five block names and one word break name differ from the generated ones (C88); seven alias constants are
  tuples because of a comma at the end of the line, so that they equal no code (C89).
* `HeaderToPtyhon`: comments in the middle of a line, nested conditionals, several enumerators on a line, and others (C60, C77); the value of a macro is copied as text, so a macro of a sum without
  parentheses gets another value where it is used, and suffixes, octal numbers and later macros break the import (C130, C132).

## Tests of the theorems

`seeded/LOG.jsonl` lists the wrong programs that were tried: one edit of one definition of the model each, with the theorems
that no longer hold and the theorems that were tightened.
