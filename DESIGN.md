# Design: a machine-checked model of jimlawton/h800

## Layout

* `properties.jsonl` - the properties, in terms of the Python API.
* `lean/Verif/Py.lean` - the fragment of Python used: exceptions as values, ints, `&`/`|`/shifts, slices, `strip`, `split`, dicts, `sorted`.
* `lean/Verif/Model/*.lean` - the code, function by function; each definition cites file and lines.
* `lean/Verif/Spec/*.lean` - the vocabulary of the statements. It uses data types of the model (and for histories its operations), not its helper functions.
* `lean/Verif/Lemmas/*.lean` - helper lemmas.
* `lean/Verif/Props/*.lean` - the property theorems, named after the property (`C01_...`), each with a concrete case.
* `lean/Verif/Tests/*.lean` - the project's own unit tests run against the model, as a check of fidelity. They are tests, not proofs; no property rests on them.
* `scripts/compare_python.py` - a random comparison of the model of Python's own functions with Python.
* `scripts/compare_tables.py` - a comparison of the tables of the model with those in `/repo`, which it parses as text.
* `MANIFEST.json` - property -> theorems. `seeded/LOG.jsonl` - mutation attempts.

## Modelling conventions

* The semantics is that of Python 3 (the Pipfile asks for 3.7).
* Exceptions are values: `Py a = Except PyErr a`. Mutators return `state x Except PyErr result`, so that the state left behind by an exception is visible.
* Python ints are `Int` (unbounded), and so are their decimal texts: the limit on digits that Python has since 3.11 is only in Model/DigitLimit, for genlines and genpages (C247); in the texts of exceptions (C182 to C185) a number with more than 4300 digits would make another ValueError; `&` and `|` are Mathlib's `Int.land`/`Int.lor` (infinite two's complement, as in Python); `<<`/`>>` are multiplication / floor division by `2^n` as the language reference defines them.
* Strings are `List Char`; dicts are association lists in insertion order; `sorted` is an insertion sort by code point.
* bool is identified with 0/1. Floats, keyword-argument plumbing, printing and warnings are not modelled unless a property is about them.
* Objects that can be reached in two ways (registers, register groups) are references into a store; other objects are values.
* Loops over iterators with a persistent cursor (`__next__`) carry the cursor in the state.
* The file system is a parameter `name -> Option text`, the text after the newline translation of `open` in text mode; the translation itself is in Model/Newlines (C200). Model/Disk has the files as bytes, with files that may not be opened and directories (C215 to C217): the encoding is UTF-8 with strict errors, a file that may be read may be written, the directory of a file that is written exists, and a name with a null character is taken for missing; listing is there without `--verbose`. Model/Crash has the single changes that listing and genpages make to the disk, for runs that are cut off after any byte (C223 to C225): the operating system keeps what was written in the order in which it was written; power failures are not modelled. Model/Parallel has runs of listing whose steps follow on each other in any order (C226): a byte is written at the end of the file, which is right as long as no two processes write the same file. Model/ParallelPages has runs of genpages (C239), which append pieces of any size to the file as it is by then; reading is one step. Model/Threads has calls of several threads on one bit-field (C238): reading and assigning the attribute `_value` are single steps. Model/Takers has calls of `next` by several threads on one memory bank (C240): reads and assignments of `_current` are single steps. Model/Clearers has calls of `clear` by several threads on one register group in the same way (C245). Model/FileClearers has those on one register file (C248). Model/Sharers has reads, fills and clears of one bank by several threads (C241): touching a word is a single step. Model/Encoded, Model/EncodedSym and Model/EncodedGen have the standard output, and the file of genpages, on a stream whose encoding lacks characters (C242, C244, C246), and Model/EncodedList such a listing file (C243): the lines are written whole or not at all.
* Python's recursion limit is a fuel parameter over which theorems quantify; `str.upper` and the external fuzzy matcher are parameters.

## Status of a property

* *proved*: the theorem states the property.
* *partial*: the code does not satisfy the property as stated (or a part is missing). Then `Cxx_statement` is the property, `Cxx_refuted` refutes it by a concrete witness, `Cxx_..._partial` is the part that holds, and often a theorem gives the exact behaviour.

## Per-property plan

*Modelled* names the functions the property is about; the functions they call are modelled too.

| Property | Status | Modelled | Proof |
|---|---|---|---|
| C01 | proved | `bitfield.py` `BitField.__getitem__`, `BitField._rindex`, `BitField._shift`, `BitField._checkIndex` | `testBit` of mask and shift at the computed position; the eight numbering/order cases by linear arithmetic |
| C02 | proved | `bitfield.py` `BitField.indices`, `BitField.lsb`, `BitField.msb`, `BitField._vindex`, `BitField._rindex`, `BitField._checkIndex` | the four index intervals by cases; membership in the list of indices against the check of `_checkIndex` |
| C03 | proved | `bitfield.py` `BitField.__setitem__` | `testBit` of `value or 1<<k` and `value & (maxval - 1<<k)` at every position |
| C04 | proved | `bitfield.py` `BitField.__getitem__`, `BitField._bitmask`, `BitField._lsbIndex`, `BitField._getRange` | `testBit` of the mask of a slice for all widths; shift by the position of its last bit |
| C05 | proved | `bitfield.py` `BitField.__setitem__`, `BitField._bitmask` | `testBit` of `(value & (maxval - mask)) or v<<sh` at every position |
| C06 | partial | `bitfield.py` `BitField.__getitem__`, `BitField.__setitem__`, `BitField._bitmask` | refuted by evaluation; the exact mask for LSB-left slices, then as C04 and C05 |
| C07 | proved | `bitfield.py` `BitField._checkRange`, `BitField._checkIndex` | case analysis over the checks, both directions, for integer and omitted bounds |
| C08 | partial | `bitfield.py` `BitField.__init__`, `BitField.value`, `BitField._checkValue`, `BitField.__setitem__` | refuted by evaluation; the four checks characterised as inequalities |
| C09 | proved | `bitfield.py` `BitField.__init__`, `BitField.__setitem__`, `BitField.set`, `BitField.clear`, `BitField.value` | induction over the history; each step is bounded by `Nat.or_lt_two_pow`-style lemmas |
| C10 | partial | `bitfield.py` `BitField.set`, `BitField.clear` | refuted by evaluation at index 0; other indices from C03 |
| C11 | partial | `bitfield.py` `BitField.isRange`, `BitField.isRangeSet`, `BitField.isRangeClr` | refuted by evaluation; results of the three methods from the slice value of C04 |
| C12 | proved | `bitfield.py` `BitField.__setitem__`, `BitField.value`, `BitField.set`, `BitField.clear` | case analysis over all operations: every error is raised before the assignment |
| C13 | proved | `bitfield.py` `BitField.__repr__` | the padded base-2 numeral as a list of bits, by induction over the width |
| C14 | proved | `bitfield.py` `BitField.isBit`, `BitField.isBitSet`, `BitField.isBitClr` | both methods reduced to the bit of C01 |
| C15 | proved | `word.py` `Word.__init__`, `Word.value` | the range check, and the slice 1..48 as a full-width write and read |
| C16 | proved | `word.py` `InstructionWord.__init__`, `InstructionWord.command` | four slice writes on disjoint fields, evaluated at symbolic values |
| C17 | proved | `word.py` `InstructionWord` | frame from C05 for each of the 4 x 4 pairs; history by induction, simulated by a record of four numbers |
| C18 | proved | `word.py` `InstructionWord` | Euclidean division by 4096, three times |
| C19 | partial | `word.py` `InstructionWord`; `bitfield.py` `BitField._checkValue` | refuted by evaluation; thresholds from C08 |
| C20 | proved | `registers.py` `Register.__init__`, `Register.value` | case analysis of the constructor; invariant of the register history |
| C21 | proved | `registers.py` `registerName`, `registerNumber`, `registerAlias` | the whole finite table by evaluation, lifted to all integers and strings by a lookup lemma |
| C22 | proved | `registers.py` `RegisterGroup.__getitem__` | invariant of group histories: the two keys of a register share one reference |
| C23 | partial | `registers.py` `RegisterGroup.__getitem__`, `ALIASES` | refuted for every state: no alias is a key of `REGISTERS` (evaluation of both tables) |
| C24 | proved | `registers.py` `Registers`, `RegisterGroup`, `Register` | simulation by an 8 x 32 table, induction over the history |
| C25 | partial | `registers.py` `RegisterGroup.clear`, `RegisterGroup.__next__`, `Registers.clear` | refuted by evaluation; effect of the loop from the cursor, by induction over the remaining registers |
| C26 | partial | `registers.py` `RegisterGroup.__iter__`, `RegisterGroup.__next__` | refuted by evaluation; the delivered list by induction over the remaining registers |
| C27 | partial | `registers.py` `RegisterGroup.__setitem__` | refuted by evaluation; exact dictionary after the assignment, and lookups through the reachable-state invariant |
| C28 | partial | `registers.py` `Registers.__setitem__`, `Registers.__getitem__` | refuted by evaluation; dictionary lemmas |
| C29 | proved | `memory.py` `MemoryBank` | simulation by a map address -> value, induction over the history |
| C30 | proved | `memory.py` `MemoryBank.__getitem__`, `MemoryBank.__setitem__` | reachable-state invariant (2048 words) and case analysis |
| C31 | partial | `memory.py` `MemoryBank.__setitem__` | refuted by evaluation; the effect of the loop by induction over the range |
| C32 | proved | `memory.py` `MemoryBank.__getitem__` | induction over the range |
| C33 | proved | `memory.py` `MemoryBank.clear` | induction over the range 0..2047 in an arbitrary reachable state |
| C34 | partial | `memory.py` `MemoryBank.__next__` | refuted by evaluation; the delivered list by induction over the rest |
| C35 | proved | `memory.py` `MemoryModule`, `ExpansionMemoryModule` | simulation per bank, induction over the history; sizes by arithmetic |
| C36 | partial | `memory.py` `MemoryBank.value` | refuted for every state: the call binds too few arguments |
| C37 | proved | `instruction.py` `Instruction.__init__`; `instructions.py` `make_masked_opcode` | the sequence of slice writes evaluated at symbolic operands for an arbitrary maskable record; then all rows of the table |
| C38 | proved | `instruction.py` `Instruction.__init__`; `instructions.py` `make_unmasked_opcode` | as C37 for unmasked records and every combination of direct/indirect bits |
| C39 | proved | `instruction.py` `Peripheral`, `Simulator`; `instructions.py` `make_peripheral_opcode`, `make_print_opcode` | as C37 for peripheral, print and simulator records |
| C40 | proved | `instruction.py` `Instruction` | the width invariant of the field and the range of each slice write |
| C41 | proved | `instruction.py` `Instruction._check` | the acceptance condition of `_check` and the constructor as an equivalence, by case analysis |
| C42 | partial | `instructions.py` `OPCODES`; `instructions_test.py` `test_machine_instructions` | refuted by evaluation; the codes of all forms as digit patterns, compared pairwise over the whole table and lifted to all operands |
| C43 | proved | `instruction.py` `Constant`; `instructions.py`  | case analysis of the constructor for each constant class |
| C44 | partial | `instructions.py` `OPCODES` | refuted by evaluation; all other rows by evaluation of the whole table |
| C45 | partial | `instruction.py` `PseudoInstruction`, `AssemblyControl` | refuted; the call fails for all arguments because a required argument cannot be passed |
| C46 | proved | `instructions.py` `print_instructions`; `opcodes.txt`  | evaluation of the whole table; sortedness and completeness lemmas for the sort; text compared with the file transcribed in the specification |
| C47 | proved | `instructions.py` `INSTRUCTIONS` | evaluation of all tables, lifted to all strings |
| C48 | proved | `charset.py` `CHARSET` | evaluation of the whole table, lifted to all integers |
| C49 | proved | `punchcard.py` `PunchCard.__init__` | induction over the layout |
| C50 | proved | `punchcard.py` `PunchCard.__init__`, `PunchCard.record` | induction over the layout and the names |
| C51 | proved | `punchcard.py` `PunchCard.__init__`; `arguscard.py` `Card.__init__` | slices of a line and of its prefix agree; induction over the layout |
| C52 | proved | `punchcard.py` `PunchCard` | case analysis of the constructors |
| C53 | proved | `arguscard.py` `Card.__init__` | characterisation of the prefix before the first comma |
| C54 | proved | `arguscard.py` `Card.__init__` | case analysis over column 1 |
| C55 | partial | `arguscard.py` `Card.__init__` | refuted by evaluation; slice arithmetic |
| C56 | proved | `punchcard.py` `Deck.__init__` | induction over the lines |
| C57 | proved | `punchcard.py` `Deck._readSource` | an inductive relation for the expansion; soundness and completeness by induction over fuel and derivation, uniqueness by induction over the derivation |
| C58 | partial | `punchcard.py` `Deck._readSource` | refuted by evaluation of the error; no derivation exists for a cyclic file (well-founded depth), exact error by fuel induction |
| C59 | proved | `punchcard.py` `Deck._readSource` | induction over the expansion relation |
| C60 | proved | `arguscard.py` `Deck.__init__` | induction over the cards |
| C61 | proved | `punchcard.py` `Deck.__str__`, `Deck.lines` | induction over the cards; `join` lemma |
| C62 | proved | `symbol_table.py` `SymbolTable.add`, `SymbolTable.lookup` | invariant over histories of calls |
| C63 | proved | `symbol_table.py` `SymbolTable` | invariant over histories of calls |
| C64 | partial | `symbol_table.py` `SymbolTable.pruneUndefines` | refuted by evaluation; the index loop by induction over the list; reachable tables through C63 |
| C65 | proved | `symbol_table.py` `SymbolTable.resolve` | case analysis of the passes with C63; induction over the passes for any table |
| C66 | partial | `symbol_table.py` `SymbolTable.update` | refuted; case analysis for all names and tables |
| C67 | proved | `symbol_table.py` `SymbolTableEntry` | case analysis of the constructor |
| C68 | proved | `symbol_table.py` `buildSymbolTable` | induction over the deck with the table as accumulator; last definition per key |
| C69 | proved | `symbol_table.py` `buildSymbolTable` | induction over the deck |
| C70 | proved | `symbol_table.py` `buildSymbolTable` | induction over the deck |
| C71 | partial | `symbol_table.py` `buildSymbolTable` | refuted by evaluation; last definition from C68, the check by induction over the deck |
| C72 | proved | `symbol_table.py` `buildSymbolTable` | induction over the deck and the list of files |
| C73 | proved | `symbol_table.py` `checkSymbolTable` | sortedness of the keys, filter lemmas |
| C74 | partial | `symbol_table.py` `getAbsoluteSymbols` | refuted by evaluation; the loop with its flag by induction over the segments |
| C75 | proved | `symbol_table.py` `findSymbolDef` | case analysis over found kinds |
| C76 | partial | `symbol_table.py` `findSymbolDef` | refuted by evaluation; counts by list induction; prefix and suffix by list lemmas |
| C77 | proved | `symbol_table.py` `findSymbolDef` | the matcher only returns candidates; C74 for the candidates |
| C78 | partial | `tools/genlines.py` `main` | refuted by evaluation; `range` with a step by arithmetic; errors by case analysis |
| C79 | proved | `tools/genlines.py` `main`; `punchcard.py` `PunchCard` | decimal numerals have the needed length; slices of the padded line |
| C80 | proved | `tools/check-instructions.py` `main` | induction over the files and cards |
| C81 | partial | `tools/check-instructions.py` `main` | refuted by evaluation; the percentage fails only for a zero divisor |
| C82 | proved | `tools/list-instructions.py` `main` | induction over the files and cards |
| C83 | partial | `tools/listing.py` `main` | refuted by evaluation; the target name equals the source iff it ends in `.lst`, by split/join lemmas |
| C84 | partial | `tools/parse.py` `main` | refuted by evaluation; the loop keeps the last count |
| C85 | proved | `tools/check-symbols.py` `main` | induction over the files with C70 and C73 |
| C86 | proved | `tools/genpages.py` `main` | induction over the page range |
| C87 | proved | `punchcard.py` `PunchCard.__init__`; `arguscard.py` `Card.__init__` | removing newlines is idempotent; slices agree |
| C88 | partial | `symbol_table.py` `SymbolTableEntry` | refuted; case analysis of the constructor |
| C89 | proved | `symbol_table.py` `SymbolTable.printTable`, `SymbolTable.printUndefs` | the invariant of C63: every printed name is a key |
| C90 | proved | `tools/check-instructions.py` `main` | counts as in C80, stability and sortedness of the sort |
| C91 | proved | `tools/check-instructions.py` `main` | counts as in C80, filter of the sorted table |
| C92 | proved | `tools/list-symbols.py` `main` | induction over the files with C68 and C69, sortedness of the three nested loops |
| C93 | proved | `tools/find-symbols.py` `main`; `symbol_table.py` `findSymbolDef` | option checks by cases; C75 and C76 for each symbol |
| C94 | proved | `tools/listing.py` `main` | induction over the files and cards |
| C95 | partial | `tools/genpages.py` `main`; `arguscard.py` `Deck` | refuted by evaluation; slices of the appended line, for non-blank column 8 |
| C96 | proved | `tools/genpages.py` `main` | case analysis: every error precedes the write |
| C97 | partial | `tools/genpages.py` `main` | refuted by evaluation; case analysis of all ends of the program |
| C98 | proved | `instructions.py` `OPCODES`; `instruction.py` `Instruction` | the comment table transcribed as specification; shape of every row by evaluation, then arithmetic over twelve digits for arbitrary operands |
| C99 | partial | `bitfield.py` `BitField.__getitem__`; `registers.py` `Register.__getitem__`; `memory.py` `MemoryModule.__getitem__` | refuted for every object; fuel induction for the delivered items |
| C100 | proved | `bitfield.py` `BitField.__getitem__`, `BitField.indices` | induction over the width |
| C101 | proved | `bitfield.py` `BitField.__setitem__`, `BitField.set`, `BitField.clear`, `BitField.value` | simulation by an array of bits, induction over the history |
| C102 | proved | `registers.py` `Register.__repr__`, `RegisterGroup.__repr__`, `Registers.__repr__` | numerals of fixed length; canonical register file over histories; injectivity of closed rows by list induction |
| C103 | proved | `memory.py` `MemoryBank.__repr__` | numerals of fixed length; injectivity by list induction |
| C104 | proved | `tools/list-symbols.py` `main`; `symbol_table.py` `buildSymbolTable` | a lemma for one loop level applied to the three nested loops |
| C105 | proved | `tools/list-symbols.py` `main`; `tools/check-symbols.py` `main`; `symbol_table.py` `buildSymbolTable` | last definition per key is invariant under permutation when segments differ; counts are sums |
| C106 | proved | `tools/list-symbols.py` `main`; `symbol_table.py` `buildSymbolTable` | last definition per key is invariant under repetition |
| C107 | proved | `tools/check-instructions.py` `main`; `tools/list-instructions.py` `main` | counts and messages are invariant under permutation of the cards |
| C108 | proved | `punchcard.py` `Deck.__str__`, `Deck.__init__`, `Deck._readSource` | cards of a file deck are newline-free texts (induction over the expansion); agreement per card lifted by list induction |
| C109 | proved | `punchcard.py` `Deck.__init__`, `Deck._readSource` | list induction over the lines |
| C110 | proved | `punchcard.py` `PunchCard.__init__`; `arguscard.py` `Card.__init__` | induction over the fields for arbitrary widths |
| C111 | proved | `memory.py` `MemoryModule.__getitem__`, `ExpansionMemoryModule.__getitem__` | induction over the range |
| C112 | partial | `memory.py` `MemoryBank.__getitem__`, `MemoryBank.__setitem__` | refuted by evaluation; the step does not occur in the result |
| C113 | proved | `assembler.py` `Assembler.createSymbolTable`; `symbol_table.py` `buildSymbolTable` | reduction to C68 and C69 by induction over the calls |
| C114 | partial | `assembler.py` `Assembler.resolve`, `Assembler.__init__` | refuted by evaluation; one pass by list induction, the passes by case analysis |
| C115 | proved | `context.py` `Context.load`, `Context.save` | case analysis of the attributes |
| C116 | partial | `context.py` `Context.__init__`, `Context.setLoc`, `Context.setCoLoc`, `Context.__str__` | refuted; case analysis for every context |
| C117 | proved | `registers.py` `Registers.__setitem__`, `Registers.__getitem__` | simulation by eight tables and eight references, induction over the history |
| C118 | proved | `instructions.py` `namedtuple_defaults` | binding of arguments by induction over the fields |
| C119 | proved | `bitfield.py` `BitField._rindex`, `BitField._vindex`, `BitField._lsbIndex`, `BitField._msbIndex` | the numbering/order cases by linear arithmetic |
| C120 | partial | `bitfield.py` `BitField.__len__`, `BitField.__int__`; `registers.py` `Register.__len__` | refuted by evaluation; width is an invariant of the history |
| C121 | partial | `tools/list-instructions.py` `main`; `tools/check-instructions.py` `main` | composition of C82 and C90 on the same expansion of the files; refuted by two one-line files |
| C122 | proved | `tools/find-symbols.py` `main`; `tools/list-symbols.py` `main` | both tools build the same table, by induction on the files; every symbol in it has a definition (invariant), and the rows printed are its definitions |
| C123 | proved | `tools/check-symbols.py` `main`; `tools/list-symbols.py` `main` | both tools build the same table; invariant: every definition in it has one of the two kinds, and the total is the sum of the errors of the files |
| C124 | proved | `instructions.py` `BinaryAdd`; `instruction.py` `Instruction.__init__`; `word.py` `InstructionWord`; `memory.py` `MemoryBank` | C29 with induction over the later operations; C16, C15 and C40 for the word |
| C125 | proved | `bitfield.py` `BitField.__setitem__`, `BitField.set`, `BitField.clear` | C101 refinement to an array of bits; steps on different bits commute, lifted to permutations |
| C126 | partial | `registers.py` `RegisterGroup.clear`, `Registers.clear`, `RegisterGroup.__next__`, `Registers.__next__` | simulation: the canonical file steps like the abstract file with positions, by induction on the history; refuted by clearing a group twice |
| C127 | proved | `symbol_table.py` `SymbolTableEntry.addReference`, `SymbolTable.lookup` | induction on the history, generalised to any starting table |
| C128 | partial | `punchcard.py` `Deck.__init__` | induction on the collected cards; for a list, comparison of lengths and of each line with its text; refuted by a comment line |
| C129 | proved | `punchcard.py` `PunchCard.__init__` | induction on the list of columns |
| C130 | partial | `context.py` `Context.reset`, `Context.load` | induction on the history, from its end; refuted by loading a record with a message |
| C131 | partial | `assembler.py` `Assembler.assemble` | case analysis; refuted by a file of one line |
| C132 | proved | `tools/list-instructions.py` `main`; `tools/list-symbols.py` `main`; `tools/check-symbols.py` `main`; `tools/find-symbols.py` `main`; `tools/check-instructions.py` `main`; `tools/parse.py` `main`; `punchcard.py` `Deck._readSource` | relational induction on fuel and lines: both decks have the same cards with code, all others are skipped by every loop |
| C133 | proved | `tools/genpages.py` `main`; `arguscard.py` `Deck.__init__` | no newline in log section and column 8 found, so each appended line is read back by itself; then C132 |
| C134 | partial | `charset.py` `CHARSET` | evaluation of the whole table of 64 codes; refuted at code 44 |
| C135 | proved | `instructions.py` `INSTRUCTIONS`, `OPCODES`, `CONTROL_INSTRUCTIONS`, `DATA_CONSTANTS`, `CONTROL_CONSTANTS`, `EXTENDED_INSTRUCTIONS`, `ARGUS_INSTRUCTIONS` | evaluation of both whole tables in both directions |
| C136 | proved | `charset.py` `CHARSET` | monotonicity of the whole table by evaluation, lifted to texts by induction on their length |
| C137 | proved | `tools/check-instructions.py` `main`; `tools/list-instructions.py` `main`; `tools/parse.py` `main` | induction on the list of files, tracing the output printed before the exception |
| C138 | proved | `tools/parse.py` `main`; `tools/check-instructions.py` `main` | induction on the list of files relating the two traces; relation of the last file's table to the error total |
| C139 | partial | `tools/check-instructions.py` `main` | error bound and monotonicity of rounding to 53 bits; distances of a fraction and of a double from a half, and the remainder by 25 of the totals where both are least; refuted by the least total |
| C140 | partial | `tools/genpages.py` `main` | one run leaves the information that the next one reads; induction on the number of runs; refuted by a concrete file |
| C141 | proved | `tools/check-instructions.py` `main`; `tools/list-instructions.py` `main`; `punchcard.py` `Deck._readSource` | induction on the lines of the file of include lines |
| C142 | partial | `bitfield.py` `BitField.__setitem__`, `BitField.set`, `BitField.clear`, `BitField.value` | refinement: every operation commutes with its effect on the array of bits, induction on the history; refuted by a concrete write |
| C143 | partial | `bitfield.py` `BitField.isRange`, `BitField.isRangeSet`, `BitField.isRangeClr` | closed form of the slice read and of the mask; refuted by concrete fields |
| C144 | proved | `tools/listing.py` `main` | each column of a listing line can be read back; the lines of the listing determine the source lines by induction |
| C145 | proved | `tools/listing.py` `main` | induction on the list of files |
| C146 | proved | `symbol_table.py` `buildSymbolTable` | induction on the cards with the list of messages so far; case analysis of the label |
| C147 | proved | `tools/check-symbols.py` `main`; `tools/list-symbols.py` `main`; `tools/find-symbols.py` `main`; `symbol_table.py` `buildSymbolTable` | induction on the list of files, tracing the output printed before the exception; C146 for each file |
| C148 | proved | `tools/list-instructions.py` `main` | each column of a detailed line can be read back; the lines determine the source lines by induction |
| C149 | proved | `tools/list-symbols.py` `main`; `symbol_table.py` `buildSymbolTable` | every printed line can be read back (no blank in file names and tags, newlines only at line ends); then C104 |
| C150 | proved | `punchcard.py` `Deck._readSource` | induction on the lines and the depth of include; uniqueness by induction on the derivation |
| C151 | proved | `tools/check-instructions.py` `main`; `tools/list-instructions.py` `main`; `tools/listing.py` `main`; `tools/check-symbols.py` `main`; `tools/find-symbols.py` `main`; `tools/list-symbols.py` `main`; `tools/parse.py` `main`; `punchcard.py` `Deck._readSource` | simulation: each step of the verbose run is a step of the plain run plus added messages; induction on cards and files |
| C152 | proved | `tools/check-instructions.py` `main`; `tools/list-instructions.py` `main`; `tools/listing.py` `main`; `tools/check-symbols.py` `main`; `tools/find-symbols.py` `main`; `tools/list-symbols.py` `main`; `tools/parse.py` `main` | induction on cards and files, with C150 for each file |
| C153 | proved | `tools/check-instructions.py` `main`; `tools/list-instructions.py` `main`; `tools/listing.py` `main`; `tools/check-symbols.py` `main`; `tools/find-symbols.py` `main`; `tools/list-symbols.py` `main`; `tools/parse.py` `main`; `tools/genlines.py` `main`; `tools/genpages.py` `main` | induction on the command line: the parser refines the relation that gives the meaning; uniqueness by induction on the derivation |
| C154 | proved | `tools/check-instructions.py` `main`; `tools/list-instructions.py` `main`; `tools/listing.py` `main`; `tools/check-symbols.py` `main`; `tools/find-symbols.py` `main`; `tools/list-symbols.py` `main`; `tools/parse.py` `main`; `tools/genlines.py` `main`; `tools/genpages.py` `main` | words before the first -- are dealt with one after the other (induction on the command line); the values are those of the meaning (C153) |
| C155 | proved | `tools/check-instructions.py` `main`; `tools/list-instructions.py` `main`; `tools/listing.py` `main`; `tools/check-symbols.py` `main`; `tools/find-symbols.py` `main`; `tools/list-symbols.py` `main`; `tools/parse.py` `main`; `tools/genlines.py` `main`; `tools/genpages.py` `main` | C153 and the set of values as a function of the set of options |
| C156 | partial | `tools/check-instructions.py` `main`; `tools/list-instructions.py` `main`; `tools/listing.py` `main`; `tools/check-symbols.py` `main`; `tools/find-symbols.py` `main`; `tools/list-symbols.py` `main`; `tools/parse.py` `main`; `tools/genlines.py` `main`; `tools/genpages.py` `main` | evaluation of all beginnings of all names; a name has the effect of its option; induction on the words before it; refuted by --e |
| C157 | proved | `tools/check-instructions.py` `main`; `tools/list-instructions.py` `main`; `tools/listing.py` `main`; `tools/check-symbols.py` `main`; `tools/find-symbols.py` `main`; `tools/list-symbols.py` `main`; `tools/parse.py` `main` | C153 and C151 |
| C158 | partial | `tools/genlines.py` `main`; `tools/genpages.py` `main` | C153 with the empty set of options; refuted by 3 1 -1 |
| C159 | partial | `tools/check-instructions.py` `main`; `tools/list-instructions.py` `main`; `tools/listing.py` `main`; `tools/check-symbols.py` `main`; `tools/find-symbols.py` `main`; `tools/list-symbols.py` `main`; `tools/parse.py` `main` | invariant: the table has the known instructions as keys; concrete files for the options that matter; refuted by the invariant |
| C160 | proved | `tools/check-instructions.py` `main`; `tools/parse.py` `main` | the lines of the report are read off from the end of the text; the rows of the frequencies, whose number is fixed, can be read back |
| C161 | proved | `tools/check-instructions.py` `main`; `tools/parse.py` `main` | the first two words of a line tell its kind; induction on the two lists of messages |
| C162 | proved | `tools/check-instructions.py` `main`; `punchcard.py` `Deck._readSource` | C153, C80 and C151, C152; the sort is stable; two lists sorted by an asymmetric relation with the same members are equal |
| C163 | proved | `tools/list-instructions.py` `main`; `tools/listing.py` `main` | C153, C82, C151, C152; induction on the files, each listed in the file system left by the former |
| C164 | proved | `tools/check-symbols.py` `main`; `tools/list-symbols.py` `main`; `tools/find-symbols.py` `main`; `symbol_table.py` `buildSymbolTable` | C153, C85, C92, C93, C147, C151, C152 |
| C165 | proved | `tools/parse.py` `main` | C153, C84, C138, C151, C152; the symbol loop of parse prints what that of check-symbols prints |
| C166 | proved | `tools/check-instructions.py` `main`; `tools/list-instructions.py` `main`; `tools/listing.py` `main`; `tools/check-symbols.py` `main`; `tools/list-symbols.py` `main`; `tools/find-symbols.py` `main`; `tools/parse.py` `main`; `punchcard.py` `Deck._readSource` | C153, C162 to C165 when all files can be read; conversely a run that ends well has read every file (induction on the files); help is found iff all words before it are understood (induction on the words) |
| C167 | partial | `tools/check-instructions.py` `main`; `tools/check-symbols.py` `main` | refuted by a file with an unknown instruction and one with a line in error; partial: C166 and uniqueness of the status |
| C168 | proved | `tools/genlines.py` `main` | induction on the digits; the text of a number is never longer than its argument, so that the third check of the length is never reached; numerals of the same length and value are equal (induction) |
| C169 | proved | `tools/genpages.py` `main`; `arguscard.py` `Deck` | induction on the lines with the log section and the pages folded apart; either fold fails iff the comments are not sound |
| C170 | proved | `tools/check-instructions.py` `main`; `tools/list-instructions.py` `main`; `tools/listing.py` `main`; `tools/check-symbols.py` `main`; `tools/list-symbols.py` `main`; `tools/find-symbols.py` `main`; `tools/parse.py` `main`; `punchcard.py` `Deck._readSource` | C150 for one file; induction on the files, for parse twice with the second pass reading what the first has read; C153 for the command line |
| C171 | proved | `symbol_table.py` `findSymbolDef`; `tools/find-symbols.py` `main` | every character is written as itself or as an escape that the grammar of string literals reads back (Spec/Repr); literals are self-delimiting, so are lists and dicts of them: a calculus of readable texts (`Readable`) |
| C172 | proved | `symbol_table.py` `buildSymbolTable`, `findSymbolDef`, `checkSymbolTable`; `tools/check-symbols.py` `main`; `tools/list-symbols.py` `main`; `tools/find-symbols.py` `main`; `tools/parse.py` `main` | the lines of a message tell its kind and arguments; induction on the messages with the shape of a run from C147, C151 and C170; the faults by C146 |
| C173 | proved | `tools/check-symbols.py` `main`; `tools/list-symbols.py` `main`; `tools/find-symbols.py` `main` | each message on the standard output is one line that tells what it is; induction on the lines with the shape of a run from C85, C147 and C151 |
| C174 | partial | `tools/check-symbols.py` `main` | refuted by a run; the rest by filtering the messages of C164 |
| C175 | proved | `punchcard.py` `Deck._readSource`, `PunchCard.__init__`; `symbol_table.py` `buildSymbolTable` | white space by the list of code points; lines, parts and order by induction on the text; the numeral by the lengths of decimals of a value; sorted by uniqueness of the ordered permutation |
| C176 | proved | `instructions.py` `BinaryAdd`, `Rewind`, `Simulator`; `instruction.py` `Instruction.__init__` | the binding of arguments against a separate account of how Python passes them (Spec/Calls): induction on the parameters |
| C177 | partial | `instructions.py` `BinaryAdd`, `Rewind`, `Simulator`, `DecimalAdd`; `instruction.py` `Instruction.__init__` | refuted by BinaryAdd() and DecimalAdd(); the parameters of a class follow from the type of its opcode (whole table), and a given sequence bit makes its default irrelevant |
| C178 | proved | `instruction.py` `Instruction.__init__`; `instructions.py` `Rewind` | the line is a sequence of self-delimiting texts (Lemmas/Repr); equal opcodes and operands give equal results; each value has one text only (display_inj) |
| C179 | proved | `punchcard.py` `Deck._readSource`, `Deck.__init__` | the texts are a function that follows the loop of the reader with its included files; soundness by induction on the depth, completeness by induction on the derivation of the missing file (MeetsGap) |
| C180 | proved | `tools/check-instructions.py` `main`; `tools/check-symbols.py` `main`; `tools/find-symbols.py` `main`; `tools/genlines.py` `main`; `tools/genpages.py` `main`; `tools/list-instructions.py` `main`; `tools/list-symbols.py` `main`; `tools/listing.py` `main`; `tools/parse.py` `main` | words of the command line by induction as for C153 (fault_sound, fault_complete), files by induction on their list with C179; the ends by following both functions (says_at_exit, filesExit_ends) |
| C181 | partial | `tools/check-instructions.py` `main`; `tools/check-symbols.py` `main`; `tools/find-symbols.py` `main`; `tools/genlines.py` `main`; `tools/genpages.py` `main`; `tools/list-instructions.py` `main`; `tools/list-symbols.py` `main`; `tools/listing.py` `main`; `tools/parse.py` `main` | case analysis over the tools; the words quoted in messages are parts of the command line or names of options |
| C182 | partial | `bitfield.py` `BitField.__init__`, `BitField.__getitem__`, `BitField.__setitem__`, `BitField.set`, `BitField.clear` | the text functions follow the checks of the code; case analysis over the operations, each check against what it is to rule out (Spec/Messages); numerals by C175; refuted by a range of a field with LSB on the left |
| C183 | proved | `instruction.py` `Instruction.__init__`, `Constant.__init__` | the checks in turn; conversely each fault makes one of them fail |
| C184 | proved | `word.py` `Word.__init__`, `InstructionWord.__init__`; `memory.py` `MemoryBank.__setitem__`, `MemoryBank._checkValue`, `MemoryBank._checkAddress` | the invariants of words and banks of C07 and C19 hold after any operations, so that the width in the text is 48 or 12 |
| C185 | partial | `registers.py` `Register.__init__`, `RegisterGroup.__getitem__`, `RegisterGroup.__setitem__`, `Registers.__getitem__`, `Registers.__setitem__`, `registerName`, `registerNumber` | the invariants of registers; induction on the names of a group; refuted by RAC |
| C186 | proved | `symbol_table.py` `SymbolTable.add`, `SymbolTable.pruneUndefines`, `SymbolTable.resolve` | the names that iteration with deletion removes and leaves are complementary sublists (induction on the list); resolve by induction on the passes against a grammar of its output (Spec/TableText) |
| C187 | partial | `symbol_table.py` `SymbolTable.printTable`, `SymbolTable.printUndefs` | refuted by two tables; partial: as C89, with the text of an object |
| C188 | proved | `symbol_table.py` `buildSymbolTable` | invariant of the table after each line (Upto: which tags are known where, the count, the reports, the definitions), by induction on the lines; the crash at the first line that breaks it |
| C189 | partial | `tools/parse.py` ; `tools/check-symbols.py` ; `tools/list-symbols.py` ; `tools/find-symbols.py` ; `symbol_table.py` `buildSymbolTable` | the invariant of C188 carried over the files (After), by induction on their number, for any fold over the files; refuted by a run |
| C190 | partial | `docs/prm/images/table_II.png` ; `instructions.py` ; `instruction.py`  | the bits of opcodes and forms compared as digits of the forms; the codes of a class by the digits of its opcode and operands (lemmas of C135), positions by arithmetic; refuted by a simulator code |
| C191 | partial | `tools/check-instructions.py` ; `arguscard.py` ; `docs/argus/ARGUS_Manual_of_Assembly_Language.md`  | the columns of the line split at the last one; strip and first comma against the operation code read without spaces; no known instruction has a space (whole list) |
| C192 | partial | `tools/check-instructions.py` ; `instructions.py` ; `docs/argus/ARGUS_Manual_of_Assembly_Language.md`  | whole tables; the line by the text before the first comma |
| C193 | partial | `symbol_table.py` `buildSymbolTable`; `docs/argus/ARGUS_Manual_of_Assembly_Language.md`  | the label test against the rules of the manual (Spec/Documents); the characters of Table I and the registers by whole tables |
| C194 | partial | `symbol_table.py` `buildSymbolTable`; `docs/argus/ARGUS_Manual_of_Assembly_Language.md`  | C68 and C69 for the kind complex; refuted by a deck |
| C195 | partial | `symbol_table.py` `buildSymbolTable`; `docs/argus/ARGUS_Manual_of_Assembly_Language.md`  | the lines that set the subsegment are those of the manual under the hypothesis, then C68; refuted by the same deck |
| C196 | proved | `tools/check-instructions.py` ; `tools/list-instructions.py` ; `tools/check-symbols.py` ; `tools/find-symbols.py` ; `tools/list-symbols.py` ; `tools/parse.py` ; `punchcard.py` `_readSource`; `symbol_table.py` `buildSymbolTable` | replacing line numbers by 0 commutes with every step of building, looking up and listing the symbol table and with the loops of the tools (Lemmas/Renumber); reading by induction on the include depth and on the derivation of Interspersed; loops over cards pass over cards without code |
| C197 | proved | `tools/find-symbols.py` `main`; `symbol_table.py` `findSymbolDef`, `buildSymbolTable` | how Python writes values is a separate relation (Spec/Display); each text is in it by induction on the lists, and the relation gives one text for each value (induction on its derivation; numerals by their lengths) |
| C198 | proved | `tools/check-instructions.py` ; `tools/list-instructions.py` ; `tools/check-symbols.py` ; `tools/find-symbols.py` ; `tools/list-symbols.py` ; `tools/parse.py` ; `punchcard.py` `_readSource` | a deck that can be read is the list of cards of the lines of its expansion; a card without name and number depends on the text of its line only; the loops of the tools as in C196; a file written out line by line expands to these lines (induction on the lines) |
| C199 | proved | `bitfield.py` `_getBitValue`, `_rindex`, `_vindex` | case analysis over the checks; `& 1` as remainder; linear arithmetic for each scheme and order |
| C200 | proved | `punchcard.py` `Deck._readSource`; `tools/genpages.py` `main`; `tools/listing.py` `main` | induction on the derivation of the lines; reading distributes over joining two texts unless a carriage return meets a newline (induction); what is written has no carriage return, since nothing read has one |
| C201 | partial | `bitfield.py` `BitField.__init__`, `BitField._checkIndex`, `BitField._checkValue` | the float 2**width - 1 of a negative width lies between -1 and 0, so that only negative values pass; no index passes the check of bounds; induction over the calls; refuted by width 0 |
| C202 | proved | `arguscard.py` `Card`; `symbol_table.py` `buildSymbolTable`; `tools/check-instructions.py` `main`; `tools/list-instructions.py` `main`; `tools/check-symbols.py` `main`; `tools/find-symbols.py` `main`; `tools/list-symbols.py` `main`; `tools/parse.py` `main` | an entry of a card is determined by the characters in its columns (padding with blanks); the cards of the two programs agree but for the fields left out (induction over the lines and the include depth); the loops of the tools do not look into these fields, as in C196 |
| C203 | proved | `bitfield.py` `BitField.__getitem__`, `BitField.__setitem__`; `registers.py` `Register.__getitem__` | a field of `n + p` bits is its upper `n` and lower `p` bits; induction over the groups; writes to groups without common bits keep the other groups (induction over the writes, in any order); uniqueness by induction with remainders |
| C204 | proved | `instruction.py` `Instruction`; `instructions.py` ; `word.py` `InstructionWord`; `bitfield.py` `BitField.__getitem__` | C203 for the layout of every form; the value of the class (C37, C38, C39) and the packing (C16) are the joined parts by arithmetic |
| C205 | partial | `instructions.py` `OPCODES`; `instruction.py` `Instruction`; `word.py` `InstructionWord` | the bits read off the word are those of the table row by arithmetic; `decide +kernel` over all pairs of rows of the whole opcode table; refuted by NA and FNN |
| C206 | partial | `README.md` ; `symbol_table.py` `buildSymbolTable` | induction over the files with C69 (every new definition is in the segment of its file), C68 and C72; refuted by two files with a tag each |
| C207 | proved | `memory.py` `MemoryModule.__getitem__`, `MemoryBank.__setitem__`; `registers.py` `Register.__getitem__`, `Registers.__getitem__` | invariant: every module is the run of its own operations (C35), and they hold what one flat array holds; induction over the writes with arithmetic of the address; C24 for the registers |
| C208 | proved | `punchcard.py` `Deck._readSource`; `symbol_table.py` `buildSymbolTable`; `tools/check-instructions.py` `main`; `tools/list-instructions.py` `main`; `tools/check-symbols.py` `main`; `tools/find-symbols.py` `main`; `tools/list-symbols.py` `main`; `tools/parse.py` `main` | as C198 with two lists of files: the loop over the files is the loop over all their cards (induction over the files, the notes about reading being left out), so that the same lines give the same report; the symbol table uses of a name only what is before its first dot, elsewhere names are kept in places that are left out |
| C209 | proved | `memory.py` `MemoryBank.__next__`, `MemoryBank.__iter__`; `word.py` `Word.value`; `bitfield.py` `BitField.__setitem__` | induction over the history: one operation changes each word of the bank by what `doneTo` says and the cursor by what `handedOut` says (cases of the operation, with the normal forms of C29 to C34); the bits then by C101 |
| C210 | proved | `tools/check-instructions.py` `main`; `tools/check-symbols.py` `main`; `tools/find-symbols.py` `main`; `tools/list-instructions.py` `main`; `tools/list-symbols.py` `main`; `tools/listing.py` `main`; `tools/parse.py` `main`; `tools/genlines.py` `main`; `tools/genpages.py` `main` | a zip of the option and help tables; every option fits in the column computed as a maximum over the options (induction); a line can be cut at its first comma and blank in one way only; taken letters and names by cases of `_match_abbrev`; facts about the tables by `decide +kernel` over the whole tables |
| C211 | partial | `tools/find-symbols.py` `main`; `symbol_table.py` `findSymbolDef` | from C164 by cases of the options; refuted by a file with the symbol TAB and the word A |
| C212 | proved | `symbol_table.py` `buildSymbolTable`, `findSymbolDef`, `checkSymbolTable`; `tools/list-symbols.py` `main`; `tools/check-symbols.py` `main`; `tools/find-symbols.py` `main` | a line gives the same facts (starred, operation, number, set subsegment, error) with either label and its tag is renamed; so definitions and final definitions correspond (induction over the files), and by C164 the reports; two lists that are sorted and correspond as sets correspond one by one |
| C213 | partial | `bitfield.py` `BitField.__init__`, `BitField._checkIndex`, `BitField._checkRange`, `BitField._checkValue`, `BitField.__getitem__`, `BitField.__setitem__`, `BitField.set`, `BitField.clear` | case analysis over the checks with the kinds of values; on ints the comparisons and arithmetic are those of the int model; the fraction by floor and ceiling of rationals; refuted by 3.5 |
| C214 | partial | `word.py` `Word.__init__`, `Word.value`, `InstructionWord.__init__`; `registers.py` `Register.__init__`, `Register.value`, `Register.__setitem__`; `memory.py` `MemoryBank.__setitem__` | from C213; induction over the addresses of a range; refuted by 3.5 |
| C215 | partial | `punchcard.py` `Deck._readSource`, `Deck.__init__` | induction over the depth, then over the lines: reading the disk and reading the texts of its files (C179) go together up to the first file that is no readable text; refuted by a directory and by a byte of Latin-1 |
| C216 | proved | `punchcard.py` `Deck._readSource`, `Deck.__init__`; `tools/check-instructions.py` `main`; `tools/list-instructions.py` `main`; `tools/check-symbols.py` `main`; `tools/find-symbols.py` `main`; `tools/list-symbols.py` `main`; `tools/parse.py` `main`; `tools/listing.py` `main`; `tools/genpages.py` `main`; `symbol_table.py` `buildSymbolTable` | the decoder inverts the encoder (induction over the text) and the encoder the decoder (induction over the bytes); then as C215, and induction over the files for every tool |
| C217 | partial | `punchcard.py` `Deck._readSource`; `arguscard.py` `Card.__init__` | the mark is the first character of the first line, which is a plain line (C216); the columns of a line with a character before it; refuted by a comment |
| C218 | partial | `memory.py` `MemoryBank.__getitem__`, `MemoryBank.__setitem__`, `MemoryModule.__getitem__`, `ExpansionMemoryModule.__getitem__`; `registers.py` `RegisterGroup.__getitem__`, `RegisterGroup.__setitem__`, `Registers.__getitem__`, `Registers.__setitem__`, `registerName`, `registerAlias`, `registerNumber` | cases of the key, with the int that a float is equal to if it has no denominator; the tables of names have the numbers 0 to 31 only; refuted by 24.0 |
| C219 | proved | `arguscard.py` `Card`; `symbol_table.py` `buildSymbolTable`; `tools/check-instructions.py` `main`; `tools/list-instructions.py` `main`; `tools/check-symbols.py` `main`; `tools/find-symbols.py` `main`; `tools/list-symbols.py` `main`; `tools/parse.py` `main` | taking the spaces out commutes with stripping, so the checked label of a card is not changed by them; related lines make cards that agree but for texts and spaces (as C202), and the loops of the tools keep this |
| C220 | partial | `instruction.py` `Instruction.__init__`, `Instruction._check`, `Constant.__init__`; `instructions.py` `BinaryAdd` | the checks pass only values equal to 0 and 1 for the bits; setting the sequence bit or a range of bits to a float fails as in C213; so a made instruction has operands equal to ints; refuted by a = 1.0 |
| C221 | partial | `bitfield.py` `BitField.__getitem__`; `registers.py` `RegisterGroup.__next__`, `Registers.__next__`; `memory.py` `MemoryBank.__next__`, `MemoryModule.__getitem__` | the loop over subscripts or over `__next__` is a search in the list of elements from the cursor on, by induction on the rounds; invariants of all histories give the elements; refuted by `0 in bank` |
| C222 | partial | `bitfield.py` `BitField.__getitem__`, `BitField.__len__`; `registers.py` `RegisterGroup.__setitem__`, `Registers.__len__`; `memory.py` `MemoryBank.__getitem__`, `MemoryModule.__len__` | the loop down from the length is the reversed list of subscripts, or stops at the first failing one; the length of the dict grows exactly with assignments under new keys, by induction over histories; refuted by a word of four bits numbered from 1 |
| C223 | proved | `tools/listing.py` `main`; `tools/genpages.py` `main` | induction over the files: the effects of a run are those of the files one after the other, and a beginning of them ends within one file; a sequence of appended bytes puts them after the old ones (induction) |
| C224 | partial | `tools/listing.py` `main`; `punchcard.py` `Deck.__init__` | reading depends on the files reached only (induction over the depth); so a rerun writes the same listings again, up to where the stopped run got, and goes on from the same disk; invariant over any number of stopped runs; refuted by a deck named a.lst |
| C225 | partial | `tools/genpages.py` `main`; `arguscard.py` `Deck.__init__` | UTF-8 is a prefix code, so what was appended is a beginning of the text unless a character was cut; the lines of a beginning are beginnings of its lines, none of them a page comment or code; so the next run finds the same log card and pages, and lines without code are added only (transitive); invariant over any number of stopped runs; refuted by a log card cut off |
| C226 | partial | `tools/listing.py` `main`; `punchcard.py` `Deck.__init__` | invariant of all reachable states: the changes a run has made, has pending and has yet to compute are together those of a run alone on the first disk, each listing is what the changes of its own run make of it, all other files and the kinds of paths are as at first; changes of different files commute; termination by the lexicographic order of files not read and changes not made; refuted by two decks with the same listing |
| C227 | proved | `punchcard.py` `Deck._readSource`; `tools/check-instructions.py` `main`; `tools/list-instructions.py` `main`; `tools/check-symbols.py` `main`; `tools/find-symbols.py` `main`; `tools/list-symbols.py` `main`; `tools/parse.py` `main`; `tools/genpages.py` `main`; `tools/listing.py` `main` | reading a deck depends on the files reached only (induction over the depth, then over the lines); induction over the files for every tool; for listing the two disks agree on the files reached and on the listings written so far |
| C228 | partial | `bitfield.py` `BitField.__index__`, `BitField.__getitem__`, `BitField.__setitem__`; `memory.py` `MemoryBank.__getitem__`, `MemoryBank.__setitem__`, `MemoryModule.__getitem__`; `registers.py` `RegisterGroup.__getitem__`, `RegisterGroup.__setitem__`, `Registers.__getitem__`, `Registers.__setitem__`, `registerName`, `registerAlias` | `range` asks `__index__`, so a slice of memory is that of the values; a field has the hash of its identity and cannot be compared or added, so everything else raises in the first check; refuted by `bank[f]` |
| C229 | partial | `instructions.py` `make_masked_opcode`, `make_unmasked_opcode`, `make_peripheral_opcode`, `make_print_opcode` | the functions are sums of products; facts about the rows of the table checked over the whole table; the rest is linear arithmetic for all integers; refuted by a mask of 32 |
| C230 | partial | `punchcard.py` `Deck._readSource`; `tools/check-instructions.py` `main`; `tools/parse.py` `main`; `symbol_table.py` `buildSymbolTable` | induction over the depth, then over the lines, then over the files, for a reader that counts its accesses: what is read is the expansion of each file as it is when opened, and any files that agree with these moments give the same run; there are such files if no file opened twice has changed in between; refuted by a file given twice that gets a line, and for parse by one file |
| C231 | partial | `punchcard.py` `PunchCard.__init__`, `Deck.__init__`; `arguscard.py` `Card.__init__` | induction over the fields and names for the record that is filled: the entry of a name is that of the last field of that name; slices are the positions between their bounds (induction over the text); the constructor of an ARGUS card looks up two names; induction over the lines for decks; refuted by two fields of one name |
| C232 | partial | `tools/list-instructions.py` `main`; `tools/check-symbols.py` `main`; `tools/find-symbols.py` `main`; `tools/list-symbols.py` `main`; `punchcard.py` `Deck._readSource`; `symbol_table.py` `buildSymbolTable` | the lemmas of C230 for any tool that reads each file once; refuted by a file given twice that is another one the second time |
| C233 | partial | `punchcard.py` `Deck.__init__`, `Deck.lines`, `Deck.cards`, `Deck.fields`, `Deck.strippedFields`, `Deck.records`, `Deck.__str__`, `PunchCard.layout`, `PunchCard.record` | induction over the changes for a heap of cards and lists of references to it: the references stay in order, so each list of the deck reads the same card; the text depends on the lines of the cards alone; refuted by emptying the list given, and by emptying a record |
| C234 | partial | `punchcard.py` `PunchCard.__init__`, `Deck.__init__`, `Deck._readSource`, `Deck.__str__`; `arguscard.py` `Card.__init__`, `Deck.__init__` | induction over the fields for records filled with fields that strip alike, then over the lookups of an ARGUS card; a newline at the end changes no stripped field in columns from 1 on; induction over the lines and the expansion for decks; refuted by a column 0 |
| C235 | partial | `symbol_table.py` `SymbolTable.resolve`, `SymbolTable.pruneUndefines`, `SymbolTableEntry.isValid` | the list left by deleting while iterating holds at most half of the names with values and all the others (induction); induction over the passes; all names with values: the length is halved each time; for any table, induction over the places left of the list; refuted by 1024 names |
| C236 | partial | `symbol_table.py` `SymbolTable.symbols`, `SymbolTable.undefines`, `SymbolTable.lookup`, `SymbolTable.add`, `SymbolTable.pruneUndefines`, `SymbolTable.printUndefs`, `SymbolTableEntry.references`, `SymbolTableEntry.addReference` | a heap of entries and a dict of references to it; invariant over all steps: the references exist and keys are distinct; induction over the steps for what an entry keeps, for the place of a name, and for the list of undefined names; refinement of the table without a heap while no two names share an entry; refuted by taking out a name |
| C237 | partial | `symbol_table.py` `SymbolTable.add`, `SymbolTable.update`, `SymbolTable.resolve`, `SymbolTable.pruneUndefines`, `SymbolTable.lookup` | a table over any type of names with a truth value, a hash or none, and lengths of tuples; invariant of reachable tables (keys are the names added, undefined names those defined without value) by induction over the calls; refinement of the table of strings under any spelling that keeps names apart; refuted by a pair |
| C238 | partial | `bitfield.py` `BitField.__setitem__`, `BitField.__getitem__`, `BitField.value`, `BitField.set`, `BitField.clear` | invariants of all states by induction over the schedule: the field and each value held are those of a selection of the operations ended; if no value held is gone when used, the calls so far are an order of calls (a reading call when it reads, an operation when it ends); any selection with the last operation is reached by letting its operations read before the others run; refuted by two threads that set a bit each |
| C239 | partial | `tools/genpages.py` `main` | invariants of all states by induction over the schedule: a file is the old one with the text appended once for each run ended (a run after any number of texts finds the same log card and pages, as in C225), or the old one with what its only run has appended; the same for runs one after the other by induction over the list; refuted by texts in two pieces, and by a file without log card |
| C240 | partial | `memory.py` `MemoryBank.__next__` | invariants of all states by induction over the schedule; a weight of the state, which counts for each thread what it has added and can still add at the cursor, never grows (putting the cursor back costs the weight of the value held); with turns, the words before the cursor were given out in order; refuted by two threads that move the cursor before either returns |
| C241 | partial | `memory.py` `MemoryBank.__getitem__`, `MemoryBank.__setitem__`, `MemoryBank.clear`; `word.py` `Word.value` | a step reads or assigns one word, so it depends on that word only and changes no other; invariants by induction over the schedule: with turns the calls ended are an order of calls and the rest of the call begun completes the next one; apart, the whole run and the run of one thread alone agree on the words that it touches; refuted by two fills |
| C242 | partial | `tools/check-instructions.py` `main`; `tools/parse.py` `main`; `tools/list-instructions.py` `main`; `punchcard.py` `Deck._readSource` | every character printed is ASCII or stands in a name given or in a file reached, by induction over the reading, the cards and the files; a stream on which every character can be written gets all lines; refuted by an accent in an operand and ASCII |
| C243 | partial | `tools/listing.py` `main`; `punchcard.py` `Deck._readSource` | as C242, with the invariant that all files, and so each listing written, have only characters that can be encoded; the lines written are a beginning of all lines, by induction; refuted by an accent in an operand and ASCII |
| C244 | partial | `tools/list-symbols.py` `main`; `tools/find-symbols.py` `main`; `tools/check-symbols.py` `main`; `symbol_table.py` `buildSymbolTable`, `findSymbolDef`, `checkSymbolTable` | invariant of the table: every key and every text in it is ASCII or made of characters of a file reached or of a name given; then by the structure of the texts printed, escapes of repr being ASCII; refuted by a label with an accent and ASCII |
| C245 | partial | `registers.py` `RegisterGroup.clear`, `RegisterGroup.__next__`, `RegisterGroup.__iter__` | invariants of the steps of all threads; for the end a potential that every step lowers (as C240, with the steps of a call counted); in turn: every register before the cursor is zero or about to be cleared by a thread; alone by induction on the registers left; refuted by two threads that read the cursor after both have moved it |
| C246 | proved | `tools/genpages.py` `main`; `tools/genlines.py` `main` | the log section and its column 8 are made of characters of the file and of ASCII (as for C225), and so all lines; then by the structure of the lines written |
| C247 | proved | `tools/genlines.py` `main`; `tools/genpages.py` `main` | every step is the same or ValueError, through the binds and by induction over lines and numbers; a text of n characters tells a number of at most n digits (induction), and the numbers of a range lie between its ends |
| C248 | partial | `registers.py` `Registers.clear`, `Registers.__next__`, `Registers.__iter__` | invariant of the steps of all threads, with those of one group for the steps within it; in turn: the invariant of C245 for every group, where threads outside it count as before its next, and one of the same form for the file; alone: the run of C245 is lifted to the file, then induction on the groups left; refuted by two threads that read the cursor of the file after both have moved it, run group by group |

## Disagreements between code and property

Each is a theorem `Cxx_refuted` about the model of the code as it stands.

* **C06** LSB-left slices obey the same contract. False of the code (mask of LSB-left slices is placed at the wrong end): refuted by 255[3:7] = 16. Partial: one-bit and full-width slices. Exact behaviour of all other slices proved.
* **C08** Values too large or negative are rejected. False of the code (negatives and exactly 2^n are accepted): refuted. Partial: exact acceptance thresholds of all four entry points, and the exact effect of every accepted assignment (slices: MSB-left; LSB-left slices see C06, C142).
* **C10** set(i)/clear(i) touch exactly bit i; set()/clear() touch all. False of the code for index 0: refuted. Partial: every other valid index; the no-argument forms; index 0 behaves as no argument.
* **C11** isRange / isRangeSet / isRangeClr report the bits of the range. False of the code: refuted. Partial: exact result of all three methods on MSB-left fields.
* **C19** InstructionWord rejects field values outside 0..4095. False of the code (4096 and negatives accepted): refuted. Partial: which values are rejected, by setters and constructor; what every accepted value does to all four fields.
* **C23** Alias names can be used to index a register group. False of the code in every state: refuted; aliases always raise ValueError.
* **C25** clear() zeroes every register. False of the code (clear uses the one-shot iterator): refuted. Partial: exact effect in every reachable state; first clear works.
* **C26** Iterating a register group visits each register once, every time. False of the code: refuted. Partial: a loop visits cursor..31, the next one nothing.
* **C27** Assigning into a register group replaces that register. False of the code: refuted. Partial: exact effect; no assignment ever changes what a subscript returns.
* **C28** Assigning a register group into the register file. False in its last part (registers[8] = g is accepted): refuted. Partial: groups 0..7 work, non-integers are rejected, other integers have no visible effect.
* **C31** A slice fill is all-or-nothing. False of the code: a fill running past the end overwrites words s..2047 and then raises. Refuted; partial: exact effect in every case.
* **C34** Iterating a memory bank visits every word, every time. False of the code (one-shot cursor): refuted. Partial: a loop visits cursor..2047, the next one nothing.
* **C36** The address-taking value accessor of a bank works. False of the code: the accessor raises TypeError in every state (proved for all states). Nothing positive to prove.
* **C42** Distinct instructions have distinct command codes. False of the code: refuted. Partial: exact characterisation of when two table forms share a code (print mnemonics; NA unmasked vs FNN).
* **C44** The class named in the opcode table implements that mnemonic. False of the code for TS: refuted. Partial: every other mnemonic.
* **C45** Assembly-control instructions can be constructed. False of the code: no control instruction can be constructed. Refuted and proved for all arguments; C45_names_partial names the ten classes.
* **C55** Remarks of P/R/L cards are the whole text of the card. False of the code (column 9 is dropped): refuted. Partial: the remarks are the text from column 10; exact condition for losing nothing.
* **C58** Cyclic includes are reported rather than looping. False of the code: a cycle ends in RecursionError. Refuted; partial: no cyclic file ever makes a deck, exact error.
* **C64** pruneUndefines removes every resolved symbol. False of the code (deletes while iterating, so the element after a removed one is skipped): refuted. Partial: exact result of the loop for any table; on tables reachable through the API nothing needs removing, so the claim holds there.
* **C66** update changes the value of a defined symbol. False of the code (`value` is a property without setter, and `self.context` does not exist: AttributeError): refuted. Partial: exact effect (table unchanged, AttributeError for every non-empty name).
* **C71** Multiply-defined symbols are reported. False of the code (the existing kinds are looked up in the wrong dictionary): refuted by two definitions of A. Partial: last definition wins silently; the check fires exactly in the segment-named-like-the-kind case.
* **C74** getAbsoluteSymbols returns exactly the symbols with a simple definition. False of the code (loop over segments stops after the first once a symbol was found, and the flag is not reset): refuted. Partial: exact membership; full claim for tables with one segment per symbol.
* **C76** findSymbolDef prefix/suffix search. False of the code with both begin and end (listed twice): refuted. Partial: full claim for one of them; exact multiplicity for both.
* **C78** genlines numbers lie between start and end. False of the code (1 4 2 prints 5): refuted. Partial: exact numbers for any non-zero step; the full claim if the step divides end - start; errors.
* **C81** check-instructions frequency report never crashes. False of the code (no instruction at all: division by zero): refuted. Partial: fails exactly then.
* **C83** The listing never overwrites its source. False of the code (source named *.lst is overwritten): refuted. Partial: exactly those; no other file changes.
* **C84** parse reports the errors of all files. False of the code (errors of all but the last file dropped): refuted. Partial: the number printed; the claim for one file; completion.
* **C88** A symbol entry returns the value it was given. False of the code (`value` reads the attribute `_value`, which is never set): refuted. Partial: AttributeError always; where the value is stored.
* **C95** genpages appends a log card naming the same log section. False of the code (blank column 8 becomes None): refuted. Partial: for non-blank column 8; for sections made from the file name comment.
* **C97** genpages refuses what it cannot handle with a message. False of the code (no page comment: UnboundLocalError): refuted. Partial: the cases that exit and the one that does not.
* **C99** Iterating over a bit-field, register or memory module ends normally. False in every case: the subscript raises ValueError (KeyError for modules) instead of IndexError. Exact behaviour proved: zero-based fields deliver all bits first, one-based fields and registers nothing, modules all banks.
* **C112** A slice with a step reads every step-th word. False of the code: the step is ignored (C112_refuted, bank[0:4:2] reads four words). C112_step_ignored_partial: whatever the step, all words of the range are read or written.
* **C114** Resolving reports exactly the incomplete records. False of the code: each parseable record is overwritten with the context's current record, which resolve never sets (C114_refuted). C114_outcome_partial gives the outcome for every list of records; C114_short_partial: IndexError if the assembler has fewer records than its context; C114_no_context_partial: the class never sets a context, so used by itself resolve always raises AttributeError.
* **C116** A context can be created, printed and its location set. False of the code: the constructor and __str__ raise NameError, setLoc and setCoLoc raise AttributeError before moving (C116_refuted). C116_never_moves_partial: setLoc never changes the context; a context that has not loaded a record cannot be saved and leaves a half-written record.
* **C120** A bit-field, register or word is true in a condition iff it is not zero. False of the code: the classes have a __len__ but no __bool__, so zero is true (C120_refuted). C120_width_partial: a field is true iff its width is not 0; registers and words always are.
* **C121** list-instructions lists as many lines as check-instructions counts. False of the code: list-instructions removes blanks inside the operation before comparing and check-instructions strips its ends (C121_refuted: `B A` is listed but not counted, BA with a tab before its comma is counted but not listed). C121_exact_partial: for all files the two numbers differ by exactly these lines. C121_plain_partial: the claim holds when no operation has white space before its first comma.
* **C126** A register holds its last value through writes, iteration and collective clears. False of the code: the clears iterate with the shared cursor, so a second clear zeroes nothing (C126_refuted). C126_history_partial: exact for all histories, with the positions of the groups and of the file as part of the abstract state.
* **C128** The lists of a deck run parallel to its cards. False of the code: the lines of a deck made from a list still have its comments and newlines (C128_refuted). C128_parallel_partial: fields, stripped fields and records always run parallel, and lines do for a deck read from a file. C128_lines_partial: for a list exactly if it has no comments and no newlines.
* **C130** A reset context is as a new one. False of the code: reset leaves coloc and the messages of the last loaded record (C130_refuted). C130_reset_partial: exact state of a reset context.
* **C131** The assembler records every line of its source. False of the code: the lines are read and dropped (C131_refuted). C131_assemble_partial: exact effect of assemble.
* **C134** The character set is the printer column of the manual. False of the code: code 44 is an asterisk in the manual and None in CHARSET (C134_refuted). C134_others_partial: all other 63 codes agree; C134_asterisk_partial: the code has no asterisk at all.
* **C139** Percentages are printed to the nearest hundredth. False of the code for huge totals, where the float quotient is on the other side of a half of a hundredth than the fraction (C139_refuted). C139_least_partial: the least such total is 764877654117. C139_nearest_partial, C139_text_partial and C139_report_partial: all totals below it; C139_close_partial and C139_order_partial: any total (limits of the float exponent not modelled).
* **C140** Running genpages again appends the same text. False of the code (C140_refuted: a section name that begins with a space). Holds for files with a log card, for file names that do not begin or end with an underscore and are short enough for the card, and in any case from the second run on. C140_exact_partial: for files without log card it holds exactly for such names.
* **C142** Histories on LSB-left fields refine an array of bits. False of the code for slices (C142_refuted). C142_exact_partial: what every history does; C142_plain_partial: the statement for histories without slices of more than one bit and less than the field.
* **C143** isRange / isRangeSet / isRangeClr on LSB-left fields. False of the code (C143_refuted). C143_exact_partial: what the methods compute on proper ranges; C143_whole_partial: the whole field.
* **C156** Names of options may be cut off. False for --e of find-symbols (ambiguous).
* **C158** genlines can be given any numbers. False: negative numbers are taken for options.
* **C159** Every option makes a difference. False: three options are ignored.
* **C167** The exit status tells of errors in the sources. False of the code: C167_refuted has a file with an unknown instruction and a file with a line in error, for both the status is 0, so that make or a script cannot tell. C167_sources_partial: the status of the checking tools depends on the source files only in so far as they can be read.
* **C174** check-symbols reports what is wrong on the standard error stream. False of the code: line 56 prints the possible matches without file=sys.stderr. C174_refuted gives a run; C174_check_partial proves that the suggestions are all that is written on the standard output. Missing: that they too are on the standard error stream.
* **C177** Classes for instructions of the same type are called in the same way. False of the code: only BinaryAdd has a default for the sequence bit (instructions.py 447-451), so BinaryAdd() makes an instruction and DecimalAdd() raises TypeError. C177_refuted gives this pair; C177_same_partial proves the claim for all classes but BinaryAdd, and for BinaryAdd for all calls that give a sequence bit.
* **C181** The name of the program stands in the messages about the command line. False of the code: check-instructions.py 59, check-symbols.py 32, find-symbols.py 60, genpages.py 23, list-instructions.py 32, list-symbols.py 27, listing.py 27 and parse.py 34 pass 'usage: %prog ...' to parser.error, which does not expand %prog (only the usage given to the constructor is expanded), so the message says '%prog' literally, after the usage with the name. list-instructions.py 32 also leaves out the opcode there. C181_refuted gives check-instructions without arguments; C181_prog_partial proves that a percent sign is in no other message, and that these messages are the three texts.
* **C182** A bit-field that refuses an operation says truly why. False of the code: the text for bounds in the wrong order says 'MSB...LSB' for a field with its least significant bit on the left too. C182_refuted gives such a field; C182_true_partial proves that everything else in the texts is true. The text 'Illegal bit-field width' does not occur (it does for negative widths only, see C201).
* **C185** Registers, groups and files that refuse a call say truly why. False of the code: a group calls RAC an invalid register name although registerNumber and the constructor of Register accept it (an alias), since it looks up REGISTERS only. C185_refuted gives this; C185_group_partial proves the rest. Of a negative width the message says that the value is invalid.
* **C187** A printed symbol table shows its symbols. False of the code: SymbolTableEntry has neither __str__ nor __repr__, so that each line is the address of an object and shows nothing of the symbol. C187_refuted gives two tables with different names and the same text; C187_lines_partial proves the number and order of the lines.
* **C189** The symbol tools end normally whenever the files can be read. False of the code: a file simple.arg that defines a symbol again with EQUALS makes all four tools end with a KeyError, because buildSymbolTable looks for the previous definition two levels too high in the table (C189_refuted). C189_completes_partial and C189_stops_partial prove exactly when they end normally; C189_check_partial and C189_list_partial what check-symbols and list-symbols print then, for files of any name.
* **C190** Every command code of Table II can be made with the class of its instruction. False of the code: the Simulator class cannot give the address of the routine, so only 0007 and 4007 (octal) of the 512 simulator codes can be made (C190_simulator_partial), and the irrelevant positions of PR and of the prints are always zero. C190_codes_partial gives exactly the codes that can be made with each class; C190_complete_partial: all of Table II for all other mnemonics; C190_mnemonics_partial: Table II and the classes have the same mnemonics.
* **C191** The operation code is read as the manual says. False of the code: columns 20-32 are all taken as operation, so a designated counter in column 32 (`LN` with C in column 32, as in the manual) or a space within the operation code makes the instruction unknown (C191_designated_partial, C191_gap_partial). C191_unbroken_partial: an operation code without gaps is read right if no counter is designated or a comma comes before it.
* **C192** The operation codes with an appended letter are known. False of the code: of the operation codes of the documents exactly the fourteen with an appended A or D (WAA, TXD, ...) are reported as unknown (C192_reported_partial); C192_masked_partial: the mask after the comma does not matter.
* **C193** The labels accepted are the tags of the manual. False of the code, both ways: link tags L, and out-of-sequence tags X, are refused as unsupported (C193_unsupported_partial); neither the length nor the characters of a tag are checked, nor whether a register exists, so that A+B, 123, ABCDEFGHI and Z,X9 are accepted (C193_refuted, C193_lax_partial gives exactly what is accepted). C193_accepted_partial: all other tags of the manual are accepted with the right tag and type.
* **C194** Tags assigned by ASSIGN or TAS are complex. False of the code: only ASSIGN makes a definition complex (C194_assign_partial); a tag assigned by TAS is recorded as a simple definition, and as a complex one only if an ASSIGN assigns it too or it was in the table before (C194_tas_partial).
* **C195** Definitions are under the subsegment that the manual gives the line. False of the code: after SETLOC,dC definitions are under dC instead of d, and after a SETLOC without subsegment under 0, where the manual keeps the subsegment in force (C195_other_partial). C195_plain_partial: it is true if every SETLOC is of the form SETLOC,d.
* **C201** A bit-field has from 1 to 64 bits. False of the code: the constructor has no lower bound for the width. C201_refuted gives a field of width 0; a negative width is accepted with any negative value. C201_made_partial says exactly which arguments are accepted; C201_refused, C201_value and C201_shape prove that a field of negative width refuses every call about bits or a new value, with a text giving its width ('Illegal bit-field width' occurs only here), keeps its value until it is set or cleared as a whole, and has no length and no text; C201_zero that a field of width 0 refuses every call about bits.
* **C205** The operation code designates the instruction. False of the code: NA without mask and FNN have the same operation code (C205_refuted), as in the manual's own table. C205_designates_partial is exact: the bits are the same iff both are of the same form and the same instruction, or two prints, or NA and FNN.
* **C206** All code is in the same segment. False of the code: the segment is the name of the file given, up to its first dot, so two files make two segments (C206_refuted). C206_segments_partial: there is one segment if one file is given, whatever it includes, or if all names begin in the same way; C206_occurs_partial: every file given that defines a tag has its segment in the table.
* **C211** find-symbols finds what its help says. False of the code: by default only the word itself is found. C211_refuted: in a file that defines TAB, a search for A does not find it. C211_finds_partial: with one of the three options the symbols found are those told; without, the word itself if it is defined and nothing else.
* **C213** A bit-field takes ints only. False: the value setter cuts the fraction of a float off and stores the rest, the setter of a bit takes a float that is not 1.0 for 0, set and clear take an index such as 0.0 or an empty string for none, and the constructor stores a float, after which no bit can be used. Proved: the exact behaviour for every value; a bit or bound that is not an int, and a value for a range of bits, is always refused. Which exception a float as a bit raises is C213_which_partial.
* **C214** Words, registers and memory take ints only. False: the value of a word, and so a word of memory, takes a float between 0 and 2**48 - 1 without its fraction. Proved: exactly these are taken; the constructors, the fields of instruction words and registers refuse everything that is not an int.
* **C215** A file that cannot be read is reported, and what is reported is true. False: a directory is said not to exist, and a file that may not be opened or is not UTF-8 ends the tool with an exception. Proved: the first file met that is no readable text decides, and how, for every disk.
* **C217** A byte order mark at the start of a file does not matter. False: the mark is part of the first line. Proved: exactly what is read: the first line is a card with the mark in column 1 and all else one column to the right (no comment, include, remark or log card); the other lines are not affected.
* **C218** The memory and the registers take no keys but ints, slices and names. False: a float that is equal to an int is taken for it by banks, modules, groups that are read and the names of registers (not by the set of groups). Proved: this, and for every other key that it is refused, with which exception, and that nothing changes.
* **C220** Instructions take ints only. False: the address bits take 0.0 and 1.0, the sequence bit takes 0.0 (but not 1.0). Proved: this is all: with these floats the instruction is that with the equal ints, and every other operand that is not an int is refused with a ValueError or a TypeError; constants are made of ints only.
* **C221** `x in obj` tells what is in the object. False: no number is ever in a bank (its iteration gives word objects), a search moves the cursor so that the next one misses what lies before it, and a search that fails ends in ValueError (fields, registers) or KeyError (modules). Proved: the exact answer and the exact cursor afterwards for every class, with every value.
* **C222** `reversed(obj)` gives all elements, the last first. False: of fields numbered from 1 and of registers the bit numbered by the width is left out and ValueError ends the loop; a group to which a name was ever assigned, and a file with an assignment outside 0-7, fail at once. Proved: exactly what is delivered in each case; right for fields numbered from 0, banks, modules, and all other groups and files.
* **C224** listing can simply be run again. False: a deck named *.lst is its own listing and is lost when the run is stopped after opening it. Proved for arguments none of whose listings is among the files read.
* **C225** genpages can simply be run again. False: a run stopped within the log card that it appends leaves a shortened name, which the next run takes for the log section. Proved: for a file that had a log card from the beginning the next run appends the same text; in any case it succeeds for the same pages, unless a character was cut in two, when it fails and changes nothing, which does not happen with ASCII files; the reports of all other tools stay as they were at any moment.
* **C226** Runs of listing can take place at the same time. False: two decks that differ in the suffix of their names have the same listing, which is that of whichever run is later. Proved for runs whose listings are different from each other and from all files read, for every schedule, with nothing assumed on what is read from a file that is being changed; no other files change at any moment; the runs come to an end whatever their arguments.
* **C228** A bit-field can be used as a subscript where its value can. False of the code (C228_refuted): `bank[f]` is a KeyError and `b[f]` a TypeError. Proved: in a slice of a memory bank or module a field is its value, mixed with any other bound (C228_bounds_partial); by itself it is a KeyError, TypeError or ValueError, and nothing is changed (C228_subscript_partial); a bit-field takes no field for an index or a bound (C228_field_partial); other subscripts do what they do in the other properties (C228_agrees).
* **C229** The functions that make command codes make nothing else. False of the code (C229_refuted): no operand and no type is checked. Proved: the codes of all instructions of the table (C229_codes_partial); which calls raise, and what all others return (C229_raises_partial); for which operands the number is a code of the mnemonic all the same, and that its low six bits always are (C229_operands_partial).
* **C230** Reports of files that change while they are read are reports of one state of each file. False of the code: a file that is given twice and changes in between (C230_refuted), and parse reads every file twice (C230_refuted_parse). Proved: if nothing changes the model is that of the other properties (C230_still); the lines dealt with are those of each file at the moment it is opened, the moments in order, and there is one state of each file if no file opened twice has changed in between (C230_check_partial); for parse this holds of each of its two readings and of both together, and the symbols are those of the first (C230_parse_partial); FileNotFoundError and SystemExit mean that a file vanished between two accesses, or was missing at one (C230_lost_partial). Opening a file and reading its lines is one access.
* **C231** A card can be laid out in any columns under any names. False of the code: of two fields of one name only the last is found (C231_refuted), and columns before the first are counted from the end of the line (C231_refuted_column). Proved: exactly when a card is made (C231_made_partial); the fields and the record for any columns and names, the last field of a name being the one found (C231_record_partial); the claim if the columns count from 1 and the names differ (C231_columns_partial); for ARGUS cards the names that are needed, the exceptions otherwise, and what P, R and L cards and others hold (C231_argus_partial); which columns a deck of lines can be laid out in (C231_deck_partial).
* **C232** What list-instructions and the symbol tools print of files that change is what they print of one state of each file. False of the code: a file that is given twice and changes in between (C232_refuted for list-instructions, C232_refuted_symbols for list-symbols). Proved: if nothing changes the model is that of the other properties (C232_still); the lines listed are those of each file at the moment it is opened, the moments in order, and there is one state of each file if no file opened twice has changed in between (C232_list_partial); the same of the symbol table and its errors (C232_table_partial) and of what the three symbol tools print (C232_symbols_partial); what FileNotFoundError and SystemExit mean (C232_lost_partial). Opening a file and reading its lines is one access.
* **C233** What a caller does with what a deck hands out does not change the deck. False of the code, which hands out the objects it holds: the list given is deck.lines (C233_refuted), a record of deck.records is that of the card (C233_refuted_record). Proved: the deck as made shows what the model of the other properties holds (C233_made); str(deck) changes only if deck.cards is changed (C233_text_partial); while the lists of the deck are left alone, its fields, stripped fields and records stay those of its cards whatever is done to either (C233_shared_partial), a change at one place changes that part of that card and no other card (C233_effect_partial, C233_parts_partial), and a card that nothing is done to stays as it was (C233_others_partial); deck.lines is the list given, if made from one, and else independent of it (C233_lines_partial). Positions are counted from the start.
* **C234** Decks of any layout keep their source and can be read again. False of the code for a column 0, which counts from the end of the line, so that the newline of a file matters (C234_refuted). Proved for every layout: where the cards of a file deck and of a list deck come from and what the deck's text splits into (C234_source_partial, C234_list_partial), that a file without include lines and the list of its lines make the same deck but for the file name or fail alike (C234_file_partial), and that a deck is made if every line makes a card (C234_complete_partial). Proved for columns from 1 on and widths that are not negative: reading again from the lines and from a printed file (C234_again_partial, C234_print_partial).
* **C235** resolve takes every name that has a value out of the undefined ones. False of the code: the loop deletes from the list it goes through and skips the next name, so of 1024 names with values one is left (C235_refuted); the same for 2^k names and k passes (C235_sharp, C235_exact). Proved: every pass takes out at least half of the names with values and no other (C235_half); k passes take out all if there are less than 2^k (C235_resolve_partial); what is reported is true, and something is reported if there are less than 2^(k-1) (C235_report). In any table, also with names that have no entry, only names with values are taken out, and the only exception is KeyError, with a name without an entry left (C235_any). Names with values get into undefines only if a caller changes the lists handed out (C63).
* **C236** What a caller does with what a symbol table hands out does not confuse the table. False of the code, which hands out the dict and the lists it works with: a name taken out of symbols is still among the undefined ones (C236_refuted), and twice after it is added again (C236_refuted_twice). Proved: without such changes the table is the one of the other properties (C236_agrees), and the calls end as there in any state (C236_ends); an entry keeps all but its references whatever is done (C236_entries); an entry under two names is the same under both until one is replaced (C236_shared), and other names do not see its references (C236_apart); if a caller only changes references and puts entries under new names, undefined names have entries without a value, each once, and the methods work (C236_kept_partial); with an undefined name that has no entry, printing raises KeyError, and so does pruning if no undefined name has a value (C236_missing).
* **C237** A symbol table takes names of any type. False of the code, which puts names into messages with % (name): a name that is a tuple of other than one element is a TypeError when it is added again (C237_refuted) and when resolve says that it tries it (C237_refuted_resolve). C237_ends_partial: exactly which calls fail, and that they change nothing. C237_renamed: the table is always that of the same calls with strings for the names (calls with names that cannot be hashed left out, the empty string for names that are false); C237_spelled: there are such strings; C237_strings: for strings it is the table of the other properties, and nothing fails. printTable, which sorts the names, is left out.
* **C238** Threads that share a bit-field see calls one after the other. False of the code, which reads _value and assigns it without a lock: of two threads that each set a bit one can undo the other (C238_refuted). C238_kept_partial: for every schedule the field is that of some of the operations in the order of ending, the last one always among them, and what a call returns is what it returns after some of the operations that ended before it; C238_any_lost: any such selection can happen. C238_undisturbed_partial, C238_one_writer_partial, C238_blind_partial, C238_locked_partial: the full property for schedules in which no value read is gone at the end of its operation, for one writing thread, for operations that do not use the old value, and for whole calls at a time. C238_bits_partial: values that fit stay so and untouched bits stay as they were. C238_ends, C238_order: how operations end does not depend on the schedule, and which calls end. Reading and assigning the attribute are taken to be single steps.
* **C239** Runs of genpages can take place at the same time. False of the code, which takes no lock: two runs that append to the same file in two pieces each mix their texts (C239_refuted); and even in one piece each, for a file without log card, as the second run would have found the log card of the first (C239_refuted_whole). C239_apart_partial: the property for runs on different files, in any pieces, for every order. C239_whole_partial: the property for texts appended in one piece on files that have a log card or on which genpages fails, several runs on the same file allowed, for every order. C239_kept_partial: at any moment of any runs each file begins with what was in it and nothing else has changed. Reading a file is one step (files are only appended to).
* **C240** Threads that iterate over one memory bank share out its words. False of the code, which reads the cursor three times and takes no lock (C240_refuted): in every bank with two words left two threads can be given the same word and the one before it goes to none (C240_twice), in every bank with one word left both calls can raise KeyError (C240_error), and a word can be given out after StopIteration (C240_back). C240_alone: a call that no step of another thread comes into is that of the model for one thread. C240_words_partial: any schedule changes no word, gives out words from the cursor on only and raises nothing but KeyError and StopIteration. C240_ends_partial: any schedule ends: the calls that do not raise StopIteration are bounded by a number that depends on the threads and the words left only. C240_in_turn_partial, C240_one_thread_partial: the property for threads that take turns and for one thread. Register groups iterate in the same way and are not modelled here.
* **C241** Threads that share a memory bank see their calls one after the other. False of the code, which takes no lock: two fills of the same words can each win one of them, and a read during a fill sees some words from before (C241_mixed, C241_refuted). C241_single_partial: the property for calls that touch one word each, at any moment of any schedule. C241_in_turn_partial: for threads of which none makes a step while another one is within a call. C241_apart_partial: if no thread assigns a word that another one touches, each thread is at any moment where it would be alone. C241_words_partial: in any schedule each word is as at first or holds a value that a call assigns to it.
* **C242** A tool prints all it has to say, whatever characters the sources hold. False of the code: a message quotes the card, print raises UnicodeEncodeError for a character that the output encoding lacks, and nothing catches it (C242_refuted). C242_stops: the lines before are printed, the later ones are not. C242_check_partial, C242_parse_partial, C242_list_partial: the property if the encoding also has the characters of the names given and of the files that are read, directly or by include; so the tools never print a character that is neither ASCII nor from there.
* **C243** listing writes its listings whole, whatever characters the sources hold. False of the code: the listing is opened before its lines are known to be writable, and print raises UnicodeEncodeError at a character that its encoding lacks (C243_refuted); if the file given is itself named .lst, the rest of it is lost (C243_lost). C243_whole_partial: the property if the encodings also have the characters of the names given and of all files. C243_cut: with any encodings a run on one file leaves its listing as it was or with a beginning of its lines, and with all of them if there is no error. C243_others: no other file is changed.
* **C244** A symbol tool prints all it has to say, whatever characters the sources hold. False of the code: symbols and cards are printed as they are, and print raises UnicodeEncodeError for a character that the output encoding lacks (C244_refuted). C244_list_partial, C244_find_partial, C244_check_partial: the property if the encoding also has the characters of the names given and of the files that are read; the symbol that find-symbols looks for does not matter. The messages on the standard error stream never fail, as it escapes such characters.
* **C245** Threads that clear one register group at the same time clear it. False of the code: clear iterates over the group itself, so the threads share its cursor, and += and the look-up after it are several steps: a register can be left out although both calls return (C245_missed, C245_refuted), or both calls raise KeyError (C245_error). C245_others_partial: for any order of steps a register is as it was or cleared, and only KeyError is raised. C245_ends_partial: every call ends. C245_in_turn_partial: the property if no thread makes a step while another is within next, as with a lock for next only. C245_alone: a call that no other comes into is RegisterGroup.clear of Model/Registers.
* **C248** Threads that clear one register file at the same time clear it. False of the code: clear iterates over the file itself, so the threads share its cursor, and += and the look-up after it are several steps: a whole group can be left out although both calls return (C248_missed, C248_refuted). C248_others_partial: for any order of steps a register is as it was, or it is one of the file and cleared, the file keeps its groups and these their registers, and only KeyError and AttributeError are raised. C248_in_turn_partial: the property if no thread makes a step while another is within next of the file or of a group, as with a lock for next only. C248_alone: a call that no other comes into is Registers.clear of Model/Registers. Not proved: that every call ends, as C245_ends_partial has it for one group.

## What is modelled

| File | Modelled | Left out |
|---|---|---|
| `h800/bitfield.py` | the whole class; the texts of its exceptions (Model/Messages); negative widths (Model/NoBits); values that are not ints (Model/Values); bit-fields as subscripts (Model/FieldKeys); `in` and `reversed` (Model/Protocol); calls from several threads (Model/Threads) | |
| `h800/word.py` | `Word`, `InstructionWord`, and the texts of their exceptions | `emit` (does nothing) |
| `h800/registers.py` | tables, `Register`, `RegisterGroup`, `Registers`, naming functions, and the texts of their exceptions; keys of any type (Model/Keys; bit-fields in Model/FieldKeys); `in` and `reversed` (Model/Protocol); `RegisterGroup.clear` and `Registers.clear` by several threads (Model/Clearers, Model/FileClearers) | registers and groups created by a client outside a file are given by their references only |
| `h800/memory.py` | `MemoryBank` (also with the words it hands out), `MemoryModule`, `ExpansionMemoryModule`, and the texts of their exceptions; keys of any type (Model/Keys; bit-fields in Model/FieldKeys); `in` and `reversed` (Model/Protocol); iteration, reading and writing by several threads (Model/Takers, Model/Sharers) | parity (not implemented) |
| `h800/instruction.py` | `Instruction` and its subclasses; the line that the constructor prints (Model/Calls); the texts of exceptions (Model/Messages); operands of any type (Model/Operands) | |
| `h800/instructions.py` | opcode tables, all instruction, constant and control classes through their table rows and signatures, calls with arguments by position and keyword (Model/Calls), `make_*_opcode`, `print_instructions`, `namedtuple_defaults` | `NotImplementedException` |
| `h800/charset.py` | the table | |
| `h800/punchcard.py`, `h800/arguscard.py` | cards and decks; `verbose` output in Model/Verbose; files that change while they are read in Model/Moving; which objects are shared in Model/HandedOut | `Card.parse` (does nothing) |
| `h800/symbol_table.py` | `SymbolTable`, `SymbolTableEntry`, all functions, and the texts of all messages (Model/Repr) and of what the class prints (Model/TableText); which objects are shared in Model/TableObjects; names of any type in Model/AnyNames | |
| `h800/assembler.py` | all methods, as if the import of the missing module `parser_record` succeeded (importing the file raises ImportError) | logging; `parse` (only logs), `parseRecord` (does nothing) |
| `h800/context.py` | all methods on a context in any state, and that the constructor fails | the text of `__str__` after the point where it fails |
| `tools/*.py` | `main` of every tool | option values in `optparse` (no tool has options with values; the rest is in Model/Options, its error texts in Model/LastWords, its help texts on pages of 80 columns in Model/Help); printed lines are values naming kind and arguments except where a property is about the text; output printed before an exception is modelled for the instruction tools and parse (Model/Trace) and for the symbol tools (Model/SymTrace), the text of list-symbols in Model/ListText, the text of the frequency lines with float rounding in Model/Percent, `--verbose` in Model/Verbose, the exit statuses in Model/Status, the text that check-instructions and parse write on the standard output in Model/CheckText, the text that the symbol tools write on both streams and parse on the standard error stream in Model/Repr |

Attributes read through a property (`width`, `name`, `line`, ...) are fields of the model's structures.
`h800/*_test.py` are not modelled; the tests in them are run against the model in `lean/Verif/Tests`.

## Trusted base

* The Lean 4.33 kernel and the axioms below. There is no axiom of our own, no `sorry`, no `native_decide` and no `bv_decide`.
* The faithfulness of `Verif/Py.lean` and `Verif/Model` to Python and to the code, which was read and not run. The simplifications are stated at the definitions and above. `scripts/compare_python.py` compares the models of Python's own functions (`strip`, `split`, `int`, slices, `repr`, formats, `optparse` and its help, ...) with Python on random inputs; it found no disagreement. That is a test, not a proof. `scripts/compare_tables.py` parses the sources in `/repo` with `ast`, without running them, and compares every table that was copied by hand with the model: the opcodes, the lists of directives and constants, the instruction classes with their constructors, the character set, the registers, the tag prefixes, the card layouts, and the options, help texts and usages of the tools. All are the same.
* For C46 and C98, the transcription of `opcodes.txt` and of the comment table of `instructions.py`.

### Axioms of each theorem

`Classical.choice`, `Quot.sound`, `propext` (570 theorems): `C01_bit_read`, `C02_indices`, `C03_bit_write`, `C03_bit_write_invalid`, `C04_slice_read`, `C05_slice_write`, `C06_lsbLeft_partial`, `C06_exact_read`, `C06_exact_write`, `C07_range_acceptance`, `C07_omitted_bounds`, `C08_acceptance_partial`, `C08_slice_effect_partial`, `C08_index_effect_partial`, `C08_value_effect_partial`, `C09_range_invariant`, `C10_refuted`, `C10_set_clear_partial`, `C11_isRange_partial`, `C13_repr`, `C13_any`, `C14_bit_predicates`, `C15_word_value`, `C16_instructionWord_packs`, `C17_field_set`, `C17_history`, `C18_split_unique`, `C19_set_exact_partial`, `C19_init_exact_partial`, `C19_large_rejected_partial`, `C20_register_init`, `C20_register_setValue`, `C21_names`, `C22_lookup`, `C23_refuted`, `C24_last_write`, `C24_bad_width`, `C25_clear_partial`, `C25_first_clear_partial`, `C25_refuted`, `C26_iteration_partial`, `C26_refuted`, `C27_setitem_partial`, `C27_refuted`, `C28_setitem_partial`, `C28_refuted`, `C29_last_write`, `C30_single_access`, `C31_slice_fill_partial`, `C31_refuted`, `C32_slice_read`, `C33_clear`, `C34_iteration_partial`, `C34_refuted`, `C35_module`, `C36_refuted`, `C37_masked`, `C37_masked_classes`, `C38_unmasked`, `C38_unmasked_classes`, `C39_other`, `C39_other_classes`, `C40_fits`, `C41_accepts`, `C41_table`, `C42_clashes_partial`, `C43_constants`, `C46_listing`, `C46_opcodes_txt`, `C48_domain`, `C49_tiling`, `C49_default`, `C50_record`, `C51_beyond_width`, `C53_instruction`, `C54_no_code`, `C55_refuted`, `C55_from_column_10_partial`, `C56_lines`, `C57_complete`, `C57_errors`, `C58_never_a_deck_partial`, `C59_provenance`, `C60_total`, `C61_str`, `C61_file`, `C64_prune_partial`, `C65_any_table`, `C68_total`, `C68_complete`, `C69_sound`, `C70_errors`, `C71_refuted`, `C71_last_wins_partial`, `C71_reported_partial`, `C72_grows`, `C72_other_segments`, `C76_both_partial`, `C78_exact_partial`, `C78_divides_partial`, `C78_errors_partial`, `C78_refuted`, `C79_card`, `C80_counts`, `C80_total`, `C81_exact_partial`, `C81_refuted`, `C82_lists`, `C82_total`, `C84_last_partial`, `C84_single_partial`, `C84_completes_partial`, `C84_refuted`, `C85_total`, `C85_matches`, `C85_completes`, `C86_pages`, `C87_newline`, `C90_frequencies`, `C91_unused`, `C92_rows`, `C92_completes`, `C93_refused`, `C93_definitions`, `C93_affix`, `C94_contents`, `C94_completes`, `C95_refuted`, `C95_nonblank_partial`, `C95_filename_partial`, `C97_exact_partial`, `C98_documented`, `C98_conversely`, `C99_zero_based_partial`, `C99_one_based_partial`, `C99_register_partial`, `C99_module_partial`, `C99_refuted`, `C100_sum_of_bits`, `C100_determined`, `C101_bit_array`, `C102_register`, `C102_negative`, `C102_group`, `C102_file`, `C102_determined`, `C103_bank`, `C103_determined`, `C104_layout`, `C105_list`, `C105_check`, `C106_twice`, `C108_lines`, `C108_print`, `C109_file_lines`, `C110_fields`, `C110_entries`, `C110_argus`, `C111_banks`, `C112_step_ignored_partial`, `C112_refuted`, `C113_symbols`, `C114_outcome_partial`, `C114_short_partial`, `C116_never_moves_partial`, `C117_references`, `C117_shared`, `C118_defaults`, `C120_width_partial`, `C121_plain_partial`, `C121_exact_partial`, `C122_definitions`, `C122_affix`, `C123_complex`, `C124_stays`, `C124_stored_instruction`, `C125_any_order`, `C125_last_counts`, `C126_history_partial`, `C126_refuted`, `C128_lines_partial`, `C129_layout`, `C129_default`, `C132_reports`, `C133_same_code`, `C133_reports`, `C136_order`, `C137_check_prefix`, `C137_zero`, `C137_parse`, `C138_errors`, `C138_ends`, `C138_same`, `C139_refuted`, `C139_close_partial`, `C139_nearest_partial`, `C139_least_partial`, `C139_order_partial`, `C139_text_partial`, `C139_report_partial`, `C140_log_card_partial`, `C140_filename_partial`, `C140_exact_partial`, `C140_settles_partial`, `C141_check`, `C141_list`, `C142_exact_partial`, `C142_plain_partial`, `C143_exact_partial`, `C143_whole_partial`, `C144_source`, `C145_failure`, `C146_once`, `C146_faults`, `C147_check_failure`, `C147_list_failure`, `C147_find_failure`, `C147_check_success`, `C147_list_success`, `C147_find_success`, `C148_details`, `C149_definitions`, `C150_reading`, `C152_check`, `C152_list`, `C152_listing`, `C152_symbols`, `C152_parse`, `C153_parse`, `C153_unique`, `C153_help`, `C154_anywhere`, `C154_cluster`, `C154_reach`, `C154_dash`, `C155_same`, `C155_tools`, `C156_abbreviated_partial`, `C156_refused_partial`, `C157_verbose`, `C158_args_partial`, `C158_numbers_partial`, `C159_refuted`, `C159_partial`, `C159_exact_partial`, `C160_parse`, `C160_check`, `C161_check`, `C161_parse`, `C162_check`, `C162_unique`, `C163_list`, `C163_listing`, `C164_check`, `C164_list`, `C164_find`, `C165_parse`, `C166_check`, `C166_list`, `C166_listing`, `C166_check_symbols`, `C166_list_symbols`, `C166_find_symbols`, `C166_parse`, `C166_unique`, `C167_refuted`, `C167_sources_partial`, `C168_int`, `C168_int_unique`, `C168_lines`, `C168_steps_unique`, `C168_status`, `C169_pages`, `C169_unique`, `C169_status`, `C170_check`, `C170_list`, `C170_check_symbols`, `C170_list_symbols`, `C170_find_symbols`, `C170_parse`, `C170_listing`, `C170_unique`, `C171_literal`, `C171_found`, `C172_check`, `C172_list`, `C172_find`, `C172_parse`, `C173_find`, `C173_check`, `C173_list`, `C174_check_partial`, `C175_replace`, `C175_space`, `C175_numeral`, `C175_strip`, `C175_word`, `C177_same_partial`, `C178_text`, `C178_tells`, `C178_once`, `C178_same`, `C179_read`, `C179_missing`, `C179_exit`, `C180_check`, `C180_listing`, `C180_check_symbols`, `C180_list_symbols`, `C180_parse`, `C180_list`, `C180_find_symbols`, `C180_genlines`, `C180_genpages`, `C180_kinds`, `C180_ends_check`, `C180_ends_list`, `C180_ends_listing`, `C180_ends_check_symbols`, `C180_ends_list_symbols`, `C180_ends_find_symbols`, `C180_ends_parse`, `C180_ends_genlines`, `C180_ends_genpages`, `C181_prog_partial`, `C182_true_partial`, `C182_raise`, `C182_ok`, `C183_raise`, `C183_constant`, `C184_word`, `C184_word_set`, `C184_field_set`, `C184_iword`, `C184_memory`, `C184_checks`, `C184_memory_range`, `C185_new`, `C185_new_raise`, `C185_set`, `C185_lookup`, `C185_group_partial`, `C185_file`, `C185_new_group`, `C186_prune`, `C186_resolve`, `C187_lines_partial`, `C188_built`, `C188_crash`, `C189_completes_partial`, `C189_stops_partial`, `C189_check_partial`, `C189_list_partial`, `C190_codes_partial`, `C190_complete_partial`, `C190_simulator_partial`, `C190_refuted`, `C191_unbroken_partial`, `C191_gap_partial`, `C191_designated_partial`, `C191_refuted`, `C192_reported_partial`, `C192_masked_partial`, `C192_refuted`, `C193_accepted_partial`, `C193_unsupported_partial`, `C193_lax_partial`, `C193_refuted`, `C194_assign_partial`, `C194_tas_partial`, `C194_refuted`, `C195_plain_partial`, `C195_other_partial`, `C195_refuted`, `C196_reports`, `C197_string`, `C197_found`, `C197_error`, `C198_reports`, `C199_bit_value`, `C200_genpages`, `C200_listing`, `C201_refuted`, `C201_agrees`, `C201_error`, `C201_made_partial`, `C201_refused`, `C201_value`, `C201_int`, `C201_missing`, `C201_zero`, `C202_reports`, `C203_read`, `C203_write`, `C203_unique`, `C203_address`, `C204_parts`, `C204_proceed`, `C205_refuted`, `C205_designates_partial`, `C206_segments_partial`, `C206_occurs_partial`, `C207_flat`, `C207_special`, `C208_divided`, `C208_renamed`, `C209_words`, `C209_bits`, `C209_once`, `C209_nested`, `C210_shown`, `C210_taken`, `C210_printed`, `C211_finds_partial`, `C211_refuted`, `C212_list`, `C212_check`, `C212_find`, `C213_refuted`, `C213_agrees`, `C213_index_partial`, `C213_which_partial`, `C213_slice_partial`, `C213_value_partial`, `C213_bit_partial`, `C213_whole_partial`, `C213_made_partial`, `C213_kinds_partial`, `C213_unusable_partial`, `C214_refuted`, `C214_agrees`, `C214_refused_partial`, `C214_word_partial`, `C214_bank_partial`, `C215_read_partial`, `C216_bytes`, `C216_deck`, `C216_check`, `C216_list`, `C216_symbols`, `C216_parse`, `C216_stored`, `C216_listing`, `C216_genpages`, `C217_read_partial`, `C218_agrees`, `C218_equal_partial`, `C218_memory_partial`, `C218_group_partial`, `C218_groups_partial`, `C218_names_partial`, `C218_number_partial`, `C219_reports`, `C220_refuted`, `C220_agrees`, `C220_exact_partial`, `C220_one_partial`, `C220_classes_partial`, `C220_constant_partial`, `C221_zero_based_partial`, `C221_one_based_partial`, `C221_register_partial`, `C221_bank_partial`, `C221_group_partial`, `C221_file_partial`, `C221_module_partial`, `C221_refuted`, `C222_zero_based_partial`, `C222_one_based_partial`, `C222_register_partial`, `C222_bank_partial`, `C222_group_partial`, `C222_file_partial`, `C223_finished`, `C223_listing`, `C223_sources`, `C224_separate_partial`, `C225_log_card_partial`, `C225_pages_partial`, `C225_cut_partial`, `C225_ascii_partial`, `C225_reports_partial`, `C226_apart_partial`, `C226_sources_partial`, `C226_ends_partial`, `C227_reports`, `C227_listing`, `C228_refuted`, `C228_agrees`, `C228_bounds_partial`, `C228_objects`, `C228_field_partial`, `C229_codes_partial`, `C229_raises_partial`, `C229_operands_partial`, `C230_check_partial`, `C230_parse_partial`, `C230_lost_partial`, `C230_refuted`, `C230_refuted_parse`, `C231_made_partial`, `C231_record_partial`, `C231_columns_partial`, `C231_argus_partial`, `C231_deck_partial`, `C232_still`, `C232_list_partial`, `C232_table_partial`, `C232_symbols_partial`, `C232_lost_partial`, `C232_refuted_symbols`, `C233_made`, `C233_text_partial`, `C233_effect_partial`, `C233_parts_partial`, `C233_others_partial`, `C234_again_partial`, `C234_print_partial`, `C235_half`, `C235_resolve_partial`, `C235_exact`, `C235_report`, `C235_sharp`, `C235_refuted`, `C236_entries`, `C236_agrees`, `C236_apart`, `C236_kept_partial`, `C237_ends_partial`, `C237_renamed`, `C237_spelled`, `C237_strings`, `C238_refuted`, `C238_order`, `C238_undisturbed_partial`, `C238_one_writer_partial`, `C238_blind_partial`, `C238_locked_partial`, `C238_bits_partial`, `C238_any_lost`, `C239_apart_partial`, `C239_whole_partial`, `C239_kept_partial`, `C240_twice`, `C240_error`, `C240_back`, `C240_refuted`, `C240_alone`, `C240_words_partial`, `C240_ends_partial`, `C241_apart_partial`, `C241_words_partial`, `C242_check_partial`, `C242_parse_partial`, `C242_list_partial`, `C242_refuted`, `C243_whole_partial`, `C244_list_partial`, `C244_find_partial`, `C244_check_partial`, `C245_new`, `C245_ends_partial`, `C245_alone`, `C246_genpages`, `C246_characters`, `C246_genlines`, `C247_genlines_same`, `C247_genpages_same`, `C248_alone`.

`Quot.sound`, `propext` (115 theorems): `C12_failure_atomic`, `C21_round_trip`, `C43_all_mnemonics`, `C44_except_TS_partial`, `C47_one_table`, `C48_blanks`, `C57_expansion`, `C57_unique`, `C57_limit`, `C58_refuted`, `C60_log_section`, `C62_first_wins`, `C63_undefines`, `C64_refuted`, `C64_reachable_partial`, `C65_resolve`, `C67_predicates`, `C73_check`, `C74_refuted`, `C74_exact_partial`, `C74_one_segment_partial`, `C75_exact`, `C76_one_partial`, `C77_fuzzy`, `C79_fits`, `C83_exact_partial`, `C89_print`, `C98_mnemonics`, `C107_check`, `C107_list_append`, `C119_positions`, `C121_refuted`, `C127_references`, `C127_undefined`, `C128_parallel_partial`, `C130_reset_partial`, `C136_codes`, `C137_check_ends`, `C137_list_ends`, `C137_list_prefix`, `C140_refuted`, `C147_ends`, `C150_unique`, `C151_check`, `C151_list`, `C151_listing`, `C151_check_symbols`, `C151_find_symbols`, `C151_list_symbols`, `C151_parse`, `C156_refuted`, `C168_unique`, `C174_refuted`, `C175_order`, `C175_sorted`, `C175_split`, `C176_accepted`, `C176_refused`, `C182_new`, `C182_new_ok`, `C183_true`, `C185_group_set`, `C185_file_set`, `C186_add`, `C186_reachable`, `C187_refuted`, `C189_plain_partial`, `C189_refuted`, `C198_inlined`, `C199_widths`, `C200_total`, `C200_same`, `C206_refuted`, `C210_text`, `C210_explains`, `C215_texts_refuted`, `C216_texts`, `C217_refuted`, `C218_refuted`, `C222_module_partial`, `C223_genpages`, `C226_refuted`, `C228_subscript_partial`, `C230_still`, `C231_refuted`, `C231_refuted_column`, `C232_refuted`, `C234_source_partial`, `C234_list_partial`, `C234_file_partial`, `C234_complete_partial`, `C235_any`, `C236_ends`, `C236_shared`, `C236_missing`, `C236_refuted`, `C236_refuted_twice`, `C237_refuted`, `C237_refuted_resolve`, `C238_kept_partial`, `C238_ends`, `C240_in_turn_partial`, `C240_one_thread_partial`, `C241_in_turn_partial`, `C241_single_partial`, `C241_refuted`, `C242_stops`, `C243_cut`, `C245_others_partial`, `C245_in_turn_partial`, `C245_refuted`, `C248_others_partial`, `C248_in_turn_partial`, `C248_missed`, `C248_refuted`.

`propext` (74 theorems): `C06_refuted`, `C08_refuted`, `C11_refuted`, `C19_refuted`, `C38_proceed`, `C42_refuted`, `C45_names_partial`, `C45_refuted`, `C45_never_partial`, `C48_unambiguous`, `C52_comment`, `C52_other`, `C52_argus`, `C66_update_partial`, `C76_refuted`, `C83_refuted`, `C83_others_partial`, `C83_sources_partial`, `C88_value_partial`, `C93_exact_ignored`, `C96_unchanged`, `C97_refuted`, `C98_proceed`, `C104_rows`, `C105_segments_needed`, `C114_refuted`, `C114_no_context_partial`, `C115_load_save`, `C116_refuted`, `C120_refuted`, `C128_refuted`, `C134_refuted`, `C134_others_partial`, `C134_asterisk_partial`, `C135_documented`, `C142_refuted`, `C143_refuted`, `C153_good`, `C158_refuted`, `C175_lines`, `C177_refuted`, `C181_refuted`, `C182_refuted`, `C185_refuted`, `C188_plain`, `C190_mnemonics_partial`, `C200_lines`, `C210_words`, `C215_directory_refuted`, `C215_latin_refuted`, `C215_refuted`, `C216_blocked`, `C217_include_refuted`, `C222_refuted`, `C224_refuted`, `C225_refuted`, `C227_genpages`, `C229_refuted`, `C233_shared_partial`, `C233_lines_partial`, `C233_refuted`, `C233_refuted_record`, `C234_refuted`, `C239_refuted`, `C239_refuted_whole`, `C241_mixed`, `C243_others`, `C243_refuted`, `C243_lost`, `C244_refuted`, `C245_missed`, `C245_error`, `C247_genlines`, `C247_genpages`.

no axiom (9 theorems): `C44_refuted`, `C47_no_duplicates`, `C66_refuted`, `C88_refuted`, `C130_refuted`, `C131_refuted`, `C131_assemble_partial`, `C201_shape`, `C210_fit`.
