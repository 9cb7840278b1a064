{"id": "C01", "title": "Bit index addresses the documented bit", "statement": "Reading b[i] returns the bit of b.value whose weight is the one documented for the numbering scheme (LSB_0: 2^i, LSB_1: 2^(i-1), MSB_0: 2^(W-1-i), MSB_1: 2^(W-i)), whatever the storage order, and raises ValueError when that weight is outside the field.", "quantifier": "every width W, value, numbering scheme, order and integer index i", "why_tests_cant": "tests fix one width (8, 12 or 48) and a handful of values; the claim ranges over every width, numbering, order, value and index", "anchors": ["h800/bitfield.py:BitField.__getitem__", "h800/bitfield.py:BitField._rindex", "h800/bitfield.py:BitField._shift", "h800/bitfield.py:BitField._checkIndex"]}
{"id": "C02", "title": "The accepted indices are exactly b.indices", "statement": "b.indices has W pairwise distinct entries; an index is accepted by b[i] exactly when it is one of them; b.lsb is the index of the weight-1 bit and b.msb the index of the weight-2^(W-1) bit.", "quantifier": "every width W>=1 (W=0 for the first two clauses), numbering, order, value and integer index", "why_tests_cant": "tests fix one width (8, 12 or 48) and a handful of values; the claim ranges over every width, numbering, order, value and index", "anchors": ["h800/bitfield.py:BitField.indices", "h800/bitfield.py:BitField.lsb", "h800/bitfield.py:BitField.msb", "h800/bitfield.py:BitField._vindex", "h800/bitfield.py:BitField._rindex", "h800/bitfield.py:BitField._checkIndex"]}
{"id": "C03", "title": "Single-bit write changes exactly that bit", "statement": "After b[i] = x with x in {0,1} and i valid, b[i] == x and every other bit of b.value is unchanged; an invalid i raises ValueError.", "quantifier": "every width, in-range value, numbering, order, index and bit value", "why_tests_cant": "tests fix one width (8, 12 or 48) and a handful of values; the claim ranges over every width, numbering, order, value and index", "anchors": ["h800/bitfield.py:BitField.__setitem__"]}
{"id": "C04", "title": "MSB-left slice read returns the selected bits", "statement": "In an MSB-left field, b[s:e] for an accepted range returns floor(b.value / 2^lo) mod 2^n, where lo is the weight exponent of e and n the number of bits from s to e.", "quantifier": "every width, value, numbering and accepted range of an MSB-left field", "why_tests_cant": "tests fix one width (8, 12 or 48) and a handful of values; the claim ranges over every width, numbering, order, value and index", "anchors": ["h800/bitfield.py:BitField.__getitem__", "h800/bitfield.py:BitField._bitmask", "h800/bitfield.py:BitField._lsbIndex", "h800/bitfield.py:BitField._getRange"]}
{"id": "C05", "title": "MSB-left slice write replaces exactly the selected bits", "statement": "In an MSB-left field, after b[s:e] = x with 0 <= x < 2^n, b[s:e] == x and every bit outside s..e is unchanged.", "quantifier": "every width, in-range value, numbering, accepted range and n-bit x", "why_tests_cant": "tests fix one width (8, 12 or 48) and a handful of values; the claim ranges over every width, numbering, order, value and index", "anchors": ["h800/bitfield.py:BitField.__setitem__", "h800/bitfield.py:BitField._bitmask"]}
{"id": "C06", "title": "LSB-left slices obey the same contract", "statement": "In an LSB-left (the default order) field, b[s:e] returns exactly the bits selected by s..e, and after b[s:e] = x they read back as x with every other bit unchanged.", "quantifier": "every width, in-range value, numbering, accepted range of an LSB-left field and n-bit x", "why_tests_cant": "the one LSB-left slice test writes a value that the wrong mask happens not to disturb, and never reads a slice back", "anchors": ["h800/bitfield.py:BitField.__getitem__", "h800/bitfield.py:BitField.__setitem__", "h800/bitfield.py:BitField._bitmask"]}
{"id": "C07", "title": "Slice bounds are accepted exactly when valid and in field order", "statement": "b[s:e] is accepted iff both s and e are valid indices and s is not to the right of e in the field's left-to-right order; otherwise ValueError (TypeError for an omitted bound reached by the check).", "quantifier": "every width, numbering, order and pair of optional integer bounds", "why_tests_cant": "tests fix one width (8, 12 or 48) and a handful of values; the claim ranges over every width, numbering, order, value and index", "anchors": ["h800/bitfield.py:BitField._checkRange", "h800/bitfield.py:BitField._checkIndex"]}
{"id": "C08", "title": "Values too large or negative are rejected", "statement": "The constructor, the value setter, slice assignment and single-bit assignment raise ValueError for every value that does not fit in the bits being assigned (negative, or >= 2^n).", "quantifier": "every width, field, range and integer value", "why_tests_cant": "tests try one too-large constructor value; the acceptance boundary 2^n itself and negatives need every n", "anchors": ["h800/bitfield.py:BitField.__init__", "h800/bitfield.py:BitField.value", "h800/bitfield.py:BitField._checkValue", "h800/bitfield.py:BitField.__setitem__"]}
{"id": "C09", "title": "A field's value never leaves 0..maxval", "statement": "Starting from a constructor call with 0 <= value, after any sequence of operations whose assigned values fit their target, 0 <= b.value <= b.maxval.", "quantifier": "every finite history of bit writes, slice writes, value writes, set and clear calls", "why_tests_cant": "a history is unbounded; tests run a few fixed ones", "anchors": ["h800/bitfield.py:BitField.__init__", "h800/bitfield.py:BitField.__setitem__", "h800/bitfield.py:BitField.set", "h800/bitfield.py:BitField.clear", "h800/bitfield.py:BitField.value"]}
{"id": "C10", "title": "set(i)/clear(i) touch exactly bit i; set()/clear() touch all", "statement": "b.set(i) sets bit i and b.clear(i) clears bit i, leaving the others unchanged; with no argument they give maxval and 0.", "quantifier": "every width, in-range value, numbering, order and valid index, including index 0", "why_tests_cant": "the ripple tests use 1-based numbering only, so index 0 is never passed", "anchors": ["h800/bitfield.py:BitField.set", "h800/bitfield.py:BitField.clear"]}
{"id": "C11", "title": "isRange / isRangeSet / isRangeClr report the bits of the range", "statement": "isRangeSet(s,e) is True iff every bit in the range is 1, isRangeClr(s,e) iff every bit is 0, and isRange(s,e,x) iff every bit equals x.", "quantifier": "every MSB-left field, value and accepted range", "why_tests_cant": "the only test uses the full-width range, where the shift that is wrong elsewhere is zero", "anchors": ["h800/bitfield.py:BitField.isRange", "h800/bitfield.py:BitField.isRangeSet", "h800/bitfield.py:BitField.isRangeClr"]}
{"id": "C12", "title": "A rejected bit-field operation leaves the field unchanged", "statement": "Whenever a bit write, slice write, value write, set or clear raises, b.value, width, numbering and order are as before; and no successful operation changes width, numbering or order.", "quantifier": "every field (any order, any value, including out-of-range ones), operation and argument", "why_tests_cant": "exception paths of all argument combinations cannot be enumerated", "anchors": ["h800/bitfield.py:BitField.__setitem__", "h800/bitfield.py:BitField.value", "h800/bitfield.py:BitField.set", "h800/bitfield.py:BitField.clear"]}
{"id": "C13", "title": "repr is the W-digit binary numeral of the value", "statement": "For 0 <= value <= maxval, repr(b) has exactly W characters, all '0' or '1', and reading it as a base-2 numeral (most significant first, whatever the order) gives b.value. For any other value it is filled with zeros to W characters, followed by the letter b for a negative value and the shortest base-2 numeral of the magnitude.", "quantifier": "every width W and every value (the first part for W>=1)", "why_tests_cant": "2^W values per width", "anchors": ["h800/bitfield.py:BitField.__repr__"]}
{"id": "C14", "title": "isBitSet and isBitClr are complementary and agree with b[i]", "statement": "For valid i, isBitSet(i) iff b[i]==1, isBitClr(i) iff b[i]==0, and exactly one of them holds; for invalid i both raise ValueError.", "quantifier": "every field and index", "why_tests_cant": "tests fix one width (8, 12 or 48) and a handful of values; the claim ranges over every width, numbering, order, value and index", "anchors": ["h800/bitfield.py:BitField.isBit", "h800/bitfield.py:BitField.isBitSet", "h800/bitfield.py:BitField.isBitClr"]}
{"id": "C15", "title": "Word accepts exactly 48-bit values and reads them back", "statement": "Word(v) and w.value = v succeed iff 0 <= v < 2^48, after which w.value == v; otherwise ValueError and an existing word is unchanged.", "quantifier": "every integer v and every word", "why_tests_cant": "2^48 values plus all out-of-range integers", "anchors": ["h800/word.py:Word.__init__", "h800/word.py:Word.value"]}
{"id": "C16", "title": "InstructionWord packs its four fields", "statement": "InstructionWord(c,a,b,d) with 12-bit fields has value c*2^36 + a*2^24 + b*2^12 + d, and its command, a, b, c properties return the four arguments.", "quantifier": "every quadruple of 12-bit values", "why_tests_cant": "2^48 combinations", "anchors": ["h800/word.py:InstructionWord.__init__", "h800/word.py:InstructionWord.command"]}
{"id": "C17", "title": "Each InstructionWord field setter changes only its field", "statement": "Setting one of command/a/b/c to a 12-bit value makes that property return it, leaves the other three properties unchanged, and keeps the word within 48 bits; hence after any history of setter calls each property returns the last value set to it.", "quantifier": "every word value, field, 12-bit value and history of field and whole-word writes", "why_tests_cant": "tests set each field to 4095 on a zero word only", "anchors": ["h800/word.py:InstructionWord"]}
{"id": "C18", "title": "A 48-bit word splits uniquely into its four fields", "statement": "For any 48-bit w, rebuilding an InstructionWord from (command,a,b,c) of a word with value w gives back w.", "quantifier": "every 48-bit value", "why_tests_cant": "2^48 values", "anchors": ["h800/word.py:InstructionWord"]}
{"id": "C19", "title": "InstructionWord rejects field values outside 0..4095", "statement": "The constructor and the four setters raise ValueError for any field value outside 0..4095, so one field can never disturb another.", "quantifier": "every word, field and integer", "why_tests_cant": "the boundary value 4096 is never tried by a test", "anchors": ["h800/word.py:InstructionWord", "h800/bitfield.py:BitField._checkValue"]}
{"id": "C20", "title": "Register accepts exactly its width", "statement": "Register(data,name,width) succeeds iff width is 16 or 24, 0 <= data < 2^width and name is empty/None or a known name; then .value == data; r.value = v succeeds iff 0 <= v < 2^width and then reads back, else ValueError with r unchanged.", "quantifier": "every integer data, width, v and every string name", "why_tests_cant": "unbounded integers and strings; the range tests iterate over an empty range", "anchors": ["h800/registers.py:Register.__init__", "h800/registers.py:Register.value"]}
{"id": "C21", "title": "Register names and numbers correspond", "statement": "registerName is defined exactly on 0..31 and registerNumber(registerName(n)) == n; registerNumber is defined exactly on the 32 names and 4 aliases; registerAlias(n) is the alias for 28..31 and the plain name otherwise; everything else raises ValueError.", "quantifier": "every integer and every string", "why_tests_cant": "no tests; unbounded integers and strings", "anchors": ["h800/registers.py:registerName", "h800/registers.py:registerNumber", "h800/registers.py:registerAlias"]}
{"id": "C22", "title": "Register group lookup by name and by number agree", "statement": "group[name] and group[registerNumber(name)] are the same register for each of the 32 names; every other string and every integer outside 0..31 raises ValueError.", "quantifier": "every string and integer key and every group state", "why_tests_cant": "unbounded keys; names are never used as keys by a test", "anchors": ["h800/registers.py:RegisterGroup.__getitem__"]}
{"id": "C23", "title": "Alias names can be used to index a register group", "statement": "group['RAC'], ['DRAC'], ['WAC'], ['DWAC'] are registers 28..31, as registerNumber says.", "quantifier": "the four alias names, every group state", "why_tests_cant": "no test uses an alias as a key", "anchors": ["h800/registers.py:RegisterGroup.__getitem__", "h800/registers.py:ALIASES"]}
{"id": "C24", "title": "A register holds the last value written to it", "statement": "In a register file of 8 groups of 32, after any history of value, bit and slice writes to registers (in-range), reading register n of group g returns what a plain map (g,n)->value updated by the same history holds; a write to one register never changes another.", "quantifier": "every history and every (g,n)", "why_tests_cant": "unbounded histories over 256 registers", "anchors": ["h800/registers.py:Registers", "h800/registers.py:RegisterGroup", "h800/registers.py:Register"]}
{"id": "C25", "title": "clear() zeroes every register", "statement": "After group.clear() (or registers.clear()) every register in it reads 0, whatever was done before.", "quantifier": "every prior history including loops over the group and earlier clear() calls", "why_tests_cant": "the existing clear test iterates an already exhausted iterator, so its final assertions never run", "anchors": ["h800/registers.py:RegisterGroup.clear", "h800/registers.py:RegisterGroup.__next__", "h800/registers.py:Registers.clear"]}
{"id": "C26", "title": "Iterating a register group visits each register once, every time", "statement": "Each 'for r in group' loop visits registers 0..31 in order.", "quantifier": "every prior history", "why_tests_cant": "needs loops after loops; the second loop silently does nothing", "anchors": ["h800/registers.py:RegisterGroup.__iter__", "h800/registers.py:RegisterGroup.__next__"]}
{"id": "C27", "title": "Assigning into a register group replaces that register", "statement": "After group[k] = r for a valid name or number k, group[k] is r and the group still has 32 registers.", "quantifier": "every group, valid key and register", "why_tests_cant": "no test assigns into a group", "anchors": ["h800/registers.py:RegisterGroup.__setitem__"]}
{"id": "C28", "title": "Assigning a register group into the register file", "statement": "After registers[k] = g with 0 <= k < 8, registers[k] is g and the other seven groups are unchanged; other keys are rejected.", "quantifier": "every register file, key and group", "why_tests_cant": "no test assigns a group", "anchors": ["h800/registers.py:Registers.__setitem__", "h800/registers.py:Registers.__getitem__"]}
{"id": "C29", "title": "Memory reads return the last value written", "statement": "After any history of single-word writes, slice fills, clears and iteration steps on a memory bank, bank[a] is the value last stored at a (0 initially), and always within 48 bits.", "quantifier": "every history and every address", "why_tests_cant": "unbounded histories over 2048 addresses", "anchors": ["h800/memory.py:MemoryBank"]}
{"id": "C30", "title": "Out-of-range single-word accesses are rejected without effect", "statement": "bank[a] and bank[a] = v raise KeyError for a outside 0..2047, bank[a] = v raises ValueError for v outside 0..2^48-1; the bank is unchanged in either case.", "quantifier": "every integer address and value, every bank state", "why_tests_cant": "test_memorybank_invalid_args is empty", "anchors": ["h800/memory.py:MemoryBank.__getitem__", "h800/memory.py:MemoryBank.__setitem__"]}
{"id": "C31", "title": "A slice fill is all-or-nothing", "statement": "bank[s:e] = v stores v in exactly the words s..e-1, or raises and changes nothing.", "quantifier": "every pair of bounds, value and bank state", "why_tests_cant": "a failing slice write is never tested", "anchors": ["h800/memory.py:MemoryBank.__setitem__"]}
{"id": "C32", "title": "A slice read returns the words s..e-1 in order", "statement": "bank[s:e] is the list of the values at s, s+1, ..., e-1 when these are all valid addresses (empty if e <= s), else KeyError; omitted bounds raise TypeError.", "quantifier": "every pair of optional bounds and bank state", "why_tests_cant": "unbounded", "anchors": ["h800/memory.py:MemoryBank.__getitem__"]}
{"id": "C33", "title": "bank.clear() zeroes every word at any time", "statement": "After bank.clear(), every bank[a] is 0, whatever was done before, and len(bank) is still 2048.", "quantifier": "every prior history", "why_tests_cant": "the existing test reads back through an exhausted iterator", "anchors": ["h800/memory.py:MemoryBank.clear"]}
{"id": "C34", "title": "Iterating a memory bank visits every word, every time", "statement": "Each 'for w in bank' loop visits all 2048 words in address order.", "quantifier": "every prior history", "why_tests_cant": "needs two loops; the second visits nothing", "anchors": ["h800/memory.py:MemoryBank.__next__"]}
{"id": "C35", "title": "Banks of a module are independent and sizes add up", "statement": "A module has 4 (expansion: 8) banks and size 8192 (16384); after any history of per-bank operations each (bank,address) reads as its own last write, unaffected by other banks.", "quantifier": "every history over every (bank,address)", "why_tests_cant": "unbounded histories", "anchors": ["h800/memory.py:MemoryModule", "h800/memory.py:ExpansionMemoryModule"]}
{"id": "C36", "title": "The address-taking value accessor of a bank works", "statement": "MemoryBank.value can be used to read and write a word by address with range checking.", "quantifier": "every bank and address", "why_tests_cant": "never exercised: it is declared as a property that takes arguments", "anchors": ["h800/memory.py:MemoryBank.value"]}
{"id": "C37", "title": "Masked instruction encoding", "statement": "A maskable opcode built with sequence s in {0,1} and mask m in 0..31 has value s*2^11 + m*2^6 + b7*2^5 + op, equal to make_masked_opcode.", "quantifier": "every maskable opcode record, s and m", "why_tests_cant": "tests sample each class; the claim is for any opcode record and agrees with the bit layout", "anchors": ["h800/instruction.py:Instruction.__init__", "h800/instructions.py:make_masked_opcode"]}
{"id": "C38", "title": "Unmasked and scientific instruction encoding", "statement": "A maskable or unmasked opcode built with s,a,b,c in {0,1} has value s*2^11 + b23*2^9 + a*2^8 + b*2^7 + c*2^6 + op, equal to make_unmasked_opcode.", "quantifier": "every opcode record and every s,a,b,c", "why_tests_cant": "as above", "anchors": ["h800/instruction.py:Instruction.__init__", "h800/instructions.py:make_unmasked_opcode"]}
{"id": "C39", "title": "Peripheral, print and simulator encodings", "statement": "Peripheral opcodes encode as paddr*2^6 + b7*2^5 + op, print opcodes as s*2^11 + a*2^8 + b*2^7 + c*2^6 + b7*2^5 + op, simulator as s*2^11 + op; equal to make_peripheral_opcode / make_print_opcode / 0o0007,0o4007.", "quantifier": "every opcode record of those types and every operand", "why_tests_cant": "as above", "anchors": ["h800/instruction.py:Peripheral", "h800/instruction.py:Simulator", "h800/instructions.py:make_peripheral_opcode", "h800/instructions.py:make_print_opcode"]}
{"id": "C40", "title": "Every constructed instruction fits the 12-bit command field", "statement": "Whenever Instruction(...) succeeds, 0 <= value < 4096 and the low five bits are the opcode; so InstructionWord(command=value, ...) stores it unchanged.", "quantifier": "every opcode record and every combination of optional arguments", "why_tests_cant": "unbounded arguments and all combinations of presence/absence", "anchors": ["h800/instruction.py:Instruction"]}
{"id": "C41", "title": "Illegal instruction operands are rejected", "statement": "Instruction(...) succeeds exactly when: sequence, a, b, c are absent or 0/1; mask is absent, or 0..31 on a maskable opcode with no a, b, c, paddr; paddr is absent, or 0..63 with nothing else; and the opcode's own fields are in range. Otherwise ValueError.", "quantifier": "every opcode record and every combination of optional integer arguments", "why_tests_cant": "infinite argument space; tests try two or three bad values per class", "anchors": ["h800/instruction.py:Instruction._check"]}
{"id": "C42", "title": "Distinct instructions have distinct command codes", "statement": "Two instructions of the table (mnemonic, form, operands) that encode to the same command code are the same instruction.", "quantifier": "all pairs over the whole opcode table, all forms and operands", "why_tests_cant": "the existing duplicate test omits the unmasked forms of maskable instructions and two of the three print mnemonics", "anchors": ["h800/instructions.py:OPCODES", "h800/instructions_test.py:test_machine_instructions"]}
{"id": "C43", "title": "Constants are 48-bit words", "statement": "A constant instruction built with data succeeds iff 0 <= data < 2^48 and then has value data.", "quantifier": "every integer and every constant class", "why_tests_cant": "2^48 values", "anchors": ["h800/instruction.py:Constant", "h800/instructions.py"]}
{"id": "C44", "title": "The class named in the opcode table implements that mnemonic", "statement": "For each mnemonic m, OPCODES[m].c names a class defined in the module whose instances are built from OPCODES[m].", "quantifier": "every mnemonic of the table", "why_tests_cant": "no test looks at the class field", "anchors": ["h800/instructions.py:OPCODES"]}
{"id": "C45", "title": "Assembly-control instructions can be constructed", "statement": "Each control pseudo-instruction class (ASSIGN, EQUALS, SETLOC, ...) can be instantiated with its declared arguments.", "quantifier": "every control class and all arguments", "why_tests_cant": "no test instantiates one", "anchors": ["h800/instruction.py:PseudoInstruction", "h800/instruction.py:AssemblyControl"]}
{"id": "C46", "title": "The opcode listing is complete, sorted and matches opcodes.txt", "statement": "print_instructions lists, in strictly increasing order, exactly the codes of masked forms of maskable opcodes, unmasked opcodes, peripheral opcodes, one print mnemonic and the two simulator codes, each with the mnemonic that encodes to it; it is the content of opcodes.txt.", "quantifier": "the whole opcode table and all operands", "why_tests_cant": "the test checks duplicates only, not order, completeness or the committed file", "anchors": ["h800/instructions.py:print_instructions", "h800/opcodes.txt"]}
{"id": "C47", "title": "Mnemonic lists are unambiguous", "statement": "No mnemonic occurs twice in INSTRUCTIONS, i.e. the opcode, control, constant, extended, misc and ARGUS tables are disjoint; a string is a valid instruction iff it is in exactly one table.", "quantifier": "every string", "why_tests_cant": "no test", "anchors": ["h800/instructions.py:INSTRUCTIONS"]}
{"id": "C48", "title": "The character set is total on six-bit codes and unambiguous on non-blanks", "statement": "CHARSET maps exactly the codes 0..63, and any two codes with the same non-blank character are equal.", "quantifier": "every integer code and pair of codes", "why_tests_cant": "no test", "anchors": ["h800/charset.py:CHARSET"]}
{"id": "C49", "title": "Card fields tile the line", "statement": "For any layout whose start columns begin at 1 or more and do not decrease (and do not exceed width+1), the concatenation of card.fields is exactly columns first..width of the line: no column is lost, duplicated or moved; with the default layout this is the first 120 characters.", "quantifier": "every line, layout and width", "why_tests_cant": "one 103-character line is tested", "anchors": ["h800/punchcard.py:PunchCard.__init__"]}
{"id": "C50", "title": "Card record entries are the stripped fields", "statement": "For a non-comment line, record[name_i] is field i with surrounding whitespace removed, or None when it is blank; strippedFields agrees; non-None entries are non-empty and neither start nor end with whitespace; linenum is recorded iff non-zero.", "quantifier": "every line, layout, list of distinct names at least as long as the layout", "why_tests_cant": "unbounded lines", "anchors": ["h800/punchcard.py:PunchCard.__init__", "h800/punchcard.py:PunchCard.record"]}
{"id": "C51", "title": "Text beyond the card width never matters", "statement": "Two lines with the same first 120 characters give ordinary (non P/R/L) cards with the same record.", "quantifier": "every pair of lines agreeing on 120 columns", "why_tests_cant": "unbounded", "anchors": ["h800/punchcard.py:PunchCard.__init__", "h800/arguscard.py:Card.__init__"]}
{"id": "C52", "title": "Comment cards", "statement": "A line beginning with '#' gives a comment card whose comment is the line without newlines and whose fields/record are not available; any other line gives a non-comment card with comment None.", "quantifier": "every line", "why_tests_cant": "unbounded", "anchors": ["h800/punchcard.py:PunchCard"]}
{"id": "C53", "title": "card.instruction is the operation up to its first comma", "statement": "For an ordinary card, instruction is None iff operation is None, otherwise it is the part of the operation before the first comma, stripped; it contains no comma.", "quantifier": "every line", "why_tests_cant": "unbounded", "anchors": ["h800/arguscard.py:Card.__init__"]}
{"id": "C54", "title": "Log, page and remark cards carry no code", "statement": "A card with P, R or L in column 1 has label, operation, instruction, operands and sequence all None, and keeps its lognum and column 8.", "quantifier": "every line", "why_tests_cant": "unbounded", "anchors": ["h800/arguscard.py:Card.__init__"]}
{"id": "C55", "title": "Remarks of P/R/L cards are the whole text of the card", "statement": "For a P, R or L card, remarks is the text from column 9 (where the text area starts) to the end of the line, stripped.", "quantifier": "every line", "why_tests_cant": "tests print the records but never compare the remarks", "anchors": ["h800/arguscard.py:Card.__init__"]}
{"id": "C56", "title": "Deck from lines: order and line numbers", "statement": "Deck(lines) contains one card per line not starting with '#', in order, and each card's linenum is the 1-based position of its line in the input (comments counted).", "quantifier": "every list of lines", "why_tests_cant": "unbounded", "anchors": ["h800/punchcard.py:Deck.__init__"]}
{"id": "C57", "title": "Deck from file: includes are expanded in place", "statement": "Deck(file) is the flattening of the file where each '$name' line is replaced, in place, by the recursively expanded cards of that file, and '#' lines are dropped.", "quantifier": "every file system and include structure", "why_tests_cant": "unbounded; include depth and structure", "anchors": ["h800/punchcard.py:Deck._readSource"]}
{"id": "C58", "title": "Cyclic includes are reported rather than looping", "statement": "Reading a file that includes itself, directly or indirectly, ends with a clean error report (SystemExit) as for a missing include.", "quantifier": "every cyclic include structure", "why_tests_cant": "needs every cycle shape and depth", "anchors": ["h800/punchcard.py:Deck._readSource"]}
{"id": "C59", "title": "Every card of a file deck points at its source line", "statement": "For every card of Deck(file), card.linenum-1 indexes a line of card.filename that is not a comment or include and whose text without newline is card.line.", "quantifier": "every file system and include structure, every card", "why_tests_cant": "unbounded", "anchors": ["h800/punchcard.py:Deck._readSource"]}
{"id": "C60", "title": "log_section is the first L card", "statement": "deck.log_section is the stripped columns 9-81 of the first card with L in column 1 and log_section_col8 its column 8; both None iff there is no such card.", "quantifier": "every deck", "why_tests_cant": "unbounded", "anchors": ["h800/arguscard.py:Deck.__init__"]}
{"id": "C61", "title": "str(deck) reproduces the source lines", "statement": "For a deck built from newline-free lines, str(deck) split at newlines is the list of non-comment lines in order (when there is at least one; otherwise str(deck) is empty); for a file deck, deck.lines is the list of the source lines without newline, and str(deck) splits into it.", "quantifier": "every list of lines", "why_tests_cant": "unbounded", "anchors": ["h800/punchcard.py:Deck.__str__", "h800/punchcard.py:Deck.lines"]}
{"id": "C62", "title": "SymbolTable: the first definition of a name wins", "statement": "After any history of add calls, lookup(name) is the entry of the first add with that (non-empty) name, or None if there was none; getNumSymbols is the number of distinct non-empty names.", "quantifier": "every history of add calls", "why_tests_cant": "unbounded histories", "anchors": ["h800/symbol_table.py:SymbolTable.add", "h800/symbol_table.py:SymbolTable.lookup"]}
{"id": "C63", "title": "SymbolTable: undefined list is exactly the value-less symbols", "statement": "After any history of add, addReference, pruneUndefines and resolve calls, undefines lists, without duplicates and in order of definition, exactly the names whose entry has no value.", "quantifier": "every history", "why_tests_cant": "unbounded histories", "anchors": ["h800/symbol_table.py:SymbolTable"]}
{"id": "C64", "title": "pruneUndefines removes every resolved symbol", "statement": "After pruneUndefines, no name left in undefines has a valid entry.", "quantifier": "every table state", "why_tests_cant": "the loop deletes from the list it iterates over; needs adjacent resolved names", "anchors": ["h800/symbol_table.py:SymbolTable.pruneUndefines"]}
{"id": "C65", "title": "resolve terminates and reports", "statement": "resolve(maxPasses) always terminates, changes no symbol, runs at most maxPasses passes, and reports 'All symbols resolved' iff (with maxPasses >= 1) there are no undefined symbols, and lack of progress otherwise.", "quantifier": "every reachable table and maxPasses", "why_tests_cant": "unbounded", "anchors": ["h800/symbol_table.py:SymbolTable.resolve"]}
{"id": "C66", "title": "update changes the value of a defined symbol", "statement": "update(name, value, symtype) for a defined name makes the entry valid with that value.", "quantifier": "every table, name and value", "why_tests_cant": "no test calls update", "anchors": ["h800/symbol_table.py:SymbolTable.update"]}
{"id": "C67", "title": "A symbol entry is valid iff it was given a value, and is either absolute or complex", "statement": "isValid iff value is not None; isAbsolute iff additionally symtype is 'absolute'; isComplex iff additionally it is not; never both.", "quantifier": "every constructor argument", "why_tests_cant": "unbounded", "anchors": ["h800/symbol_table.py:SymbolTableEntry"]}
{"id": "C68", "title": "buildSymbolTable records every well-formed label", "statement": "For every card that is not starred and has a well-formed label and an operation, the resulting table has an entry under (tag, segment, current subsegment, simple/complex), where the subsegment is the one set by the last SETLOC at or before it ('1' initially).", "quantifier": "every deck and initial table (segment name other than 'simple'/'complex')", "why_tests_cant": "unbounded decks", "anchors": ["h800/symbol_table.py:buildSymbolTable"]}
{"id": "C69", "title": "buildSymbolTable records nothing else", "statement": "Every entry in the resulting table was in the initial table or comes from a card of the deck that is not starred, whose label is well formed and yields that tag and tag type, with that card's file, line and lognum.", "quantifier": "every deck and initial table", "why_tests_cant": "unbounded decks", "anchors": ["h800/symbol_table.py:buildSymbolTable"]}
{"id": "C70", "title": "The error count is the number of ill-formed labels", "statement": "errcount is the number of un-starred labelled cards whose label is lower-case, has too many commas, a bad or unsupported tag prefix, or no operation.", "quantifier": "every deck (segment name other than 'simple'/'complex')", "why_tests_cant": "unbounded decks", "anchors": ["h800/symbol_table.py:buildSymbolTable"]}
{"id": "C71", "title": "Multiply-defined symbols are reported", "statement": "When a tag is defined twice with the same kind in the same segment and subsegment (other than equivalent EQUALS), an error is reported and counted and the first definition is kept.", "quantifier": "every deck", "why_tests_cant": "no test; the check compares the wrong keys", "anchors": ["h800/symbol_table.py:buildSymbolTable"]}
{"id": "C72", "title": "Symbol tables only grow as files are processed", "statement": "Building from further files never removes a (tag, segment, subsegment, kind) definition.", "quantifier": "every sequence of decks", "why_tests_cant": "unbounded", "anchors": ["h800/symbol_table.py:buildSymbolTable"]}
{"id": "C73", "title": "checkSymbolTable reports exactly the complex-only symbols", "statement": "With complexOnlyError, the result is the sorted, duplicate-free list of symbols having a complex definition somewhere and no simple definition anywhere; without it the result is empty.", "quantifier": "every symbol table", "why_tests_cant": "unbounded", "anchors": ["h800/symbol_table.py:checkSymbolTable"]}
{"id": "C74", "title": "getAbsoluteSymbols returns exactly the symbols with a simple definition", "statement": "The result is the sorted, duplicate-free list of symbols that have a simple definition in some segment and subsegment.", "quantifier": "every symbol table", "why_tests_cant": "the stale 'found' flag only matters with several segments and several symbols", "anchors": ["h800/symbol_table.py:getAbsoluteSymbols"]}
{"id": "C75", "title": "findSymbolDef exact lookup", "statement": "An exact lookup returns the symbol's definitions iff the symbol exists and (if a kind is given) has a definition of that kind; otherwise None and one error message.", "quantifier": "every table, name and kind", "why_tests_cant": "unbounded", "anchors": ["h800/symbol_table.py:findSymbolDef"]}
{"id": "C76", "title": "findSymbolDef prefix/suffix search", "statement": "With begin (end) the result is the sorted list of symbols starting (ending) with the given string, each listed once.", "quantifier": "every table and string, begin and/or end", "why_tests_cant": "unbounded", "anchors": ["h800/symbol_table.py:findSymbolDef"]}
{"id": "C77", "title": "Fuzzy matches are symbols with a simple definition", "statement": "With fuzzy alone, every returned name is a symbol of the table with a simple definition, at most ten are returned, and the result is never None.", "quantifier": "every table, name and every behaviour of the external matcher that returns at most 'limit' of its choices", "why_tests_cant": "external ranking", "anchors": ["h800/symbol_table.py:findSymbolDef"]}
{"id": "C78", "title": "genlines numbers lie between start and end", "statement": "genlines prints start, start+step, ... and no number beyond end.", "quantifier": "every start <= end and step >= 1", "why_tests_cant": "no test; overshoot depends on (end-start) mod step", "anchors": ["tools/genlines.py:main"]}
{"id": "C79", "title": "genlines output is a valid card prefix", "statement": "With default columns each printed line (number fitting the width) is 8 characters: column 1 and column 8 blank and columns 2-7 the zero-padded number of at least 4 digits; parsing it as a card gives that number as lognum and nothing else.", "quantifier": "every number and range with at most six digits", "why_tests_cant": "unbounded ranges", "anchors": ["tools/genlines.py:main", "h800/punchcard.py:PunchCard"]}
{"id": "C80", "title": "check-instructions counts every instruction card once", "statement": "The instruction total equals the sum of the per-mnemonic counts plus the invalid-instruction errors plus the starred cards skipped; errors are exactly the un-starred cards whose instruction is not in INSTRUCTIONS.", "quantifier": "every list of decks", "why_tests_cant": "unbounded", "anchors": ["tools/check-instructions.py:main"]}
{"id": "C81", "title": "check-instructions frequency report never crashes", "statement": "The --count report is printed for any input.", "quantifier": "every list of decks and option combination", "why_tests_cant": "needs a deck with no instruction cards", "anchors": ["tools/check-instructions.py:main"]}
{"id": "C82", "title": "list-instructions prints exactly the matching cards", "statement": "For an opcode without comma, the lines printed are those of un-starred cards whose operation, up to the first comma and with spaces removed, is the opcode, in deck order.", "quantifier": "every deck and opcode", "why_tests_cant": "unbounded", "anchors": ["tools/list-instructions.py:main"]}
{"id": "C83", "title": "The listing never overwrites its source", "statement": "listing.py writes to a file different from its input.", "quantifier": "every file name", "why_tests_cant": "needs the one bad suffix", "anchors": ["tools/listing.py:main"]}
{"id": "C84", "title": "parse reports the errors of all files", "statement": "The error total printed by parse.py includes the symbol-table errors of every file given.", "quantifier": "every list of files with file names whose part before the first dot is neither 'simple' nor 'complex' (for these see C188 and C189)", "why_tests_cant": "needs errors in a file that is not the last", "anchors": ["tools/parse.py:main"]}
{"id": "C85", "title": "check-symbols total is the sum of all errors", "statement": "The total printed by check-symbols is the sum of per-file symbol errors plus the number of symbols reported undefined.", "quantifier": "every list of files with file names whose part before the first dot is neither 'simple' nor 'complex' (for these see C188 and C189)", "why_tests_cant": "unbounded", "anchors": ["tools/check-symbols.py:main"]}
{"id": "C86", "title": "genpages emits one block per page", "statement": "For a page range start..end with start <= end, genpages appends a log card and one block per page, headed '# Page n' for n = start..end, with user page numbers 1,2,...", "quantifier": "every range", "why_tests_cant": "unbounded", "anchors": ["tools/genpages.py:main"]}
{"id": "C87", "title": "A final newline does not change a card", "statement": "For a newline-free line that is not a comment, the card made from the line and the card made from the line followed by a newline have the same text, stripped fields and record (P/R/L cards included), so a deck read from a file and a deck made from a list of lines agree.", "quantifier": "every newline-free line, both card classes", "why_tests_cant": "tests only use lines without newline", "anchors": ["h800/punchcard.py:PunchCard.__init__", "h800/arguscard.py:Card.__init__"]}
{"id": "C88", "title": "A symbol entry returns the value it was given", "statement": "For an entry constructed with a value, entry.value is that value.", "quantifier": "every constructor argument", "why_tests_cant": "the value is read through a property whose failure depends on the entry's type and value, over all arguments", "anchors": ["h800/symbol_table.py:SymbolTableEntry"]}
{"id": "C89", "title": "The symbol reports never crash on tables made through the API", "statement": "After any history of add, addReference, update, pruneUndefines and resolve calls, printTable prints the entries of all symbols once, sorted by name, and then those of the undefined symbols, and printUndefs the entries of the undefined symbols; neither raises.", "quantifier": "every history", "why_tests_cant": "reports iterate over the whole table; every reachable table shape has to be considered", "anchors": ["h800/symbol_table.py:SymbolTable.printTable", "h800/symbol_table.py:SymbolTable.printUndefs"]}
{"id": "C90", "title": "The frequency report lists every instruction with its count", "statement": "With --count the report has one line per instruction of INSTRUCTIONS (without the zero ones if --unused is given too), with the number of un-starred cards bearing it and the number of all instruction cards; sorted by falling count with --sort, by name otherwise.", "quantifier": "every list of files and option combination", "why_tests_cant": "unbounded decks; sorting is over the whole table", "anchors": ["tools/check-instructions.py:main"]}
{"id": "C91", "title": "The unused report lists exactly the unused instructions", "statement": "With --unused the instructions listed are, in order of name, exactly those of INSTRUCTIONS that no un-starred card bears.", "quantifier": "every list of files and option combination", "why_tests_cant": "unbounded decks", "anchors": ["tools/check-instructions.py:main"]}
{"id": "C92", "title": "list-symbols prints one row per definition", "statement": "list-symbols prints, sorted by tag, segment, subsegment and kind, one row for each definition in the files that no later line replaces, with the tag type, file name up to the first dot, line number and text of its line; the number of lines in error is printed if it is not zero.", "quantifier": "every list of files with file names whose part before the first dot is neither 'simple' nor 'complex' (for these see C188 and C189)", "why_tests_cant": "unbounded decks and tables", "anchors": ["tools/list-symbols.py:main"]}
{"id": "C93", "title": "find-symbols prints exactly the matching definitions", "statement": "find-symbols refuses conflicting options and too few arguments; --exact has no further effect; without options it prints exactly the definitions of the symbol that no later line replaces; with --begin or --end the sorted list, without repetition, of the defined symbols starting or ending with the text; nothing if there are none.", "quantifier": "every list of files with file names whose part before the first dot is neither 'simple' nor 'complex' (for these see C188 and C189), pattern and option combination", "why_tests_cant": "unbounded decks and names", "anchors": ["tools/find-symbols.py:main", "h800/symbol_table.py:findSymbolDef"]}
{"id": "C94", "title": "The listing has one line per source line", "statement": "The file written by listing.py has, for each line of the source with its includes expanded, in order, one line with file name, line number and text in columns.", "quantifier": "every file system and list of files", "why_tests_cant": "unbounded decks and include depth", "anchors": ["tools/listing.py:main"]}
{"id": "C95", "title": "genpages appends a log card naming the same log section", "statement": "The log card appended to a file that has a log section, read back as an ARGUS card, has the same log section and the same column 8 as the one found in the file.", "quantifier": "every file with a log card and a page comment", "why_tests_cant": "needs a log card with blank column 8", "anchors": ["tools/genpages.py:main", "h800/arguscard.py:Deck"]}
{"id": "C96", "title": "A failing genpages leaves all files as they were", "statement": "If genpages ends with an exception or exit, no file has changed.", "quantifier": "every file system and argument list", "why_tests_cant": "all error paths have to be considered", "anchors": ["tools/genpages.py:main"]}
{"id": "C97", "title": "genpages refuses what it cannot handle with a message", "statement": "Whenever genpages fails it exits through parser.error.", "quantifier": "every file system and argument list", "why_tests_cant": "needs a file without page comment", "anchors": ["tools/genpages.py:main"]}
{"id": "C98", "title": "The instruction classes agree with the documented bit-pattern table", "statement": "For every class, every form its opcode can take and all operands in range, the generated 12-bit code is an instance of the documented pattern of the mnemonic and form (fixed digits agree, letters spell the operands, don't-care positions are zero); conversely every 12-bit code that is an instance of a documented pattern with don't-care positions zero is built by the class from the operands read off it. The table and OPCODES have the same mnemonics.", "quantifier": "all classes, forms, operands in range, and all 12-bit codes", "why_tests_cant": "the code space times the table is not sampled by the unit tests, and the table is a comment", "anchors": ["h800/instructions.py:OPCODES", "h800/instruction.py:Instruction"]}
{"id": "C99", "title": "Iterating over a bit-field, register or memory module ends normally", "statement": "A for loop over a bit-field or register delivers its bits by ascending index and ends normally; over a memory module it delivers the banks in order and ends normally.", "quantifier": "every field, register history and module", "why_tests_cant": "no test iterates over these objects, and the failure depends on the numbering scheme", "anchors": ["h800/bitfield.py:BitField.__getitem__", "h800/registers.py:Register.__getitem__", "h800/memory.py:MemoryModule.__getitem__"]}
{"id": "C100", "title": "A field's value is the sum of its bits times their weights", "statement": "For every width, value in range, numbering and order, the value is the sum over `indices` of the bit read at the index times two to its documented weight; two fields of one width that agree on bits of equal weight have equal values, whatever their numberings and orders.", "quantifier": "all widths, values in range, numberings and orders", "why_tests_cant": "ties every single-bit read to the value for unbounded widths", "anchors": ["h800/bitfield.py:BitField.__getitem__", "h800/bitfield.py:BitField.indices"]}
{"id": "C101", "title": "Histories on MSB-left fields refine an array of bits", "statement": "After any history of item writes, slice writes, value assignments, set and clear calls (with values that fit, including rejected calls), reading any valid index of an MSB-left field gives the bit that an array of bits holds after the same history, where each operation updates just the bits it names (set/clear with index 0 counts as without index).", "quantifier": "all MSB-left fields and all histories", "why_tests_cant": "histories are unbounded", "anchors": ["h800/bitfield.py:BitField.__setitem__", "h800/bitfield.py:BitField.set", "h800/bitfield.py:BitField.clear", "h800/bitfield.py:BitField.value"]}
{"id": "C102", "title": "str() of registers, groups and the register file shows every value", "statement": "str(register) is its value as an octal numeral of at least six digits; str(group) is the 32 registers in order of their numbers, each followed by a blank; str(registers) is eight lines '[k] ' followed by the row of group k. Two register files with the same str() hold the same values.", "quantifier": "all reachable register files with in-range values, both widths", "why_tests_cant": "ranges over all values of 256 registers and all histories", "anchors": ["h800/registers.py:Register.__repr__", "h800/registers.py:RegisterGroup.__repr__", "h800/registers.py:Registers.__repr__"]}
{"id": "C103", "title": "str() of a memory bank shows every word", "statement": "str(bank) is the 2048 words in order of their addresses, each as 0o and exactly sixteen octal digits and a blank; two banks with the same str() have the same contents.", "quantifier": "all reachable banks", "why_tests_cant": "ranges over all contents of 2048 words", "anchors": ["h800/memory.py:MemoryBank.__repr__"]}
{"id": "C104", "title": "A symbol listing has exactly the headings and lines of its definitions", "statement": "The output of list-symbols is, line by line, its definitions (C92) with a heading for the tag, segment and subsegment exactly where they change, followed by the number of lines in error if it is not zero. Nothing else is printed, and reading the layout back gives all definitions in order.", "quantifier": "all file systems and lists of files that can be read, whose segments are not named simple or complex", "why_tests_cant": "a grouping loop over four nested dictionaries of unbounded size; a heading too many or an empty group only shows for particular sequences of definitions", "anchors": ["tools/list-symbols.py:main", "h800/symbol_table.py:buildSymbolTable"]}
{"id": "C105", "title": "The symbol tools do not depend on the order of the files", "statement": "If the files have different segments, list-symbols prints the same, line by line, for the files in any order; check-symbols reports the same symbols and the same total in any order (also with equal segments), and the per-file error counts are permuted. With equal segments the order matters for list-symbols: the later file wins.", "quantifier": "all file systems, all permutations of all lists of files with file names whose part before the first dot is neither 'simple' nor 'complex' (for these see C188 and C189)", "why_tests_cant": "all permutations of any number of files", "anchors": ["tools/list-symbols.py:main", "tools/check-symbols.py:main", "h800/symbol_table.py:buildSymbolTable"]}
{"id": "C106", "title": "Giving the files twice lists the same definitions", "statement": "list-symbols with every file given a second time lists the same definitions under the same headings; only the number of lines in error is doubled.", "quantifier": "all file systems and lists of files that can be read, whose segments are not named simple or complex", "why_tests_cant": "any number of files and definitions; every definition replaces itself", "anchors": ["tools/list-symbols.py:main", "h800/symbol_table.py:buildSymbolTable"]}
{"id": "C107", "title": "The instruction tools do not depend on the order of the files", "statement": "For the same files in another order check-instructions prints the messages about single lines in another order and after them exactly the same report; list-instructions prints for several files what it prints for the first ones followed by what it prints for the others.", "quantifier": "all file systems, options, lists of files and permutations", "why_tests_cant": "all permutations of any number of files", "anchors": ["tools/check-instructions.py:main", "tools/list-instructions.py:main"]}
{"id": "C108", "title": "A deck read again from its own text has the same cards", "statement": "For a non-empty deck read from a file (with any includes), the lines of str(deck) given to Deck(lines=...) make a deck with the same texts, stripped fields and records, numbered 1, 2, ...; and print(deck) written to a file and read back with Deck(file=...) does as well, without needing any include.", "quantifier": "all file systems, files, include structures; both card classes with the default layout", "why_tests_cant": "any number of nested files and lines; only some line contents (comment signs, include signs, newlines, blank cards) could break it", "anchors": ["h800/punchcard.py:Deck.__str__", "h800/punchcard.py:Deck.__init__", "h800/punchcard.py:Deck._readSource"]}
{"id": "C109", "title": "A file without includes and the list of its lines make the same deck", "statement": "Deck(file=f), where no line of f starts with $, and Deck(lines=open(f).readlines()) have equal fields, stripped fields, records (with line numbers) and text; their cards differ in the file name only.", "quantifier": "all texts without include lines; both card classes with the default layout", "why_tests_cant": "two separate loops over lines of any number and content", "anchors": ["h800/punchcard.py:Deck.__init__", "h800/punchcard.py:Deck._readSource"]}
{"id": "C110", "title": "What is punched into the fields of a card is what the card reads", "statement": "If a line consists of consecutive fields of given widths, followed by anything, PunchCard with the layout of these widths has exactly these fields; entries that fit, left-justified in their fields, are the stripped fields and the record (None for empty ones). An ARGUS card punched with ten entries whose first is not #, P, R or L shows them as column1, lognum, column8, label, operation, operands, sequence and remarks.", "quantifier": "all lists of widths and texts that fit, all field names without repetition; all ARGUS entries", "why_tests_cant": "layouts of any number of fields and widths", "anchors": ["h800/punchcard.py:PunchCard.__init__", "h800/arguscard.py:Card.__init__"]}
{"id": "C111", "title": "A slice of a memory module lists its banks in order", "statement": "module[s:e] is the list of banks s, ..., e-1 after any history of operations, for both module classes; an empty range gives [], a range leaving the module raises KeyError, and a missing end raises TypeError.", "quantifier": "all histories, all ints s and e, both module classes", "why_tests_cant": "all histories and all bounds, also negative ones", "anchors": ["h800/memory.py:MemoryModule.__getitem__", "h800/memory.py:ExpansionMemoryModule.__getitem__"]}
{"id": "C112", "title": "A slice with a step reads every step-th word", "statement": "bank[s:e:k] with k >= 1 reads the words s, s+k, s+2k, ... below e.", "quantifier": "all reachable banks, all bounds and steps", "why_tests_cant": "all steps and bounds", "anchors": ["h800/memory.py:MemoryBank.__getitem__", "h800/memory.py:MemoryBank.__setitem__"]}
{"id": "C113", "title": "The assembler's symbol table records the last definitions of all its files", "statement": "After Assembler() and createSymbolTable(f) for each of several files without a failure, the table records, for every tag, segment, subsegment and kind, exactly the last definition in these files, with its card. (The module imports parser_record, which is not in the project; this is about the class if that import succeeds.)", "quantifier": "all file systems, lists of files (segment names not simple/complex), include structures", "why_tests_cant": "any number of files and definitions", "anchors": ["h800/assembler.py:Assembler.createSymbolTable", "h800/symbol_table.py:buildSymbolTable"]}
{"id": "C114", "title": "Resolving reports exactly the incomplete records", "statement": "resolve() ends without an exception, reports exactly the parseable records that are not complete, and leaves the records as they are.", "quantifier": "all lists of records, current records, error counts and numbers of passes from 3", "why_tests_cant": "any number of records; the defect shows only with an incomplete record and from the second pass on", "anchors": ["h800/assembler.py:Assembler.resolve", "h800/assembler.py:Assembler.__init__"]}
{"id": "C115", "title": "Saving after loading gives back the record", "statement": "context.load(r) followed by context.save(r') makes r' equal to r; and if context.save(r) succeeds, context.load(r) restores the saved attributes of the context.", "quantifier": "all contexts and records", "why_tests_cant": "all values of nine attributes", "anchors": ["h800/context.py:Context.load", "h800/context.py:Context.save"]}
{"id": "C116", "title": "A context can be created, printed and its location set", "statement": "Context(...) is at location 0, setLoc(address) and setCoLoc(address) move it to any valid address outside a second pass, and str(context) is a text.", "quantifier": "all contexts, memory maps and addresses", "why_tests_cant": "all addresses and states", "anchors": ["h800/context.py:Context.__init__", "h800/context.py:Context.setLoc", "h800/context.py:Context.setCoLoc", "h800/context.py:Context.__str__"]}
{"id": "C117", "title": "Assigning a group shares it", "statement": "registers[a] = registers[b] makes a and b the same group: after any history of writes, iteration and such assignments every register holds what eight tables reached through eight references hold, and after registers[a] = registers[b] the two groups agree until one is assigned again. Assignments to other numbers change nothing.", "quantifier": "all histories of in-range operations and assignments between groups; both widths", "why_tests_cant": "aliasing shows only in histories of assignments followed by writes through either name", "anchors": ["h800/registers.py:Registers.__setitem__", "h800/registers.py:Registers.__getitem__"]}
{"id": "C118", "title": "namedtuple_defaults fills omitted fields with their defaults", "statement": "The type has a constructor that accepts up to n positional arguments and keywords for later fields, and nothing else; each field has its argument, else its default, else None. Repeated names raise ValueError, more defaults than fields TypeError.", "quantifier": "all lists of names, defaults and arguments", "why_tests_cant": "any number of fields, defaults, positional and keyword arguments", "anchors": ["h800/instructions.py:namedtuple_defaults"]}
{"id": "C119", "title": "Positions and indices of bits are inverse conversions", "statement": "_rindex and _vindex are inverse; _lsbIndex and _msbIndex of two positions give the less and the more significant bit.", "quantifier": "all fields of any width, numbering and order, all ints", "why_tests_cant": "all widths, eight combinations of scheme and order, all indices", "anchors": ["h800/bitfield.py:BitField._rindex", "h800/bitfield.py:BitField._vindex", "h800/bitfield.py:BitField._lsbIndex", "h800/bitfield.py:BitField._msbIndex"]}
{"id": "C120", "title": "A bit-field, register or word is true in a condition iff it is not zero", "statement": "bool(x) is x.value != 0.", "quantifier": "all fields, reachable registers and words", "why_tests_cant": "all values and widths", "anchors": ["h800/bitfield.py:BitField.__len__", "h800/bitfield.py:BitField.__int__", "h800/registers.py:Register.__len__"]}
{"id": "C121", "title": "list-instructions lists as many lines as check-instructions counts", "statement": "Run on the same files, list-instructions of an instruction prints as many lines as check-instructions --count gives for it.", "quantifier": "all file systems, files, options, recursion limits and instructions", "why_tests_cant": "two programs, any files", "anchors": ["tools/list-instructions.py:main", "tools/check-instructions.py:main"]}
{"id": "C122", "title": "find-symbols finds what list-symbols lists", "statement": "Run on the same files, find-symbols finds a symbol iff list-symbols has a row for it, and the definitions it returns are those rows. With --begin or --end it finds the symbols of the rows that start or end with the text.", "quantifier": "all file systems, symbols, recursion limits and lists of files of any names for which both tools end normally", "why_tests_cant": "two programs, any files", "anchors": ["tools/find-symbols.py:main", "tools/list-symbols.py:main"]}
{"id": "C123", "title": "check-symbols reports the symbols list-symbols lists as complex only", "statement": "Run on the same files, check-symbols --complex reports exactly the symbols of which list-symbols lists complex definitions and no others, and its errors per file add up to the number list-symbols prints.", "quantifier": "all file systems, recursion limits and lists of files of any names for which both tools end normally", "why_tests_cant": "two programs, any files", "anchors": ["tools/check-symbols.py:main", "tools/list-symbols.py:main"]}
{"id": "C124", "title": "A stored instruction is read back whole", "statement": "Any instruction the module can construct, packed into an InstructionWord with any 12-bit addresses and stored at any address of a bank after any history, is read back, after any operations that do not write that address, as a word that splits into the same command and addresses.", "quantifier": "all classes, operands, addresses, histories before and after", "why_tests_cant": "histories of any length, all operands", "anchors": ["h800/instructions.py:BinaryAdd", "h800/instruction.py:Instruction.__init__", "h800/word.py:InstructionWord", "h800/memory.py:MemoryBank"]}
{"id": "C125", "title": "Writes to different bits of a field can be done in any order", "statement": "Operations on an MSB-left field that touch pairwise different bits give the same field in every order; of two writes to the same subscript only the last one counts.", "quantifier": "all MSB-left fields in range, all lists of operations with fitting values and all their permutations", "why_tests_cant": "all permutations of histories of any length", "anchors": ["h800/bitfield.py:BitField.__setitem__", "h800/bitfield.py:BitField.set", "h800/bitfield.py:BitField.clear"]}
{"id": "C126", "title": "A register holds its last value through writes, iteration and collective clears", "statement": "After any history each register holds the last value written to it, or 0 if its group or the file was cleared since.", "quantifier": "all histories of writes, bit and slice writes, clears and iteration; both widths", "why_tests_cant": "histories of any length", "anchors": ["h800/registers.py:RegisterGroup.clear", "h800/registers.py:Registers.clear", "h800/registers.py:RegisterGroup.__next__", "h800/registers.py:Registers.__next__"]}
{"id": "C127", "title": "The references of a symbol are those added since its definition", "statement": "After any history of calls on a SymbolTable, the references of a symbol are exactly those added since its first add, in order; addReference on a name never added raises AttributeError and changes nothing.", "quantifier": "all histories of calls, all names", "why_tests_cant": "histories of any length", "anchors": ["h800/symbol_table.py:SymbolTableEntry.addReference", "h800/symbol_table.py:SymbolTable.lookup"]}
{"id": "C128", "title": "The lists of a deck run parallel to its cards", "statement": "Entry k of the lines, fields, stripped fields and records of a Deck belongs to card k of the deck.", "quantifier": "all files and lists of lines", "why_tests_cant": "decks of any length", "anchors": ["h800/punchcard.py:Deck.__init__"]}
{"id": "C129", "title": "The layout of a card partitions the columns", "statement": "The layout of a card that is not a comment starts its fields at the given columns; each field reaches up to the next one and the last one to the card's width; a comment has no layout. With the default columns it is the table documented in punchcard.py.", "quantifier": "all lines, widths and lists of columns", "why_tests_cant": "column lists of any length", "anchors": ["h800/punchcard.py:PunchCard.__init__"]}
{"id": "C130", "title": "A reset context is as a new one", "statement": "After any sequence of reset, load, save, setLoc and setCoLoc, resetting a context makes it equal to a new one.", "quantifier": "all sequences of calls", "why_tests_cant": "sequences of any length", "anchors": ["h800/context.py:Context.reset", "h800/context.py:Context.load"]}
{"id": "C131", "title": "The assembler records every line of its source", "statement": "After assembling an existing file, the assembler's line number is the number of lines of the file and it has one record for each of them.", "quantifier": "all assemblers, file systems and files", "why_tests_cant": "files of any length; the code is not tested", "anchors": ["h800/assembler.py:Assembler.assemble"]}
{"id": "C132", "title": "Lines without code at the end of files change no report", "statement": "Comments, blank lines and page, remark and log cards added at the end of any files do not change what list-instructions, list-symbols, check-symbols, find-symbols, check-instructions and parse report, apart from the number of lines, nor the error they end with.", "quantifier": "all file systems, options and arguments; any number of lines added to any number of files, included or not", "why_tests_cant": "whole tools on inputs of any size, with includes of any depth", "anchors": ["tools/list-instructions.py:main", "tools/list-symbols.py:main", "tools/check-symbols.py:main", "tools/find-symbols.py:main", "tools/check-instructions.py:main", "tools/parse.py:main", "h800/punchcard.py:Deck._readSource"]}
{"id": "C133", "title": "Running genpages changes no report of the other tools", "statement": "A successful run of genpages adds only lines without code to the end of its file, so that the other tools report the same as before on any files, apart from the number of lines.", "quantifier": "all file systems and arguments of genpages and of the other tools", "why_tests_cant": "files of any size; the tools are never run one after the other in the tests", "anchors": ["tools/genpages.py:main", "h800/arguscard.py:Deck.__init__"]}
{"id": "C134", "title": "The character set is the printer column of the manual", "statement": "The character of every six-bit code in CHARSET is the one in the high-speed printer column of Table I of the Programmers' Reference Manual, which the module cites as its source.", "quantifier": "all 64 codes", "why_tests_cant": "the table is not tested at all; a wrong entry is found only by comparing every code with the manual", "anchors": ["h800/charset.py:CHARSET"]}
{"id": "C135", "title": "The valid instructions are the documented mnemonics", "statement": "A text is in INSTRUCTIONS exactly if it is a mnemonic listed in the project's notes or a control instruction, constant or director of the ARGUS manual.", "quantifier": "all texts", "why_tests_cant": "all texts, not only the mnemonics", "anchors": ["h800/instructions.py:INSTRUCTIONS", "h800/instructions.py:OPCODES", "h800/instructions.py:CONTROL_INSTRUCTIONS", "h800/instructions.py:DATA_CONSTANTS", "h800/instructions.py:CONTROL_CONSTANTS", "h800/instructions.py:EXTENDED_INSTRUCTIONS", "h800/instructions.py:ARGUS_INSTRUCTIONS"]}
{"id": "C136", "title": "Coded texts compare like their texts", "statement": "Every digit and capital letter has exactly one code in CHARSET, and two texts of the same length, made of digits and capital letters and packed six bits a character, compare as numbers as the texts do in the dictionary (digits before letters).", "quantifier": "all texts of digits and capital letters of equal length", "why_tests_cant": "texts of any length", "anchors": ["h800/charset.py:CHARSET"]}
{"id": "C137", "title": "A failing instruction tool has printed what concerns the files before", "statement": "If check-instructions or list-instructions stops with an exception, it has printed exactly what it prints about the files before the one that it stopped at, whatever files follow; if the frequency report divides by zero, only the numbers of lines and of instructions were printed; parse has printed nothing on the standard output.", "quantifier": "all file systems, options and file lists", "why_tests_cant": "any list of files with the failing one at any position", "anchors": ["tools/check-instructions.py:main", "tools/list-instructions.py:main", "tools/parse.py:main"]}
{"id": "C138", "title": "parse prints about instructions what check-instructions prints", "statement": "Whenever parse ends normally, check-instructions with --count and --unused on the same files ends normally and prints the same lines about cards and the same number of lines; the number of errors printed by parse is that of check-instructions and the symbol errors of the last file.", "quantifier": "all file systems and file lists", "why_tests_cant": "relates two programs on all inputs", "anchors": ["tools/parse.py:main", "tools/check-instructions.py:main"]}
{"id": "C139", "title": "Percentages are printed to the nearest hundredth", "statement": "The percentage in the frequency report, computed with floats, is the exact percentage rounded to the nearest hundredth; it is between 0 and 100, grows with the count, and the columns of the report are aligned.", "quantifier": "all counts and totals", "why_tests_cant": "rounding errors of floats show up for few numbers", "anchors": ["tools/check-instructions.py:main"]}
{"id": "C140", "title": "Running genpages again appends the same text", "statement": "If genpages succeeds on a file, running it again on the file appended to succeeds too and appends the same text.", "quantifier": "all files, any number of runs", "why_tests_cant": "any number of runs on any file", "anchors": ["tools/genpages.py:main"]}
{"id": "C141", "title": "A file of include lines stands for the files it names", "statement": "check-instructions and list-instructions, given one file that consists of include lines (and comments), behave exactly as when given the files it names, in order: same counts, listings and failures.", "quantifier": "all file systems, options and lists of names", "why_tests_cant": "unbounded numbers of files and contents", "anchors": ["tools/check-instructions.py:main", "tools/list-instructions.py:main", "h800/punchcard.py:Deck._readSource"]}
{"id": "C142", "title": "Histories on LSB-left fields refine an array of bits", "statement": "After any history of item writes, slice writes, value assignments, set and clear calls (with values that fit, including rejected calls), reading any valid index of an LSB-left field gives the bit that an array of bits holds after the same history, where each operation updates just the bits it names (set/clear with index 0 counts as without index).", "quantifier": "all LSB-left fields and all histories", "why_tests_cant": "histories are unbounded", "anchors": ["h800/bitfield.py:BitField.__setitem__", "h800/bitfield.py:BitField.set", "h800/bitfield.py:BitField.clear", "h800/bitfield.py:BitField.value"]}
{"id": "C143", "title": "isRange / isRangeSet / isRangeClr on LSB-left fields", "statement": "isRangeSet(s,e) is True iff every bit in the range is 1, isRangeClr(s,e) iff every bit is 0, and isRange(s,e,x) iff every bit equals x.", "quantifier": "every LSB-left field, value and accepted range", "why_tests_cant": "the tests use MSB-left fields only", "anchors": ["h800/bitfield.py:BitField.isRange", "h800/bitfield.py:BitField.isRangeSet", "h800/bitfield.py:BitField.isRangeClr"]}
{"id": "C144", "title": "A listing determines its source", "statement": "Two runs of listing, on any two files in any two file systems, that write the same text listed the same source lines: same file names, line numbers and texts (newlines aside). The names of the two files must have no newline and either no blank, or at most 64 characters and no blank at the end.", "quantifier": "all file systems and file names as above", "why_tests_cant": "relates two runs on unbounded inputs", "anchors": ["tools/listing.py:main"]}
{"id": "C145", "title": "A failing listing has listed the files before", "statement": "If listing stops with an exception, the files changed are exactly the listings of the files before one that fails by itself, written as by a successful run; files after it do not matter.", "quantifier": "all file systems and file lists", "why_tests_cant": "any list of files with the failing one at any position", "anchors": ["tools/listing.py:main"]}
{"id": "C146", "title": "Every line in error is reported once, with its fault", "statement": "While a symbol table is built from a file, one error is printed for each line in error and in the order of the lines: a label with lower case letters, one with two or more commas, an unknown prefix, one of the unsupported prefixes L and X, or a good label without operation. The error names the label, and the definition printed with it has the file and the number of that line, its log number, its text, and the tag type as far as it has been found out (none for the case error, blank for the errors of prefixes, the prefix or blank for a missing operation). A line is in error exactly if it has one of these faults, and it never has two. The segment names must be plain, as in C19.", "quantifier": "all files, include trees and tables (segment names as in C68 and C70)", "why_tests_cant": "unbounded files; each line is classified by a specification apart from the code", "anchors": ["h800/symbol_table.py:buildSymbolTable"]}
{"id": "C147", "title": "What the symbol tools print before they stop", "statement": "If check-symbols, list-symbols or find-symbols stops with an exception, what it has printed are the reports on the files before one with which it stops at once, whatever follows that file; or nothing at all if the options of find-symbols conflict or arguments are missing. If it ends normally it has printed the reports on all files and then its result: for check-symbols each symbol reported, then all of them with their suggestions under a heading, their number, and for several files the total.", "quantifier": "all file systems, file lists and options, with file names whose part before the first dot is neither 'simple' nor 'complex' (for these see C188 and C189)", "why_tests_cant": "any list of files with the failing one at any position", "anchors": ["tools/check-symbols.py:main", "tools/list-symbols.py:main", "tools/find-symbols.py:main", "h800/symbol_table.py:buildSymbolTable"]}
{"id": "C148", "title": "A detailed list of instructions shows where each stands", "statement": "Two runs of list-instructions --details, with any instructions, files and file systems, that print the same text listed the same source lines: same file names, line numbers and texts (newlines aside). File names must have no newline and either no blank, or at most 48 characters and no blank at the end.", "quantifier": "all file systems, instructions and file names as above", "why_tests_cant": "relates two runs on unbounded inputs", "anchors": ["tools/list-instructions.py:main"]}
{"id": "C149", "title": "A symbol listing shows every definition without ambiguity", "statement": "Two runs of list-symbols that print the same text on the standard output list the same definitions in the same order: same tags, segments, subsegments, kinds, tag types, files up to the first dot, line numbers and texts. File names must be plain and have no blank and no newline.", "quantifier": "all file systems and file lists, with file names whose part before the first dot is neither 'simple' nor 'complex' (for these see C188 and C189)", "why_tests_cant": "relates two runs on unbounded inputs", "anchors": ["tools/list-symbols.py:main", "h800/symbol_table.py:buildSymbolTable"]}
{"id": "C150", "title": "What is told while files are read", "statement": "With --verbose, reading a deck tells, in the order of the text with every include line replaced by what is told about the named file, that reading of a file begins and that a comment line is skipped, with its file and number; if an include line has no name or names no file, this is told up to that line and nothing more. What is told is unique, and the cards read do not depend on the option. Without it nothing is told.", "quantifier": "all file systems and file names, any depth of include", "why_tests_cant": "include trees of any depth and files of any length", "anchors": ["h800/punchcard.py:Deck._readSource"]}
{"id": "C151", "title": "The option --verbose only adds lines", "statement": "For check-instructions, list-instructions, listing, check-symbols, find-symbols, list-symbols and parse: leaving out the lines that only --verbose prints, the output with the option is the output without it, in the same order, also if the script stops with an exception; the result, and for listing the files left behind, are the same.", "quantifier": "all file systems, options and file lists", "why_tests_cant": "relates two runs on unbounded inputs, including runs that fail", "anchors": ["tools/check-instructions.py:main", "tools/list-instructions.py:main", "tools/listing.py:main", "tools/check-symbols.py:main", "tools/find-symbols.py:main", "tools/list-symbols.py:main", "tools/parse.py:main", "h800/punchcard.py:Deck._readSource"]}
{"id": "C152", "title": "Which lines --verbose adds", "statement": "In a run that ends normally: check-instructions adds for each file, in their order, what is told while it is read (C150) and then its starred lines that have an instruction; list-instructions likewise with the starred lines that have an operation; the symbol tools add what is told for each file and nothing else; parse adds what is told for all files and then the same as check-instructions; listing names the listings it writes, in the order of the files.", "quantifier": "all file systems, options and file lists", "why_tests_cant": "unbounded files and lists of files", "anchors": ["tools/check-instructions.py:main", "tools/list-instructions.py:main", "tools/listing.py:main", "tools/check-symbols.py:main", "tools/find-symbols.py:main", "tools/list-symbols.py:main", "tools/parse.py:main"]}
{"id": "C153", "title": "What a command line means", "statement": "The option parser accepts a command line exactly if it consists of options and arguments and does not ask for help: up to the first --, a word that begins with a dash (and is not a single dash) must be letters of options, or the name of an option, or a beginning of one name and no other; all other words and everything after -- are arguments, in their order. Then the options given are set and all others are not. A command line has at most one meaning. If it asks for help, help is shown. The options of every tool can be told apart, so this holds for all nine tools.", "quantifier": "all command lines and all sets of options that can be told apart", "why_tests_cant": "command lines of any length and words of any text", "anchors": ["tools/check-instructions.py:main", "tools/list-instructions.py:main", "tools/listing.py:main", "tools/check-symbols.py:main", "tools/find-symbols.py:main", "tools/list-symbols.py:main", "tools/parse.py:main", "tools/genlines.py:main", "tools/genpages.py:main"]}
{"id": "C154", "title": "Options may stand anywhere", "statement": "An option may be put anywhere before the first --, which adds it and changes nothing else; options given together with one dash may be given one by one, and what is wrong with them is found in the same way; every choice of options other than help with any arguments whatever can be given, with letters or with names, if the arguments stand after --; without --, no argument that begins with a dash (but for a single dash) can be given.", "quantifier": "all command lines", "why_tests_cant": "command lines of any length", "anchors": ["tools/check-instructions.py:main", "tools/list-instructions.py:main", "tools/listing.py:main", "tools/check-symbols.py:main", "tools/find-symbols.py:main", "tools/list-symbols.py:main", "tools/parse.py:main", "tools/genlines.py:main", "tools/genpages.py:main"]}
{"id": "C155", "title": "Order and spelling of options do not matter", "statement": "Two command lines with the same set of options and the same arguments give the same run of every tool: the same output, exception and files, whatever the order, repetition and spelling of the options.", "quantifier": "all pairs of command lines, file systems and limits", "why_tests_cant": "relates two runs on unbounded inputs", "anchors": ["tools/check-instructions.py:main", "tools/list-instructions.py:main", "tools/listing.py:main", "tools/check-symbols.py:main", "tools/find-symbols.py:main", "tools/list-symbols.py:main", "tools/parse.py:main", "tools/genlines.py:main", "tools/genpages.py:main"]}
{"id": "C156", "title": "Names of options may be cut off", "statement": "The name of an option of any tool may be cut off anywhere after its first letter, wherever it stands before the first --: the command line is taken as if the name were written out. This fails for --e of find-symbols, which could be --end or --exact and is always refused, and holds for all others.", "quantifier": "all tools, options and beginnings of their names", "why_tests_cant": "all beginnings of all names of all tools; the refusal holds for every command line", "anchors": ["tools/check-instructions.py:main", "tools/list-instructions.py:main", "tools/listing.py:main", "tools/check-symbols.py:main", "tools/find-symbols.py:main", "tools/list-symbols.py:main", "tools/parse.py:main", "tools/genlines.py:main", "tools/genpages.py:main"]}
{"id": "C157", "title": "On the command line --verbose only adds lines", "statement": "If two command lines of a tool have the same arguments and the same options but perhaps for --verbose, then, leaving out the lines only --verbose prints, their outputs are the same, and so are their results and the files left behind.", "quantifier": "all pairs of such command lines, all file systems", "why_tests_cant": "relates two runs on unbounded inputs", "anchors": ["tools/check-instructions.py:main", "tools/list-instructions.py:main", "tools/listing.py:main", "tools/check-symbols.py:main", "tools/find-symbols.py:main", "tools/list-symbols.py:main", "tools/parse.py:main"]}
{"id": "C158", "title": "genlines can be given any numbers", "statement": "The numbers given to genlines on the command line are those it works with. This fails if any of them is negative, such as the step when counting down: then it exits. It holds if none is negative, and for all arguments after --. The same holds for genpages and file names that begin with a dash.", "quantifier": "all lists of arguments and numbers", "why_tests_cant": "lists of any length and integers of any size", "anchors": ["tools/genlines.py:main", "tools/genpages.py:main"]}
{"id": "C159", "title": "Every option makes a difference", "statement": "For every option of a tool there are files and arguments with which it changes what the tool prints. This fails for --all and --invalid of check-instructions and for --details of find-symbols, which never make a difference whatever the files and the other options; it holds for all others. --exact of find-symbols only forbids --begin, --end and --fuzzy and otherwise makes no difference.", "quantifier": "all tools, options, files and arguments", "why_tests_cant": "that an option never makes a difference is a statement about all inputs", "anchors": ["tools/check-instructions.py:main", "tools/list-instructions.py:main", "tools/listing.py:main", "tools/check-symbols.py:main", "tools/find-symbols.py:main", "tools/list-symbols.py:main", "tools/parse.py:main"]}
{"id": "C160", "title": "The report shows all numbers", "statement": "If two runs of check-instructions with --count print the same text, whatever other options they are given and whatever else they print, then their files have the same number of lines, of lines with an instruction, of lines in error and, for every instruction, of lines that have it; and --unused was given for both or for neither. If two runs of parse print the same text on the standard output, their files have the same number of lines and the same number of errors is reported.", "quantifier": "all pairs of command lines and file systems for which the runs end normally", "why_tests_cant": "relates the texts of two runs on unbounded inputs", "anchors": ["tools/check-instructions.py:main", "tools/parse.py:main"]}
{"id": "C161", "title": "The lines reported can be read off the output", "statement": "If two runs of check-instructions print the same text, then they report the same lines in error (file, number and text of each, in order), print the same lines with an instruction if --print-opcodes asks for them, and the same notes about files, comments and starred lines if --verbose asks for them. The names of the given files must be without blanks and newlines. The same holds for the standard output of parse, with --debug in place of --print-opcodes.", "quantifier": "all pairs of command lines and file systems for which the runs end normally and the given names have no blank or newline", "why_tests_cant": "relates the texts of two runs on unbounded inputs", "anchors": ["tools/check-instructions.py:main", "tools/parse.py:main"]}
{"id": "C162", "title": "What check-instructions prints for a command line", "statement": "For every command line made of its options and of files that can be read, not asking for help, check-instructions prints exactly: for each source line in order what is to be said about it (the line itself with --print-opcodes if it has an instruction, an error if the instruction is unknown); with --count the number of lines, of instructions and of each instruction, by number with --sort and by name otherwise, without those that do not occur with --unused; with --unused the instructions that do not occur, sorted; and the number of errors. --verbose adds what is told while the files are read and the starred lines; without it nothing is added. If there is no instruction and --count is given without --unused, it divides by zero. The options and the source lines determine the text.", "quantifier": "all command lines, file systems and source files that can be read", "why_tests_cant": "unbounded files and all combinations and spellings of options", "anchors": ["tools/check-instructions.py:main", "h800/punchcard.py:Deck._readSource"]}
{"id": "C163", "title": "What list-instructions and listing do for a command line", "statement": "For every command line with files that can be read, list-instructions exits without output if the opcode up to its first comma is not an instruction, and otherwise prints the matching lines in order, with file and line number with --details; listing leaves the listings of the files. --verbose adds for each file what is told while it is read, and then the starred lines that have an operation, or the name of the listing; without it nothing is added.", "quantifier": "all command lines, file systems and source files that can be read", "why_tests_cant": "unbounded files and all combinations and spellings of options", "anchors": ["tools/list-instructions.py:main", "tools/listing.py:main"]}
{"id": "C164", "title": "What the symbol tools print for a command line", "statement": "For every command line with files that can be read, each symbol tool reports the errors of each file and then: check-symbols, with --complex, the symbols with only complex definitions, in order, with suggestions and their number, and the total number of errors if there are several files; list-symbols all definitions sorted; find-symbols the definitions of the symbol or that there are none, or with --begin or --end the defined symbols with that beginning or end in order, or with --fuzzy at most ten symbols with simple definitions. find-symbols exits without output if two of --begin, --end, --fuzzy and --exact are given or no file is. --verbose adds what is told while the files are read; without it nothing is added.", "quantifier": "all command lines, file systems and source files that can be read, with file names whose part before the first dot is neither 'simple' nor 'complex' (for these see C188 and C189); any fuzzy matcher", "why_tests_cant": "unbounded files and all combinations and spellings of options", "anchors": ["tools/check-symbols.py:main", "tools/list-symbols.py:main", "tools/find-symbols.py:main", "h800/symbol_table.py:buildSymbolTable"]}
{"id": "C165", "title": "What parse prints for a command line", "statement": "For every command line with files that can be read, parse reports the errors of the symbol table of each file; then for each source line in order what is to be said about it (the line itself with --debug if it has an instruction, an error if the instruction is unknown), the number of lines, and as number of errors the sum of the symbol table errors of the last file and of the unknown instructions of all files. --verbose adds what is told while the files are read the first time, then what is told while each is read the second time and its starred lines; without it nothing is added.", "quantifier": "all command lines, file systems and source files that can be read, with file names whose part before the first dot is neither 'simple' nor 'complex' (for these see C188 and C189)", "why_tests_cant": "unbounded files and all combinations and spellings of options", "anchors": ["tools/parse.py:main"]}
{"id": "C166", "title": "The exit status of a tool tells how it ended", "statement": "For every command line, the exit status of each tool is: 0 if help is asked for before any word that is not understood; 2 if a word is not understood, or if the tool is misused (no file; an opcode that is no instruction; find-symbols with options that exclude each other or without symbol and file); otherwise 0 if all files, with all files that they include, can be read, and 1 if not. For check-instructions it is also 1 if --count is given without --unused and there is no instruction.", "quantifier": "all command lines and file systems (for the symbol tools and parse: file names whose part before the first dot is neither 'simple' nor 'complex' (for these see C188 and C189))", "why_tests_cant": "unbounded command lines and include trees, all spellings of options", "anchors": ["tools/check-instructions.py:main", "tools/list-instructions.py:main", "tools/listing.py:main", "tools/check-symbols.py:main", "tools/list-symbols.py:main", "tools/find-symbols.py:main", "tools/parse.py:main", "h800/punchcard.py:Deck._readSource"]}
{"id": "C167", "title": "The exit status tells of errors in the sources", "statement": "If a source line has an unknown instruction, the exit status of check-instructions is not 0; if a source line is in error, the exit status of check-symbols is not 0.", "quantifier": "all command lines, file systems and source files that can be read (for the symbol tools and parse: file names whose part before the first dot is neither 'simple' nor 'complex' (for these see C188 and C189))", "why_tests_cant": "unbounded source files; no test checks the exit status", "anchors": ["tools/check-instructions.py:main", "tools/check-symbols.py:main"]}
{"id": "C168", "title": "What genlines prints for every command line", "statement": "int takes exactly the texts of whole numbers: decimal digits of any script of Unicode with single underscores between them, perhaps a sign, and white space around, but not the separators U+001C to U+001F. With fewer than two arguments, or if one of the first two has more than six characters, genlines exits with status 2. Otherwise, if all arguments up to the fifth are whole numbers and the step is not 0, it prints a line for each number reached from start in steps before end + step, with the shortest numeral that has at least as many characters as the second argument and at least 4, in its columns, and the status is 0; this determines the lines. In all other cases it ends with a ValueError, prints nothing and the status is 1.", "quantifier": "all command lines", "why_tests_cant": "unbounded texts of numbers and ranges", "anchors": ["tools/genlines.py:main"]}
{"id": "C169", "title": "What genpages does for every file and command line", "statement": "Without an argument, or if there is no such file, genpages exits with status 2. If a page comment has no page range that can be read, or, without log card, the first file name comment has no name, it ends with an IndexError or ValueError and status 1. Otherwise it exits with status 2 if there is no log section, ends with an UnboundLocalError and status 1 if there is no page comment, exits with status 2 if the pages of the last page comment are in the wrong order, and else appends the log card and a block for every page, with status 0. Whenever it fails no file has changed.", "quantifier": "all command lines, file systems and texts", "why_tests_cant": "unbounded files and page ranges", "anchors": ["tools/genpages.py:main", "h800/arguscard.py:Deck"]}
{"id": "C170", "title": "The order of all that a tool prints, and what it has printed when it stops", "statement": "For a command line with files, not asking for help and without misuse, a tool deals with the files one after the other. For each it prints, with --verbose, what is told while the file is read, and then what it says about the lines of the file: for check-instructions each instruction card if asked for, the skipping of starred lines and the errors, line by line; for list-instructions the matching lines and the skipped ones, line by line; for the symbol tools the errors of the file; parse goes through all files twice, first as the symbol tools and then as check-instructions; listing writes the listing and tells its name. Summaries come at the end and do not depend on --verbose. If the tool fails (other than for want of stack, or check-instructions dividing by zero in its report) it is because a file cannot be read; it has then printed all about the files before it, and what is told until reading stops, and listing has written the listings of the files before it and nothing else. Whether and where a tool stops depends on the files only, and if what is said about a file is determined by its lines then so is all that is printed.", "quantifier": "all command lines, file systems and files (for the symbol tools and parse: file names whose part before the first dot is neither 'simple' nor 'complex' (for these see C188 and C189))", "why_tests_cant": "unbounded number, length and nesting of files, and every way to fail", "anchors": ["tools/check-instructions.py:main", "tools/list-instructions.py:main", "tools/listing.py:main", "tools/check-symbols.py:main", "tools/list-symbols.py:main", "tools/find-symbols.py:main", "tools/parse.py:main", "h800/punchcard.py:Deck._readSource"]}
{"id": "C171", "title": "The definitions printed by the symbol tools are Python literals that can be read back", "statement": "A string in a definition that a symbol tool prints is written as a Python string literal with exactly this string as its value and no newline in it, whatever characters are in it and whichever characters count as printable. Therefore two printed search results with the same text are the same names, or definitions with the same segments, subsegments, kinds, files, line numbers, log numbers and tag types, although the cards themselves are printed only as object addresses.", "quantifier": "all strings, all tables of definitions, all sets of printable characters, all addresses", "why_tests_cant": "unbounded strings over all of Unicode and unbounded tables", "anchors": ["h800/symbol_table.py:findSymbolDef", "tools/find-symbols.py:main"]}
{"id": "C172", "title": "What the symbol tools and parse say on the standard error stream can be read off its text", "statement": "If two runs of check-symbols, or two of list-symbols, find-symbols or parse, that end normally write the same text on the standard error stream, then they say the same there: the same errors with the same labels, files, line numbers, log numbers and tag types, the same numbers of errors, and the same symbols without definition. Hence the lines in error of the two sets of files are at the same places and have the same faults.", "quantifier": "all command lines, file systems and files (names without blanks and newlines, and not like a segment number; the part before the first dot neither 'simple' nor 'complex')", "why_tests_cant": "unbounded number and length of files, and pairs of runs", "anchors": ["h800/symbol_table.py:buildSymbolTable", "h800/symbol_table.py:findSymbolDef", "h800/symbol_table.py:checkSymbolTable", "tools/check-symbols.py:main", "tools/list-symbols.py:main", "tools/find-symbols.py:main", "tools/parse.py:main"]}
{"id": "C173", "title": "What the symbol tools say on the standard output can be read off its text", "statement": "If two runs of find-symbols, or two of check-symbols or list-symbols, that end normally write the same text on the standard output, then they say the same there: with --verbose the same is told while files are read, find-symbols has found the same names or definitions, check-symbols suggests the same symbols for the same undefined ones, and list-symbols lists the same definitions in the same order.", "quantifier": "all command lines, file systems and files (names without blanks and newlines, and not like a segment number; the part before the first dot neither 'simple' nor 'complex'), all fuzzy matchers that choose among the names offered", "why_tests_cant": "unbounded number and length of files, and pairs of runs", "anchors": ["tools/check-symbols.py:main", "tools/list-symbols.py:main", "tools/find-symbols.py:main"]}
{"id": "C174", "title": "check-symbols reports what is wrong on the standard error stream", "statement": "All of the report of check-symbols goes to the standard error stream, so that without --verbose nothing is written on the standard output.", "quantifier": "all command lines and file systems, with file names whose part before the first dot is neither 'simple' nor 'complex' (for these see C188 and C189)", "why_tests_cant": "needs a symbol with complex definitions only for which the fuzzy matcher finds a match; unbounded inputs", "anchors": ["tools/check-symbols.py:main"]}
{"id": "C175", "title": "Texts are taken apart as Python does it", "statement": "The operations on texts that the tools rest on do what they are documented to do: white space is exactly the characters Python counts as such; reading a file gives its lines, each with its newline except perhaps the last; strings are ordered by the first code points that differ, a beginning of a string coming before it, and sorted() gives the one arrangement in that order; a number is written without leading zeros; split at a character gives the parts between its occurrences; strip() removes the white space around a text and nothing else; split()[0] is the first word and fails exactly for blank texts; replace puts the new text for every occurrence of the old one from the left.", "quantifier": "all strings, characters, numbers and lists of strings", "why_tests_cant": "unbounded strings and lists; all of Unicode", "anchors": ["h800/punchcard.py:Deck._readSource", "h800/punchcard.py:PunchCard.__init__", "h800/symbol_table.py:buildSymbolTable"]}
{"id": "C176", "title": "Instruction classes take their operands by position or by keyword", "statement": "A class of machine instructions may be called with its operands by position, in the order sequence, mask, a, b, c, or by keyword, in any order, or both: the instruction made is the one with these operands, and those left out are None. Calls that Python cannot pass (too many arguments, one given twice, an unknown one, or a needed one missing) are refused with a TypeError before anything is printed, and no other calls are.", "quantifier": "all instruction classes, all lists of arguments by position and by keyword", "why_tests_cant": "unboundedly many argument lists and values", "anchors": ["h800/instructions.py:BinaryAdd", "h800/instructions.py:Rewind", "h800/instructions.py:Simulator", "h800/instruction.py:Instruction.__init__"]}
{"id": "C177", "title": "Classes for instructions of the same type are called in the same way", "statement": "For any two classes of instructions of the same type (maskable, unmasked, peripheral, print, simulator), Proceed excepted, and any arguments: one refuses the arguments with a TypeError exactly if the other does.", "quantifier": "all pairs of instruction classes of a type, all lists of arguments", "why_tests_cant": "unboundedly many argument lists; all pairs of classes", "anchors": ["h800/instructions.py:BinaryAdd", "h800/instructions.py:Rewind", "h800/instructions.py:Simulator", "h800/instruction.py:Instruction.__init__", "h800/instructions.py:DecimalAdd"]}
{"id": "C178", "title": "Making an instruction prints one line, which tells what is made", "statement": "Each call of an instruction class whose arguments can be passed prints exactly one line, also if the operands are then rejected, and each other call prints nothing; the line is the opcode record, written as Python writes named tuples, and the operands, each behind its name and written as Python writes None and numbers. So it tells the whole record and all operands, and two calls that print the same line make equal instructions or fail with the same error.", "quantifier": "all opcode records, operands, instruction classes and arguments", "why_tests_cant": "unboundedly many integers and strings; injectivity of a text", "anchors": ["h800/instruction.py:Instruction.__init__", "h800/instructions.py:Rewind"]}
{"id": "C179", "title": "Reading a source ends with a text only for a file that does not exist, and names it", "statement": "If reading a source file ends the program with a text, the text names a file that does not exist: the source itself, or the first missing file that is met in reading it and the files it includes, to any depth; and if there is such a file and no other error comes first, reading ends with the text that names it.", "quantifier": "all file systems, sources and depths of inclusion", "why_tests_cant": "unboundedly many files, nested to any depth", "anchors": ["h800/punchcard.py:Deck._readSource", "h800/punchcard.py:Deck.__init__"]}
{"id": "C180", "title": "What a tool says when it ends itself is the truth about the command line or the files", "statement": "For every command line each tool says, before it exits of itself: nothing on the error stream if help is asked for; otherwise how it is called and what is wrong with the first word that is not understood (no such option, ambiguous with the sorted list of the options meant, or a value given to an option that takes none); otherwise what is wrong with the options and arguments; otherwise which file does not exist; and it says something only if it exits. Each command line is of exactly one kind, and there is one fault at most.", "quantifier": "all command lines, program names and file systems, all nine tools (for the symbol tools and parse: file names whose part before the first dot is neither 'simple' nor 'complex' (for these see C188 and C189))", "why_tests_cant": "unboundedly many command lines and files", "anchors": ["tools/check-instructions.py:main", "tools/check-symbols.py:main", "tools/find-symbols.py:main", "tools/genlines.py:main", "tools/genpages.py:main", "tools/list-instructions.py:main", "tools/list-symbols.py:main", "tools/listing.py:main", "tools/parse.py:main"]}
{"id": "C181", "title": "The name of the program stands in the messages about the command line", "statement": "In what the tools say about a command line the name of the program is put where the sources of the messages have %prog: so if no percent sign is in the name or the command line, and all files exist, then there is none in any message.", "quantifier": "all nine tools, all program names, command lines and file systems in which all files exist", "why_tests_cant": "unboundedly many command lines", "anchors": ["tools/check-instructions.py:main", "tools/check-symbols.py:main", "tools/find-symbols.py:main", "tools/genlines.py:main", "tools/genpages.py:main", "tools/list-instructions.py:main", "tools/list-symbols.py:main", "tools/listing.py:main", "tools/parse.py:main"]}
{"id": "C182", "title": "A bit-field that refuses an operation says truly why", "statement": "Whenever an operation on a bit-field (reading or writing a bit or range, setting the value, setting or clearing bits, comparing) or its construction raises ValueError, the text names something that is wrong with the call: an index the field does not have (with the width of the field), bounds in the wrong order (with the layout of the field, MSB or LSB first), a value too great for the bits to be written (with their number), a truth value that is none, a width, numbering or order that does not exist. An operation with both bounds is carried out exactly if nothing of the kind is wrong.", "quantifier": "all bit-fields (with widths that are not negative; for others see C201), indices, ranges, values and operations", "why_tests_cant": "unbounded integers; the texts contain computed numbers", "anchors": ["h800/bitfield.py:BitField.__init__", "h800/bitfield.py:BitField.__getitem__", "h800/bitfield.py:BitField.__setitem__", "h800/bitfield.py:BitField.set", "h800/bitfield.py:BitField.clear"]}
{"id": "C183", "title": "An instruction that is refused says truly why", "statement": "Whenever the constructor of an instruction raises ValueError, the text names something that is wrong with the operands given: an operand out of its range, a mask for an instruction that takes none, or operands that exclude one another; an instruction is made exactly if nothing of the kind is wrong. The message of a constant is given exactly if its data do not fit 48 bits and names their bounds.", "quantifier": "all opcodes and all combinations of operands, all data", "why_tests_cant": "unbounded integers and all combinations of absent and present operands", "anchors": ["h800/instruction.py:Instruction.__init__", "h800/instruction.py:Constant.__init__"]}
{"id": "C184", "title": "Words and memory banks that refuse a value say truly why", "statement": "A word, a new value of a word after any operations, and a write to a memory bank with any history are refused with ValueError exactly if the value does not fit 48 bits (and, for memory, the address is in the bank), and the text says so; the parts of an instruction word are refused exactly if greater than 4096, with a text that names the 12 bits. The two checks of the bank that no write calls would let pass exactly the writes that are carried out.", "quantifier": "all values, addresses and histories of operations", "why_tests_cant": "unbounded integers and histories", "anchors": ["h800/word.py:Word.__init__", "h800/word.py:InstructionWord.__init__", "h800/memory.py:MemoryBank.__setitem__", "h800/memory.py:MemoryBank._checkValue", "h800/memory.py:MemoryBank._checkAddress"]}
{"id": "C185", "title": "Registers, groups and files that refuse a call say truly why", "statement": "Whenever a register, a register group, a register file or a naming function raises ValueError, the text names something that is wrong with the call: a value that does not fit the width (with the width), a width other than 16 and 24, a name that no register has, a number out of range, a slice; a register is made exactly if nothing of the kind is wrong.", "quantifier": "all values, widths, names, numbers and subscripts, registers with any history", "why_tests_cant": "unbounded integers and strings", "anchors": ["h800/registers.py:Register.__init__", "h800/registers.py:RegisterGroup.__getitem__", "h800/registers.py:RegisterGroup.__setitem__", "h800/registers.py:Registers.__getitem__", "h800/registers.py:Registers.__setitem__", "h800/registers.py:registerName", "h800/registers.py:registerNumber"]}
{"id": "C186", "title": "What the methods of a symbol table print tells what they do", "statement": "After any history, add prints an error exactly if a symbol of that name was added before. What pruneUndefines prints tells how many names there were, exactly the names it removes in their order, and how many these are; if a name has a value, one is removed. What resolve prints tells the number of each pass and of the undefined names at its beginning, every name tried, what is removed, and how it ended: out of passes, all resolved, or no progress with the number of names left, which are those in the table afterwards.", "quantifier": "all histories of calls, all tables whose undefined names have entries, all numbers of passes", "why_tests_cant": "unboundedly many symbols, histories and passes", "anchors": ["h800/symbol_table.py:SymbolTable.add", "h800/symbol_table.py:SymbolTable.pruneUndefines", "h800/symbol_table.py:SymbolTable.resolve"]}
{"id": "C187", "title": "A printed symbol table shows its symbols", "statement": "From what printTable prints the names of the symbols can be told: there is a line for each symbol, in the order of the names, then one for each undefined symbol, and each shows the symbol.", "quantifier": "all histories of calls and all addresses of objects", "why_tests_cant": "unboundedly many symbols and histories", "anchors": ["h800/symbol_table.py:SymbolTable.printTable", "h800/symbol_table.py:SymbolTable.printUndefs"]}
{"id": "C188", "title": "Building the symbol table of a file of any name", "statement": "Call a line taken if it defines a tag already known in its segment and subsegment, and also in a segment named like the kind of the definition (simple or complex). If no taken line has the operation EQUALS, building the symbol table succeeds; the error count is the number of lines in error and of lines taken, the latter are reported as multiply defined, in order, and change nothing in the table; every other definition replaces the one before it. The first taken line with EQUALS stops everything with a KeyError, or with an AttributeError if the tag is known in subsegment 'card' of segment 'simple'. Nothing is taken if no segment is named like a kind.", "quantifier": "all file names, files, include trees and tables", "why_tests_cant": "unboundedly many files, lines and names", "anchors": ["h800/symbol_table.py:buildSymbolTable"]}
{"id": "C189", "title": "The symbol tools end normally whenever the files can be read", "statement": "parse, check-symbols, list-symbols and find-symbols end without an exception for all files that can be read.", "quantifier": "all file systems, file lists and options", "why_tests_cant": "unboundedly many files, lines and names", "anchors": ["tools/parse.py", "tools/check-symbols.py", "tools/list-symbols.py", "tools/find-symbols.py", "h800/symbol_table.py:buildSymbolTable"]}
{"id": "C190", "title": "Every command code of Table II can be made with the class of its instruction", "statement": "For every mnemonic and every twelve-bit code that Table II of the programmers' reference manual gives to it, the class of that mnemonic has arguments with which its value is that code.", "quantifier": "all mnemonics of the table, all codes, all arguments of the constructors", "why_tests_cant": "the table stands for thousands of codes, and that no arguments make a code is a statement about all arguments", "anchors": ["docs/prm/images/table_II.png", "h800/instructions.py", "h800/instruction.py"]}
{"id": "C191", "title": "The operation code is read as the manual says", "statement": "A line whose operation code, read as the manual of assembly language says (command code group in columns 20-31, spaces ignored, up to the first comma; column 32 designates the next counter), is a known instruction is not reported by check-instructions as having an invalid instruction.", "quantifier": "all files, include trees, options and lines", "why_tests_cant": "unboundedly many lines", "anchors": ["tools/check-instructions.py", "h800/arguscard.py", "docs/argus/ARGUS_Manual_of_Assembly_Language.md"]}
{"id": "C192", "title": "The operation codes with an appended letter are known", "statement": "check-instructions does not report a line whose operation code is one that the documents allow, including those formed by appending A or D to a field instruction with a generated mask.", "quantifier": "all files, include trees, options and lines", "why_tests_cant": "all masks and lines", "anchors": ["tools/check-instructions.py", "h800/instructions.py", "docs/argus/ARGUS_Manual_of_Assembly_Language.md"]}
{"id": "C193", "title": "The labels accepted are the tags of the manual", "statement": "A label is accepted by the symbol table exactly if it is one of the tags of the manual: a symbolic tag of at most eight permitted characters not all numeric, a mask, link or out-of-sequence tag, or a special register tag.", "quantifier": "all labels, all functions for str.upper that leave the characters of Table I as they are", "why_tests_cant": "unboundedly many labels", "anchors": ["h800/symbol_table.py:buildSymbolTable", "docs/argus/ARGUS_Manual_of_Assembly_Language.md"]}
{"id": "C194", "title": "Tags assigned by ASSIGN or TAS are complex", "statement": "For every line that assigns a tag with ASSIGN or TAS there is a definition of kind complex under its tag, segment and subsegment.", "quantifier": "all files, include trees, tables and lines; file names whose part before the first dot is neither 'simple' nor 'complex'", "why_tests_cant": "unboundedly many files and lines", "anchors": ["h800/symbol_table.py:buildSymbolTable", "docs/argus/ARGUS_Manual_of_Assembly_Language.md"]}
{"id": "C195", "title": "Definitions are under the subsegment that the manual gives the line", "statement": "If all SETLOC lines are written as the manual says, every definition is in the table under the subsegment specified by the last SETLOC that specifies one, or under subsegment 1 if there is none.", "quantifier": "all files, include trees, tables and lines; file names whose part before the first dot is neither 'simple' nor 'complex'", "why_tests_cant": "unboundedly many files and lines", "anchors": ["h800/symbol_table.py:buildSymbolTable", "docs/argus/ARGUS_Manual_of_Assembly_Language.md"]}
{"id": "C196", "title": "Lines without code change only line numbers", "statement": "Comments, blank lines, page, remark and log cards put in or taken out anywhere in any files, included files too, change nothing that check-instructions, list-instructions, check-symbols, find-symbols, list-symbols and parse print on either stream, with or without --verbose, except line numbers, the number of source lines, and what --verbose tells about skipped comments; nor do they change how the tool ends.", "quantifier": "all pairs of file systems whose files differ only by lines without code, all arguments, options, include trees and recursion limits", "why_tests_cant": "unboundedly many files, positions and runs", "anchors": ["tools/check-instructions.py", "tools/list-instructions.py", "tools/check-symbols.py", "tools/find-symbols.py", "tools/list-symbols.py", "tools/parse.py", "h800/punchcard.py:_readSource", "h800/symbol_table.py:buildSymbolTable"]}
{"id": "C197", "title": "Search results and definitions are printed as Python writes these values", "statement": "What find-symbols prints is what Python 3 writes for None, for the list of the names, or for the dict of the definitions by segment, subsegment and kind, each definition being a dict of file, line, lognum, tagtype and card in this order; the lines about an error of the symbol table are its sentence, for a multiply-defined symbol the dict of its previous definitions, the dict of the current definition, and for a multiply-defined symbol its operation. Strings have single quotes unless there are single but no double quotes in them, and exactly the quotes, backslashes and unprintable characters are escaped, with the shortest escape; so each text is determined by the value.", "quantifier": "all strings, lists and tables of definitions, all errors, all sets of printable characters, all addresses", "why_tests_cant": "unbounded strings over all of Unicode, unbounded tables", "anchors": ["tools/find-symbols.py:main", "h800/symbol_table.py:findSymbolDef", "h800/symbol_table.py:buildSymbolTable"]}
{"id": "C198", "title": "How a program is divided among included files changes only places in the reports", "statement": "If the files given to check-instructions, list-instructions, check-symbols, find-symbols, list-symbols or parse expand, through their includes, to the same lines but for lines without code, then the tool prints the same on either stream, with or without --verbose, except line numbers, the names of the files in which lines stand, the number of source lines, and what --verbose tells about files being read and skipped comments; and it ends in the same way. In particular this holds if each file given is replaced by a file of all the lines that it expands to.", "quantifier": "all pairs of file systems, all lists of files that can be read in both, all include trees, options and words searched for, all recursion limits that are large enough", "why_tests_cant": "unboundedly many ways to divide a program, unbounded include depth", "anchors": ["tools/check-instructions.py", "tools/list-instructions.py", "tools/check-symbols.py", "tools/find-symbols.py", "tools/list-symbols.py", "tools/parse.py", "h800/punchcard.py:_readSource"]}
{"id": "C199", "title": "_getBitValue counts bits from the least significant one; index conversions for a given width", "statement": "_getBitValue(index, value, width) returns bit `index` of `value`, counted from the least significant bit whatever the numbering scheme and order of the field; it fails, with ValueError, exactly if the width is negative or greater than the field's maxval, the value is greater than 2 ** width, or the index is negative. _rindex and _vindex with a width given are inverse to each other for every width, give the position from the left of the bit with the weight that the scheme says, and without it use the width of the field.", "quantifier": "all bit-fields, values, indices and widths", "why_tests_cant": "unbounded values, indices and widths", "anchors": ["h800/bitfield.py:_getBitValue", "h800/bitfield.py:_rindex", "h800/bitfield.py:_vindex"]}
{"id": "C200", "title": "How the lines of the files are ended makes no difference", "statement": "The lines read from a file are those stored in it, whether each is ended by a newline, a carriage return or both; so two file systems whose files have the same lines, ended in any ways, give the same results with every tool. What genpages and listing write is read back as if all lines were ended by newlines, except that in a file ending with a carriage return the blank line that genpages puts before its log card is lost.", "quantifier": "all stored files, with any mixture of line ends; all arguments (for listing, names of files without carriage returns)", "why_tests_cant": "unbounded files and mixtures of line ends", "anchors": ["h800/punchcard.py:Deck._readSource", "tools/genpages.py:main", "tools/listing.py:main"]}
{"id": "C201", "title": "A bit-field has from 1 to 64 bits", "statement": "Whatever the arguments, a bit-field that the constructor makes has at least one bit and at most 64.", "quantifier": "all values, widths (also negative), numberings and orders; all histories of calls on fields without bits", "why_tests_cant": "unbounded integers, unbounded histories", "anchors": ["h800/bitfield.py:BitField.__init__", "h800/bitfield.py:BitField._checkIndex", "h800/bitfield.py:BitField._checkValue"]}
{"id": "C202", "title": "Log numbers, operands and remarks decide nothing", "statement": "What stands in the columns of a line that no tool looks into (log numbers, operands, and all that is behind them, and on page, remark and log cards all but columns 1 and 8) changes nothing in what any tool prints but the texts of the lines, the log numbers and the operands themselves: the same messages come in the same order, about the same symbols, instructions, files and line numbers, with the same counts, and the tool ends in the same way.", "quantifier": "all pairs of file systems whose files have the same comments, includes and cards but for these columns; all arguments and options of check-instructions, list-instructions, check-symbols, find-symbols, list-symbols and parse, with and without --verbose; any limit of nested includes", "why_tests_cant": "pairs of programs of unbounded size; a relation between two runs, which no single test observes", "anchors": ["h800/arguscard.py:Card", "h800/symbol_table.py:buildSymbolTable", "tools/check-instructions.py:main", "tools/list-instructions.py:main", "tools/check-symbols.py:main", "tools/find-symbols.py:main", "tools/list-symbols.py:main", "tools/parse.py:main"]}
{"id": "C203", "title": "Bits taken in groups", "statement": "For any division of a field into consecutive groups of bits, as the manual's figures divide words and addresses: the numbers read at the subscripts of the groups fit them and, joined from the left, are the value of the field. Numbers that fit, written to the groups in any order, make the field the joined number whatever it was before, and read back. Only one list of numbers makes a value. In particular a 16-bit register is a sign, a bank indicator of 4 bits and a subaddress of 11 bits.", "quantifier": "all MSB-left fields of any width, value and numbering; all lists of group sizes that add up to the width; all numbers that fit; all orders of writing", "why_tests_cant": "all divisions of all widths, with all values and all orders of writing", "anchors": ["h800/bitfield.py:BitField.__getitem__", "h800/bitfield.py:BitField.__setitem__", "h800/registers.py:Register.__getitem__"]}
{"id": "C204", "title": "The parts of an instruction are where the manual puts them", "statement": "In the word of an instruction made with its class and any operands and addresses, the bits hold what the manual says: bit 1 the sequence, bits 2 to 6 the mask or bits 2 and 3 of the operation code and the three memory designators, bit 7 whether it is masked, peripheral or print, bits 8 to 12 the rest of the operation code; of a peripheral instruction bits 1 to 3 the channel and 4 to 6 the device; of a simulator instruction bits 10 to 12 all ones; bits 13 to 24, 25 to 36 and 37 to 48 the addresses. Writing these parts to any word, in any order, makes the same word.", "quantifier": "all classes of instructions, all operands in range, all addresses, all words written to and all orders of writing", "why_tests_cant": "4096 codes times 2^36 addresses, and every order of writing the parts", "anchors": ["h800/instruction.py:Instruction", "h800/instructions.py", "h800/word.py:InstructionWord", "h800/bitfield.py:BitField.__getitem__"]}
{"id": "C205", "title": "The operation code designates the instruction", "statement": "If in the words of two instructions those bits are the same that are the operation code of the first (bits 7 to 12 of a masked, peripheral or print instruction; 2, 3 and 7 to 12 of an unmasked one; 10 to 12 of a simulator instruction), then both are the same instruction, where the three mnemonics for printing are one.", "quantifier": "all pairs of words of all instructions of the table, with all forms, operands and addresses", "why_tests_cant": "pairs of 48-bit words", "anchors": ["h800/instructions.py:OPCODES", "h800/instruction.py:Instruction", "h800/word.py:InstructionWord"]}
{"id": "C206", "title": "All code is in the same segment", "statement": "All definitions in a symbol table are in the same segment, as the README says.", "quantifier": "all lists of files, with any include lines", "why_tests_cant": "all lists of files with all their include trees", "anchors": ["README.md", "h800/symbol_table.py:buildSymbolTable"]}
{"id": "C207", "title": "The addresses of the manual name the words of memory, one each", "statement": "In a main memory of four modules, the word modules[bank // 4][bank % 4][sub] with the bank indicator and the subaddress taken from a 16-bit register (bits 2 to 5, 6 to 16) is the last 48-bit value written by any register with the same 15-bit address, whatever the sign bits, or 0. In the same way registers[x // 32][x % 32] is the last value that fits written to the special register with the 8-bit address x.", "quantifier": "all histories of writes with all addresses and values (also those refused); all states of the registers that hold the addresses", "why_tests_cant": "histories of unbounded length over 32768 words", "anchors": ["h800/memory.py:MemoryModule.__getitem__", "h800/memory.py:MemoryBank.__setitem__", "h800/registers.py:Register.__getitem__", "h800/registers.py:Registers.__getitem__"]}
{"id": "C208", "title": "The reports depend on the lines, not on which files they are given in", "statement": "check-instructions and list-instructions print the same about two lists of files with the same lines one after the other, however the lines are divided among the files given and whatever the names are, but for line numbers, names of files, the number of lines reported and what --verbose tells about reading. All six tools print the same, with the same exceptions, if each file given is replaced by another with the same lines whose name begins in the same way, up to the first dot. Lines without code and line ends make no difference.", "quantifier": "all pairs of file systems and lists of files that can be read; all options; with and without --verbose", "why_tests_cant": "all ways to divide all programs among files, and all names", "anchors": ["h800/punchcard.py:Deck._readSource", "h800/symbol_table.py:buildSymbolTable", "tools/check-instructions.py:main", "tools/list-instructions.py:main", "tools/check-symbols.py:main", "tools/find-symbols.py:main", "tools/list-symbols.py:main", "tools/parse.py:main"]}
{"id": "C209", "title": "Words taken from a memory bank are the bank's words, each handed out once", "statement": "Whatever is done with a bank and with the words that its iterator has handed out (assignments to their value, item and slice writes, set and clear of their bits), each word of the bank is what a single word would be to which the same was done in the same order; what is done to other words makes no difference. Throughout the life of a bank its words are handed out from address 0 on, each once, however many loops ask for them; so of two nested loops over a bank the inner one takes all the words that are left and the outer one ends after its first round.", "quantifier": "all histories of calls on the bank and on the words taken from it, also those refused", "why_tests_cant": "all interleavings of uses of a bank and of the words taken from it", "anchors": ["h800/memory.py:MemoryBank.__next__", "h800/memory.py:MemoryBank.__iter__", "h800/word.py:Word.value", "h800/bitfield.py:BitField.__setitem__"]}
{"id": "C210", "title": "The help of a tool shows its options, all of them and no others", "statement": "The help of every tool consists of a line that tells how it is called, an empty line, the line `Options:`, and one line for every option with both spellings and its text, in the order in which the tool declares them, all texts in the same column. An option is shown with two spellings exactly if the tool has it with these; a letter is taken as an option exactly if it is shown, and a name exactly if it begins a name shown. A command line without mistakes prints the help exactly if -h or --help, perhaps cut off or in a cluster, is among its options.", "quantifier": "all tools, all names of the program, all letters, names and command lines", "why_tests_cant": "all command lines, letters and names; tests look at single help screens", "anchors": ["tools/check-instructions.py:main", "tools/check-symbols.py:main", "tools/find-symbols.py:main", "tools/list-instructions.py:main", "tools/list-symbols.py:main", "tools/listing.py:main", "tools/parse.py:main", "tools/genlines.py:main", "tools/genpages.py:main"]}
{"id": "C211", "title": "find-symbols finds what its help says", "statement": "For a search in files that can be read without --fuzzy, the symbols found are the defined ones that the help of the options tells: with --begin those that begin with the word, with --end those that end with it, with --exact the word itself, by default those in which the word occurs (the help of --exact: Exact matching. Default is partial.).", "quantifier": "all files, words and choices of the options", "why_tests_cant": "all programs and words", "anchors": ["tools/find-symbols.py:main", "h800/symbol_table.py:findSymbolDef"]}
{"id": "C212", "title": "New names for the tags change nothing but the names in the reports", "statement": "If in the files of a program every well-formed label gets another tag in columns 9-19 (the same one for the same tag, different ones for different defined tags) and nothing else is changed, then the symbol tools report the same errors for the same lines and the same numbers of errors, list-symbols lists the same definitions under the new names, check-symbols reports the new names of the same symbols, and find-symbols finds under the new name the definitions that it finds under the old name. If the new names are in the order of the old ones, the sequence is the same as well.", "quantifier": "all programs, all renamings, all command lines", "why_tests_cant": "relates the runs on all pairs of programs", "anchors": ["h800/symbol_table.py:buildSymbolTable", "h800/symbol_table.py:findSymbolDef", "h800/symbol_table.py:checkSymbolTable", "tools/list-symbols.py:main", "tools/check-symbols.py:main", "tools/find-symbols.py:main"]}
{"id": "C213", "title": "A bit-field takes ints only", "statement": "A bit-field that is given something else than an int to store, or something that is neither an int nor None to name a bit by, raises and stays as it was.", "quantifier": "all bit-fields, all calls, all values, any arithmetic of floats", "why_tests_cant": "quantifies over all floats and all ways of rounding", "anchors": ["h800/bitfield.py:BitField.__init__", "h800/bitfield.py:BitField._checkIndex", "h800/bitfield.py:BitField._checkRange", "h800/bitfield.py:BitField._checkValue", "h800/bitfield.py:BitField.__getitem__", "h800/bitfield.py:BitField.__setitem__", "h800/bitfield.py:BitField.set", "h800/bitfield.py:BitField.clear"]}
{"id": "C214", "title": "Words, registers and memory take ints only", "statement": "Words, instruction words, registers and memory banks that are given something else than an int to store raise and stay as they were.", "quantifier": "all words, registers and banks, all values, any arithmetic of floats", "why_tests_cant": "quantifies over all floats and all ways of rounding", "anchors": ["h800/word.py:Word.__init__", "h800/word.py:Word.value", "h800/word.py:InstructionWord.__init__", "h800/registers.py:Register.__init__", "h800/registers.py:Register.value", "h800/registers.py:Register.__setitem__", "h800/memory.py:MemoryBank.__setitem__"]}
{"id": "C215", "title": "A file that cannot be read is reported, and what is reported is true", "statement": "If reading a deck from a disk fails because of a file, the program says so, and if it says that a file does not exist, there is nothing of that name.", "quantifier": "all disks (files of any bytes, files that may not be opened, directories), names and depths of inclusion", "why_tests_cant": "unboundedly many disks and files, nested to any depth", "anchors": ["h800/punchcard.py:Deck._readSource", "h800/punchcard.py:Deck.__init__"]}
{"id": "C216", "title": "The tools do on the bytes of files what they do on the texts", "statement": "On a disk whose files hold texts in UTF-8 every tool prints and ends as on these texts; at the first file that cannot be read it stops, having printed the same before.", "quantifier": "all disks, tools, options and arguments", "why_tests_cant": "unboundedly many disks, files of unbounded length, nested to any depth", "anchors": ["h800/punchcard.py:Deck._readSource", "h800/punchcard.py:Deck.__init__", "tools/check-instructions.py:main", "tools/list-instructions.py:main", "tools/check-symbols.py:main", "tools/find-symbols.py:main", "tools/list-symbols.py:main", "tools/parse.py:main", "tools/listing.py:main", "tools/genpages.py:main", "h800/symbol_table.py:buildSymbolTable"]}
{"id": "C217", "title": "A byte order mark at the start of a file does not matter", "statement": "A file with the bytes EF BB BF before its text is read as the file without them.", "quantifier": "all texts", "why_tests_cant": "unboundedly many texts", "anchors": ["h800/punchcard.py:Deck._readSource", "h800/arguscard.py:Card.__init__"]}
{"id": "C218", "title": "The memory and the registers take no keys but ints, slices and names", "statement": "A memory bank, a memory module, a group of registers, the set of groups and the tables of register names, given a key that is no int, no slice and no string, raise and stay as they were.", "quantifier": "all keys (floats, tuples, None, lists, slices with any bounds), memories, modules and registers", "why_tests_cant": "unboundedly many keys, floats and states", "anchors": ["h800/memory.py:MemoryBank.__getitem__", "h800/memory.py:MemoryBank.__setitem__", "h800/memory.py:MemoryModule.__getitem__", "h800/memory.py:ExpansionMemoryModule.__getitem__", "h800/registers.py:RegisterGroup.__getitem__", "h800/registers.py:RegisterGroup.__setitem__", "h800/registers.py:Registers.__getitem__", "h800/registers.py:Registers.__setitem__", "h800/registers.py:registerName", "h800/registers.py:registerAlias", "h800/registers.py:registerNumber"]}
{"id": "C219", "title": "A tag may be punched anywhere in its field, with any spaces, and an operation anywhere in its", "statement": "Take any program and move labels within columns 9 to 19, put spaces into them or take spaces out, and move operations within columns 20 to 32. Then every tool prints the same messages in the same order and ends in the same way; only the texts shown of lines, log numbers and operands and the spaces in shown labels differ (ARGUS manual: tags may be punched anywhere in the location field, spaces are ignored).", "quantifier": "all pairs of file systems related in this way (nested includes, any number of cards), tools, options and arguments", "why_tests_cant": "unboundedly many programs and ways of punching them", "anchors": ["h800/arguscard.py:Card", "h800/symbol_table.py:buildSymbolTable", "tools/check-instructions.py:main", "tools/list-instructions.py:main", "tools/check-symbols.py:main", "tools/find-symbols.py:main", "tools/list-symbols.py:main", "tools/parse.py:main"]}
{"id": "C220", "title": "Instructions take ints only", "statement": "An instruction, made with any opcode or by any class of the module, and a constant refuse operands that are not ints (or None for an operand left out).", "quantifier": "all opcodes, classes, and operands of any type (floats, NaN, infinities, strings, other objects)", "why_tests_cant": "unboundedly many operands", "anchors": ["h800/instruction.py:Instruction.__init__", "h800/instruction.py:Instruction._check", "h800/instruction.py:Constant.__init__", "h800/instructions.py:BinaryAdd"]}
{"id": "C221", "title": "`x in obj` tells what is in the object", "statement": "For a bit field, register, register group, register file, memory bank or memory module, `x in obj` is True if x is one of the elements that the subscripts give, and False otherwise.", "quantifier": "all fields, all histories of groups, files and banks, all modules, all values", "why_tests_cant": "unboundedly many fields, values and histories", "anchors": ["h800/bitfield.py:BitField.__getitem__", "h800/registers.py:RegisterGroup.__next__", "h800/registers.py:Registers.__next__", "h800/memory.py:MemoryBank.__next__", "h800/memory.py:MemoryModule.__getitem__"]}
{"id": "C222", "title": "`reversed(obj)` gives all elements, the last first", "statement": "For a bit field, register, register group, register file, memory bank or memory module, `reversed(obj)` gives every element once, the last first, and ends without an exception.", "quantifier": "all fields, all histories of registers, groups, files and banks, all modules", "why_tests_cant": "unboundedly many widths and histories", "anchors": ["h800/bitfield.py:BitField.__getitem__", "h800/bitfield.py:BitField.__len__", "h800/registers.py:RegisterGroup.__setitem__", "h800/registers.py:Registers.__len__", "h800/memory.py:MemoryBank.__getitem__", "h800/memory.py:MemoryModule.__len__"]}
{"id": "C223", "title": "A run that is stopped leaves no file in an unforeseen state", "statement": "If listing or genpages is stopped at any moment (killed, or the disk is full), every file is as before the run, except: listings already finished are as after a complete run, the listing being written holds a beginning of its text, and the file given to genpages has a beginning of the new text after its own.", "quantifier": "all disks, all arguments, all moments", "why_tests_cant": "the moments and disks are unboundedly many, and a test would have to kill the process after every byte", "anchors": ["tools/listing.py:main", "tools/genpages.py:main"]}
{"id": "C224", "title": "listing can simply be run again", "statement": "If listing was stopped, any number of times, running it again gives all files as if it had not been stopped, and ends in the same way.", "quantifier": "all disks, arguments, and sequences of stopped runs", "why_tests_cant": "unboundedly many sequences of stopped runs", "anchors": ["tools/listing.py:main", "h800/punchcard.py:Deck.__init__"]}
{"id": "C225", "title": "genpages can simply be run again", "statement": "If genpages was stopped, any number of times, running it again appends the text that an uninterrupted run appends, and changes nothing else.", "quantifier": "all disks, files, and sequences of stopped runs", "why_tests_cant": "unboundedly many sequences of stopped runs", "anchors": ["tools/genpages.py:main", "h800/arguscard.py:Deck.__init__"]}
{"id": "C226", "title": "Runs of listing can take place at the same time", "statement": "If several runs of listing take place at the same time, they all come to an end, and then the files are as if the runs had taken place one after the other, and each has ended as it would have ended alone.", "quantifier": "all disks, any number of runs with any arguments, all orders in which their steps (reading a deck, opening a listing, writing a byte) can follow on each other", "why_tests_cant": "the number of schedules is unbounded, and a test meets one of them by chance", "anchors": ["tools/listing.py:main", "h800/punchcard.py:Deck.__init__"]}
{"id": "C227", "title": "The tools look at no other files than those given and those that these include", "statement": "What the tools that only read print, and how they end, depends only on the files given and the files reached from these by includes; what genpages does depends only on the file given, and concerns only this file; and so it is with listing and the files given, reached, and written, if none of the listings is among the files read.", "quantifier": "all disks, arguments, options, limits of nested includes", "why_tests_cant": "the rest of the disk is unbounded; a test can only leave out some files", "anchors": ["h800/punchcard.py:Deck._readSource", "tools/check-instructions.py:main", "tools/list-instructions.py:main", "tools/check-symbols.py:main", "tools/find-symbols.py:main", "tools/list-symbols.py:main", "tools/parse.py:main", "tools/genpages.py:main", "tools/listing.py:main"]}
{"id": "C228", "title": "A bit-field can be used as a subscript where its value can", "statement": "A bit-field has `__index__`: as a subscript of a memory bank or module, a group of registers, the set of groups or a bit-field, as a bound of a slice, and as a number given to the tables of registers, it does what the int that is its value does.", "quantifier": "all bit-fields as subscripts and bounds, mixed with all other bounds; all memories, modules, registers and bit-fields; all values stored", "why_tests_cant": "unboundedly many fields, bounds and states", "anchors": ["h800/bitfield.py:BitField.__index__", "h800/bitfield.py:BitField.__getitem__", "h800/bitfield.py:BitField.__setitem__", "h800/memory.py:MemoryBank.__getitem__", "h800/memory.py:MemoryBank.__setitem__", "h800/memory.py:MemoryModule.__getitem__", "h800/registers.py:RegisterGroup.__getitem__", "h800/registers.py:RegisterGroup.__setitem__", "h800/registers.py:Registers.__getitem__", "h800/registers.py:Registers.__setitem__", "h800/registers.py:registerName", "h800/registers.py:registerAlias"]}
{"id": "C229", "title": "The functions that make command codes make nothing else", "statement": "make_masked_opcode, make_unmasked_opcode, make_peripheral_opcode and make_print_opcode return the command code for each instruction of the table that has this form, and raise for any other mnemonic or operands.", "quantifier": "all strings as mnemonics, all integers as operands", "why_tests_cant": "unboundedly many strings and integers; print_instructions uses legal operands only", "anchors": ["h800/instructions.py:make_masked_opcode", "h800/instructions.py:make_unmasked_opcode", "h800/instructions.py:make_peripheral_opcode", "h800/instructions.py:make_print_opcode"]}
{"id": "C230", "title": "Reports of files that change while they are read are reports of one state of each file", "statement": "If files change while check-instructions or parse is running and it ends well, then it reports what it would report if the files did not change and were what they are, each at one moment of the run.", "quantifier": "all histories of the disk, from one access to the next; all files, options and limits of nested includes", "why_tests_cant": "a change between two accesses is a race that a test cannot arrange, and there are unboundedly many histories", "anchors": ["h800/punchcard.py:Deck._readSource", "tools/check-instructions.py:main", "tools/parse.py:main", "h800/symbol_table.py:buildSymbolTable"]}
{"id": "C231", "title": "A card can be laid out in any columns under any names", "statement": "For every line that is not a comment, every width, every list of columns and at least as many names as columns, a card is made, and its record has under the name of each field the stripped text punched in the columns of that field (None if blank).", "quantifier": "all lines, widths, lists of columns (in any order, of any sign) and lists of names; both card classes and decks", "why_tests_cant": "layouts and names are unbounded lists; tests use the default layout only", "anchors": ["h800/punchcard.py:PunchCard.__init__", "h800/arguscard.py:Card.__init__", "h800/punchcard.py:Deck.__init__"]}
{"id": "C232", "title": "What list-instructions and the symbol tools print of files that change is what they print of one state of each file", "statement": "If files change while list-instructions, check-symbols, find-symbols or list-symbols is running and it ends well, then it prints what it would print if the files did not change and were what they are, each at one moment of the run.", "quantifier": "all histories of the disk, from one access to the next; all files, options, opcodes, symbols and limits of nested includes", "why_tests_cant": "the histories of a disk are infinitely many, and a test cannot change a file between any two accesses of a tool", "anchors": ["tools/list-instructions.py:main", "tools/check-symbols.py:main", "tools/find-symbols.py:main", "tools/list-symbols.py:main", "h800/punchcard.py:Deck._readSource", "h800/symbol_table.py:buildSymbolTable"]}
{"id": "C233", "title": "What a caller does with what a deck hands out does not change the deck", "statement": "Once a deck is made, no sequence of changes by a caller to the list it was made from, to the lists lines, cards, fields, strippedFields and records of the deck, or to the layout, fields, strippedFields and record of one of its cards changes what the deck or its cards show.", "quantifier": "all decks, made from a list or from a file; all sequences of changes, each any function on the contents of one list or record", "why_tests_cant": "the sequences of changes are infinitely many, and which objects are shared cannot be seen by looking at values once", "anchors": ["h800/punchcard.py:Deck.__init__", "h800/punchcard.py:Deck.lines", "h800/punchcard.py:Deck.cards", "h800/punchcard.py:Deck.fields", "h800/punchcard.py:Deck.strippedFields", "h800/punchcard.py:Deck.records", "h800/punchcard.py:Deck.__str__", "h800/punchcard.py:PunchCard.layout", "h800/punchcard.py:PunchCard.record"]}
{"id": "C234", "title": "Decks of any layout keep their source and can be read again", "statement": "For every width and list of columns and both card classes, the cards of a deck name the file and line they come from and hold its text, and the text of a non-empty deck read from a file, split into lines, makes a deck with the same texts, stripped fields and records.", "quantifier": "all files with their includes, all lists of lines, all widths and columns (also zero and negative), both card classes", "why_tests_cant": "the layouts, files and depths of inclusion are infinitely many", "anchors": ["h800/punchcard.py:PunchCard.__init__", "h800/punchcard.py:Deck.__init__", "h800/punchcard.py:Deck._readSource", "h800/punchcard.py:Deck.__str__", "h800/arguscard.py:Card.__init__", "h800/arguscard.py:Deck.__init__"]}
{"id": "C235", "title": "resolve takes every name that has a value out of the undefined ones", "statement": "After resolve(), with its ten passes, no name left in undefines has an entry with a value.", "quantifier": "all symbol tables whose undefined names have entries (and, for the last parts, all tables), any number of names and passes", "why_tests_cant": "the tables are infinitely many, and the number of passes needed grows with the number of names", "anchors": ["h800/symbol_table.py:SymbolTable.resolve", "h800/symbol_table.py:SymbolTable.pruneUndefines", "h800/symbol_table.py:SymbolTableEntry.isValid"]}
{"id": "C236", "title": "What a caller does with what a symbol table hands out does not confuse the table", "statement": "After any sequence of calls on a SymbolTable and of changes by a caller to symbols, undefines and the references of entries, the undefined names are exactly the names without a value, each once, and no method raises KeyError.", "quantifier": "all sequences of calls and changes; the lists may be changed to anything, and any entry ever made may be put under any name", "why_tests_cant": "the sequences are infinitely many, and which entries are shared cannot be seen by looking at values once", "anchors": ["h800/symbol_table.py:SymbolTable.symbols", "h800/symbol_table.py:SymbolTable.undefines", "h800/symbol_table.py:SymbolTable.lookup", "h800/symbol_table.py:SymbolTable.add", "h800/symbol_table.py:SymbolTable.pruneUndefines", "h800/symbol_table.py:SymbolTable.printUndefs", "h800/symbol_table.py:SymbolTableEntry.references", "h800/symbol_table.py:SymbolTableEntry.addReference"]}
{"id": "C237", "title": "A symbol table takes names of any type", "statement": "After any calls on a SymbolTable, add, pruneUndefines and resolve do not fail for names of any type that can be hashed, and the table is that of the same calls with strings for the names.", "quantifier": "all types of names with a truth value, a hash or none and tuples among them; all sequences of calls", "why_tests_cant": "the types and the sequences are infinitely many, and the types of names in tests are all strings", "anchors": ["h800/symbol_table.py:SymbolTable.add", "h800/symbol_table.py:SymbolTable.update", "h800/symbol_table.py:SymbolTable.resolve", "h800/symbol_table.py:SymbolTable.pruneUndefines", "h800/symbol_table.py:SymbolTable.lookup"]}
{"id": "C238", "title": "Threads that share a bit-field see calls one after the other", "statement": "If several threads make calls on one BitField and all calls have ended, then what they have returned and what they leave in the field is that of the same calls made one after the other, in some order that keeps the order of the calls of each thread.", "quantifier": "all fields; all numbers of threads and lists of calls (operations, subscripts, value); all schedules of reading and assigning _value", "why_tests_cant": "the schedules are infinitely many and tests do not choose them; a wrong one shows up rarely", "anchors": ["h800/bitfield.py:BitField.__setitem__", "h800/bitfield.py:BitField.__getitem__", "h800/bitfield.py:BitField.value", "h800/bitfield.py:BitField.set", "h800/bitfield.py:BitField.clear"]}
{"id": "C239", "title": "Runs of genpages can take place at the same time", "statement": "If several runs of genpages take place at the same time, on the same file or on different ones, then when all have ended the files are as if the runs had taken place one after the other, in some order.", "quantifier": "all disks, files and numbers of runs; all divisions of the texts into pieces; all schedules of reading and appending pieces", "why_tests_cant": "the schedules and divisions are infinitely many and tests do not choose them", "anchors": ["tools/genpages.py:main"]}
{"id": "C240", "title": "Threads that iterate over one memory bank share out its words", "statement": "If several threads iterate over the same memory bank, then when no thread is within a call of `next`, no word was given out twice, no call has raised anything but StopIteration, and once a call has raised StopIteration, all words from the first cursor on were given out.", "quantifier": "all banks and cursors, numbers of threads and calls; all schedules of the single reads and assignments of the cursor", "why_tests_cant": "the schedules are infinitely many and tests do not choose them", "anchors": ["h800/memory.py:MemoryBank.__next__"]}
{"id": "C241", "title": "Threads that share a memory bank see their calls one after the other", "statement": "What several threads that read and write words and slices of one memory bank have been returned, and what they have left in it, when no thread is within a call, could be that of their calls one after the other, in some order that keeps the order of the calls of each thread.", "quantifier": "all banks, numbers of threads and programs of reads, fills and clears; all schedules of touching single words", "why_tests_cant": "the schedules and programs are infinitely many and tests do not choose them", "anchors": ["h800/memory.py:MemoryBank.__getitem__", "h800/memory.py:MemoryBank.__setitem__", "h800/memory.py:MemoryBank.clear", "h800/word.py:Word.value"]}
{"id": "C242", "title": "A tool prints all it has to say, whatever characters the sources hold", "statement": "On an output stream that has all characters of ASCII, check-instructions prints all its lines and ends as on a stream that has all characters, whatever characters the sources hold; the same for parse and list-instructions.", "quantifier": "all file systems, files, include graphs, options and sets of characters of the output encoding", "why_tests_cant": "files, include graphs and encodings are infinitely many", "anchors": ["tools/check-instructions.py:main", "tools/parse.py:main", "tools/list-instructions.py:main", "h800/punchcard.py:Deck._readSource"]}
{"id": "C243", "title": "listing writes its listings whole, whatever characters the sources hold", "statement": "Encodings of the standard output and of the listing files that have all characters of ASCII make no difference to the listings that listing writes, whatever characters the sources hold.", "quantifier": "all file systems, files, include graphs and sets of characters of the two encodings", "why_tests_cant": "files, include graphs and encodings are infinitely many", "anchors": ["tools/listing.py:main", "h800/punchcard.py:Deck._readSource"]}
{"id": "C244", "title": "A symbol tool prints all it has to say, whatever characters the sources hold", "statement": "On a standard output that has all characters of ASCII, list-symbols prints all its lines and ends as on an output that has all characters, whatever characters the sources hold; the same for find-symbols and check-symbols.", "quantifier": "all file systems, files, include graphs, options and sets of characters of the output encoding", "why_tests_cant": "files, include graphs and encodings are infinitely many", "anchors": ["tools/list-symbols.py:main", "tools/find-symbols.py:main", "tools/check-symbols.py:main", "h800/symbol_table.py:buildSymbolTable", "h800/symbol_table.py:findSymbolDef", "h800/symbol_table.py:checkSymbolTable"]}
{"id": "C245", "title": "Threads that clear one register group at the same time clear it", "statement": "When several threads call clear of one new register group at the same time and all calls have returned, all registers of the group are zero, however the steps of the calls come in between each other.", "quantifier": "all groups, values of the registers, numbers of threads and orders of their steps", "why_tests_cant": "the orders of steps of threads are infinitely many, and a test cannot choose them", "anchors": ["h800/registers.py:RegisterGroup.clear", "h800/registers.py:RegisterGroup.__next__", "h800/registers.py:RegisterGroup.__iter__"]}
{"id": "C246", "title": "genpages and genlines write no characters that their encoding lacks", "statement": "genpages never fails for a character that cannot be encoded: with every encoding that has all characters of ASCII and those of the file, which was read in it, it does what it does with an encoding that has all characters; the files it leaves behind hold no characters but those they held and those of ASCII. genlines prints all its lines on every output that has all characters of ASCII.", "quantifier": "all file systems, files, command lines and sets of characters of the encoding", "why_tests_cant": "files and encodings are infinitely many", "anchors": ["tools/genpages.py:main", "tools/genlines.py:main"]}
{"id": "C247", "title": "A limit on the digits of numbers only stops genlines and genpages", "statement": "The interpreter may set a limit on the digits of decimal texts of ints. Whatever the limit, genlines prints the lines that it prints without a limit, or the first ones of them and then raises ValueError; if it raises an exception without a limit, it prints nothing and raises that one or ValueError. genpages does what it does without a limit, or leaves all files as they were and raises ValueError. There is no difference for genlines if the limit is at least 8 and all arguments are shorter than it, and none for genpages if all lines of its file are shorter than it.", "quantifier": "all limits, command lines, file systems and files", "why_tests_cant": "numbers, files and limits are infinitely many", "anchors": ["tools/genlines.py:main", "tools/genpages.py:main"]}
{"id": "C248", "title": "Threads that clear one register file at the same time clear it", "statement": "When several threads call clear of one register file whose cursors are at the beginning at the same time and all calls have returned, all registers of all groups are zero, however the steps of the calls come in between each other.", "quantifier": "all files with all groups and registers, values of the registers, numbers of threads and orders of their steps", "why_tests_cant": "the orders of steps of threads are infinitely many, and a test cannot choose them", "anchors": ["h800/registers.py:Registers.clear", "h800/registers.py:Registers.__next__", "h800/registers.py:Registers.__iter__"]}
