{
 "claims": [
  {
   "property": "C01",
   "status": "proved",
   "theorems": [
    "H800.C01_bit_read"
   ],
   "note": "Every width, value, numbering, order and index; both branches."
  },
  {
   "property": "C02",
   "status": "proved",
   "theorems": [
    "H800.C02_indices"
   ],
   "note": "Full property."
  },
  {
   "property": "C03",
   "status": "proved",
   "theorems": [
    "H800.C03_bit_write",
    "H800.C03_bit_write_invalid"
   ],
   "note": "Read-back, frame, range preservation; error branch separately."
  },
  {
   "property": "C04",
   "status": "proved",
   "theorems": [
    "H800.C04_slice_read"
   ],
   "note": "Any integer value, including out-of-range ones."
  },
  {
   "property": "C05",
   "status": "proved",
   "theorems": [
    "H800.C05_slice_write"
   ],
   "note": "Read-back, frame and range preservation."
  },
  {
   "property": "C06",
   "status": "partial",
   "theorems": [
    "H800.C06_refuted",
    "H800.C06_lsbLeft_partial",
    "H800.C06_exact_read",
    "H800.C06_exact_write"
   ],
   "note": "False of the code (mask of LSB-left slices is placed at the wrong end): refuted by 255[3:7] = 16. Partial: one-bit and full-width slices. Exact behaviour of all other slices proved."
  },
  {
   "property": "C07",
   "status": "proved",
   "theorems": [
    "H800.C07_range_acceptance",
    "H800.C07_omitted_bounds"
   ],
   "note": "Acceptance iff, error kinds, omitted bounds; reads and writes."
  },
  {
   "property": "C08",
   "status": "partial",
   "theorems": [
    "H800.C08_refuted",
    "H800.C08_acceptance_partial",
    "H800.C08_slice_effect_partial",
    "H800.C08_index_effect_partial",
    "H800.C08_value_effect_partial"
   ],
   "note": "False of the code (negatives and exactly 2^n are accepted): refuted. Partial: exact acceptance thresholds of all four entry points, and the exact effect of every accepted assignment (slices: MSB-left; LSB-left slices see C06, C142)."
  },
  {
   "property": "C09",
   "status": "proved",
   "theorems": [
    "H800.C09_range_invariant"
   ],
   "note": "Induction over histories; both orders."
  },
  {
   "property": "C10",
   "status": "partial",
   "theorems": [
    "H800.C10_refuted",
    "H800.C10_set_clear_partial"
   ],
   "note": "False of the code for index 0: refuted. Partial: every other valid index; the no-argument forms; index 0 behaves as no argument."
  },
  {
   "property": "C11",
   "status": "partial",
   "theorems": [
    "H800.C11_refuted",
    "H800.C11_isRange_partial"
   ],
   "note": "False of the code: refuted. Partial: exact result of all three methods on MSB-left fields."
  },
  {
   "property": "C12",
   "status": "proved",
   "theorems": [
    "H800.C12_failure_atomic"
   ],
   "note": "All operations, all arguments, all field states."
  },
  {
   "property": "C13",
   "status": "proved",
   "theorems": [
    "H800.C13_repr",
    "H800.C13_any"
   ],
   "note": "Full property."
  },
  {
   "property": "C14",
   "status": "proved",
   "theorems": [
    "H800.C14_bit_predicates"
   ],
   "note": "Full property."
  },
  {
   "property": "C15",
   "status": "proved",
   "theorems": [
    "H800.C15_word_value"
   ],
   "note": "Full property."
  },
  {
   "property": "C16",
   "status": "proved",
   "theorems": [
    "H800.C16_instructionWord_packs"
   ],
   "note": "Full property."
  },
  {
   "property": "C17",
   "status": "proved",
   "theorems": [
    "H800.C17_field_set",
    "H800.C17_history"
   ],
   "note": "Frame per setter and last-write refinement over any history of setters and whole-word writes."
  },
  {
   "property": "C18",
   "status": "proved",
   "theorems": [
    "H800.C18_split_unique"
   ],
   "note": "Full property."
  },
  {
   "property": "C19",
   "status": "partial",
   "theorems": [
    "H800.C19_set_exact_partial",
    "H800.C19_init_exact_partial",
    "H800.C19_refuted",
    "H800.C19_large_rejected_partial"
   ],
   "note": "False of the code (4096 and negatives accepted): refuted. Partial: which values are rejected, by setters and constructor; what every accepted value does to all four fields."
  },
  {
   "property": "C20",
   "status": "proved",
   "theorems": [
    "H800.C20_register_init",
    "H800.C20_register_setValue"
   ],
   "note": "Constructor: every integer, width and name. Setter: every register reachable by any history."
  },
  {
   "property": "C21",
   "status": "proved",
   "theorems": [
    "H800.C21_names",
    "H800.C21_round_trip"
   ],
   "note": "Full property, every integer and string."
  },
  {
   "property": "C22",
   "status": "proved",
   "theorems": [
    "H800.C22_lookup"
   ],
   "note": "Every group reachable by iteration, clear and assignment."
  },
  {
   "property": "C23",
   "status": "partial",
   "theorems": [
    "H800.C23_refuted"
   ],
   "note": "False of the code in every state: refuted; aliases always raise ValueError."
  },
  {
   "property": "C24",
   "status": "proved",
   "theorems": [
    "H800.C24_last_write",
    "H800.C24_bad_width"
   ],
   "note": "Refinement to a plain 8x32 table over arbitrary histories of in-range writes, register clears and iteration."
  },
  {
   "property": "C25",
   "status": "partial",
   "theorems": [
    "H800.C25_clear_partial",
    "H800.C25_first_clear_partial",
    "H800.C25_refuted"
   ],
   "note": "False of the code (clear uses the one-shot iterator): refuted. Partial: exact effect in every reachable state; first clear works."
  },
  {
   "property": "C26",
   "status": "partial",
   "theorems": [
    "H800.C26_iteration_partial",
    "H800.C26_refuted"
   ],
   "note": "False of the code: refuted. Partial: a loop visits cursor..31, the next one nothing."
  },
  {
   "property": "C27",
   "status": "partial",
   "theorems": [
    "H800.C27_setitem_partial",
    "H800.C27_refuted"
   ],
   "note": "False of the code: refuted. Partial: exact effect; no assignment ever changes what a subscript returns."
  },
  {
   "property": "C28",
   "status": "partial",
   "theorems": [
    "H800.C28_setitem_partial",
    "H800.C28_refuted"
   ],
   "note": "False in its last part (registers[8] = g is accepted): refuted. Partial: groups 0..7 work, non-integers are rejected, other integers have no visible effect."
  },
  {
   "property": "C29",
   "status": "proved",
   "theorems": [
    "H800.C29_last_write"
   ],
   "note": "Refinement to a plain address->value map over arbitrary histories."
  },
  {
   "property": "C30",
   "status": "proved",
   "theorems": [
    "H800.C30_single_access"
   ],
   "note": "Every reachable bank."
  },
  {
   "property": "C31",
   "status": "partial",
   "theorems": [
    "H800.C31_slice_fill_partial",
    "H800.C31_refuted"
   ],
   "note": "False of the code: a fill running past the end overwrites words s..2047 and then raises. Refuted; partial: exact effect in every case."
  },
  {
   "property": "C32",
   "status": "proved",
   "theorems": [
    "H800.C32_slice_read"
   ],
   "note": "Full property."
  },
  {
   "property": "C33",
   "status": "proved",
   "theorems": [
    "H800.C33_clear"
   ],
   "note": "Full property."
  },
  {
   "property": "C34",
   "status": "partial",
   "theorems": [
    "H800.C34_iteration_partial",
    "H800.C34_refuted"
   ],
   "note": "False of the code (one-shot cursor): refuted. Partial: a loop visits cursor..2047, the next one nothing."
  },
  {
   "property": "C35",
   "status": "proved",
   "theorems": [
    "H800.C35_module"
   ],
   "note": "Both module classes; refinement per bank over arbitrary histories."
  },
  {
   "property": "C36",
   "status": "partial",
   "theorems": [
    "H800.C36_refuted"
   ],
   "note": "False of the code: the accessor raises TypeError in every state (proved for all states). Nothing positive to prove."
  },
  {
   "property": "C37",
   "status": "proved",
   "theorems": [
    "H800.C37_masked",
    "H800.C37_masked_classes"
   ],
   "note": "Every maskable opcode record, sequence and mask; and the table classes."
  },
  {
   "property": "C38",
   "status": "proved",
   "theorems": [
    "H800.C38_unmasked",
    "H800.C38_unmasked_classes",
    "H800.C38_proceed"
   ],
   "note": "Every unmasked opcode record and every combination of direct/indirect bits; and the table classes."
  },
  {
   "property": "C39",
   "status": "proved",
   "theorems": [
    "H800.C39_other",
    "H800.C39_other_classes"
   ],
   "note": "Peripheral, print and simulator forms, every operand."
  },
  {
   "property": "C40",
   "status": "proved",
   "theorems": [
    "H800.C40_fits"
   ],
   "note": "Every record and operand accepted by the constructor."
  },
  {
   "property": "C41",
   "status": "proved",
   "theorems": [
    "H800.C41_accepts",
    "H800.C41_table"
   ],
   "note": "Exact acceptance condition, for every opcode record and operand combination."
  },
  {
   "property": "C42",
   "status": "partial",
   "theorems": [
    "H800.C42_refuted",
    "H800.C42_clashes_partial"
   ],
   "note": "False of the code: refuted. Partial: exact characterisation of when two table forms share a code (print mnemonics; NA unmasked vs FNN)."
  },
  {
   "property": "C43",
   "status": "proved",
   "theorems": [
    "H800.C43_constants",
    "H800.C43_all_mnemonics"
   ],
   "note": "Every constant class and mnemonic."
  },
  {
   "property": "C44",
   "status": "partial",
   "theorems": [
    "H800.C44_refuted",
    "H800.C44_except_TS_partial"
   ],
   "note": "False of the code for TS: refuted. Partial: every other mnemonic."
  },
  {
   "property": "C45",
   "status": "partial",
   "theorems": [
    "H800.C45_names_partial",
    "H800.C45_refuted",
    "H800.C45_never_partial"
   ],
   "note": "False of the code: no control instruction can be constructed. Refuted and proved for all arguments; C45_names_partial names the ten classes."
  },
  {
   "property": "C46",
   "status": "proved",
   "theorems": [
    "H800.C46_listing",
    "H800.C46_opcodes_txt"
   ],
   "note": "Listing order, completeness, soundness, and equality with the committed opcodes.txt."
  },
  {
   "property": "C47",
   "status": "proved",
   "theorems": [
    "H800.C47_no_duplicates",
    "H800.C47_one_table"
   ],
   "note": "Full property, every string."
  },
  {
   "property": "C48",
   "status": "proved",
   "theorems": [
    "H800.C48_domain",
    "H800.C48_unambiguous",
    "H800.C48_blanks"
   ],
   "note": "Full property, every integer code; plus the exact blank and undefined codes."
  },
  {
   "property": "C49",
   "status": "proved",
   "theorems": [
    "H800.C49_tiling",
    "H800.C49_default"
   ],
   "note": "Every line and layout; default layout as an instance."
  },
  {
   "property": "C50",
   "status": "proved",
   "theorems": [
    "H800.C50_record"
   ],
   "note": "Every line, layout and list of names."
  },
  {
   "property": "C51",
   "status": "proved",
   "theorems": [
    "H800.C51_beyond_width"
   ],
   "note": "Both card classes."
  },
  {
   "property": "C52",
   "status": "proved",
   "theorems": [
    "H800.C52_comment",
    "H800.C52_other",
    "H800.C52_argus"
   ],
   "note": "Both card classes; the ARGUS class raises AttributeError on a comment line."
  },
  {
   "property": "C53",
   "status": "proved",
   "theorems": [
    "H800.C53_instruction"
   ],
   "note": "Every line."
  },
  {
   "property": "C54",
   "status": "proved",
   "theorems": [
    "H800.C54_no_code"
   ],
   "note": "Every line."
  },
  {
   "property": "C55",
   "status": "partial",
   "theorems": [
    "H800.C55_refuted",
    "H800.C55_from_column_10_partial"
   ],
   "note": "False of the code (column 9 is dropped): refuted. Partial: the remarks are the text from column 10; exact condition for losing nothing."
  },
  {
   "property": "C56",
   "status": "proved",
   "theorems": [
    "H800.C56_lines"
   ],
   "note": "Every list of lines, both card classes."
  },
  {
   "property": "C57",
   "status": "proved",
   "theorems": [
    "H800.C57_expansion",
    "H800.C57_complete",
    "H800.C57_unique",
    "H800.C57_limit",
    "H800.C57_errors"
   ],
   "note": "Soundness, completeness, uniqueness of the expansion, independence of the recursion limit, exact list of failures."
  },
  {
   "property": "C58",
   "status": "partial",
   "theorems": [
    "H800.C58_refuted",
    "H800.C58_never_a_deck_partial"
   ],
   "note": "False of the code: a cycle ends in RecursionError. Refuted; partial: no cyclic file ever makes a deck, exact error."
  },
  {
   "property": "C59",
   "status": "proved",
   "theorems": [
    "H800.C59_provenance"
   ],
   "note": "Every file system and card."
  },
  {
   "property": "C60",
   "status": "proved",
   "theorems": [
    "H800.C60_log_section",
    "H800.C60_total"
   ],
   "note": "Every deck, any card class and layout; total for ARGUS cards."
  },
  {
   "property": "C61",
   "status": "proved",
   "theorems": [
    "H800.C61_str",
    "H800.C61_file"
   ],
   "note": "Full property."
  },
  {
   "property": "C62",
   "status": "proved",
   "theorems": [
    "H800.C62_first_wins"
   ],
   "note": "Any history of add, update, addReference, prune and resolve calls."
  },
  {
   "property": "C63",
   "status": "proved",
   "theorems": [
    "H800.C63_undefines"
   ],
   "note": "Invariant over all histories."
  },
  {
   "property": "C64",
   "status": "partial",
   "theorems": [
    "H800.C64_refuted",
    "H800.C64_prune_partial",
    "H800.C64_reachable_partial"
   ],
   "note": "False of the code (deletes while iterating, so the element after a removed one is skipped): refuted. Partial: exact result of the loop for any table; on tables reachable through the API nothing needs removing, so the claim holds there."
  },
  {
   "property": "C65",
   "status": "proved",
   "theorems": [
    "H800.C65_resolve",
    "H800.C65_any_table"
   ],
   "note": "Termination by construction; result and reports for every reachable table and every integer maxPasses, and for any table whose undefined names are defined."
  },
  {
   "property": "C66",
   "status": "partial",
   "theorems": [
    "H800.C66_refuted",
    "H800.C66_update_partial"
   ],
   "note": "False of the code (`value` is a property without setter, and `self.context` does not exist: AttributeError): refuted. Partial: exact effect (table unchanged, AttributeError for every non-empty name)."
  },
  {
   "property": "C67",
   "status": "proved",
   "theorems": [
    "H800.C67_predicates"
   ],
   "note": "All constructor arguments."
  },
  {
   "property": "C68",
   "status": "proved",
   "theorems": [
    "H800.C68_total",
    "H800.C68_complete"
   ],
   "note": "Any recursion limit that suffices (C68_total) and any initial table; last definition recorded."
  },
  {
   "property": "C69",
   "status": "proved",
   "theorems": [
    "H800.C69_sound"
   ],
   "note": "Any segment name."
  },
  {
   "property": "C70",
   "status": "proved",
   "theorems": [
    "H800.C70_errors"
   ],
   "note": "Count and printed diagnostics."
  },
  {
   "property": "C71",
   "status": "partial",
   "theorems": [
    "H800.C71_refuted",
    "H800.C71_last_wins_partial",
    "H800.C71_reported_partial"
   ],
   "note": "False of the code (the existing kinds are looked up in the wrong dictionary): refuted by two definitions of A. Partial: last definition wins silently; the check fires exactly in the segment-named-like-the-kind case."
  },
  {
   "property": "C72",
   "status": "proved",
   "theorems": [
    "H800.C72_grows",
    "H800.C72_other_segments"
   ],
   "note": "Over any list of files; entries of other segments unchanged."
  },
  {
   "property": "C73",
   "status": "proved",
   "theorems": [
    "H800.C73_check"
   ],
   "note": "Full property."
  },
  {
   "property": "C74",
   "status": "partial",
   "theorems": [
    "H800.C74_refuted",
    "H800.C74_exact_partial",
    "H800.C74_one_segment_partial"
   ],
   "note": "False of the code (loop over segments stops after the first once a symbol was found, and the flag is not reset): refuted. Partial: exact membership; full claim for tables with one segment per symbol."
  },
  {
   "property": "C75",
   "status": "proved",
   "theorems": [
    "H800.C75_exact"
   ],
   "note": "Full property."
  },
  {
   "property": "C76",
   "status": "partial",
   "theorems": [
    "H800.C76_refuted",
    "H800.C76_one_partial",
    "H800.C76_both_partial"
   ],
   "note": "False of the code with both begin and end (listed twice): refuted. Partial: full claim for one of them; exact multiplicity for both."
  },
  {
   "property": "C77",
   "status": "proved",
   "theorems": [
    "H800.C77_fuzzy"
   ],
   "note": "Any matcher."
  },
  {
   "property": "C78",
   "status": "partial",
   "theorems": [
    "H800.C78_exact_partial",
    "H800.C78_divides_partial",
    "H800.C78_errors_partial",
    "H800.C78_refuted"
   ],
   "note": "False of the code (1 4 2 prints 5): refuted. Partial: exact numbers for any non-zero step; the full claim if the step divides end - start; errors."
  },
  {
   "property": "C79",
   "status": "proved",
   "theorems": [
    "H800.C79_card",
    "H800.C79_fits"
   ],
   "note": "Both card classes; also that every number up to end fits."
  },
  {
   "property": "C80",
   "status": "proved",
   "theorems": [
    "H800.C80_counts",
    "H800.C80_total"
   ],
   "note": "Counts, errors and messages for every list of files; completes for every readable list."
  },
  {
   "property": "C81",
   "status": "partial",
   "theorems": [
    "H800.C81_exact_partial",
    "H800.C81_refuted"
   ],
   "note": "False of the code (no instruction at all: division by zero): refuted. Partial: fails exactly then."
  },
  {
   "property": "C82",
   "status": "proved",
   "theorems": [
    "H800.C82_lists",
    "H800.C82_total"
   ],
   "note": "An opcode with comma is covered too: Matches speaks of it as given. Completes for a known opcode, exits otherwise."
  },
  {
   "property": "C83",
   "status": "partial",
   "theorems": [
    "H800.C83_refuted",
    "H800.C83_exact_partial",
    "H800.C83_others_partial",
    "H800.C83_sources_partial"
   ],
   "note": "False of the code (source named *.lst is overwritten): refuted. Partial: exactly those; no other file changes."
  },
  {
   "property": "C84",
   "status": "partial",
   "theorems": [
    "H800.C84_last_partial",
    "H800.C84_single_partial",
    "H800.C84_completes_partial",
    "H800.C84_refuted"
   ],
   "note": "False of the code (errors of all but the last file dropped): refuted. Partial: the number printed; the claim for one file; completion."
  },
  {
   "property": "C85",
   "status": "proved",
   "theorems": [
    "H800.C85_total",
    "H800.C85_matches",
    "H800.C85_completes"
   ],
   "note": "Sum of lines in error and symbols reported; completion."
  },
  {
   "property": "C86",
   "status": "proved",
   "theorems": [
    "H800.C86_pages"
   ],
   "note": "For decimal page numbers. Also that the text before is kept and no other file changes."
  },
  {
   "property": "C87",
   "status": "proved",
   "theorems": [
    "H800.C87_newline"
   ],
   "note": "Both card classes."
  },
  {
   "property": "C88",
   "status": "partial",
   "theorems": [
    "H800.C88_refuted",
    "H800.C88_value_partial"
   ],
   "note": "False of the code (`value` reads the attribute `_value`, which is never set): refuted. Partial: AttributeError always; where the value is stored."
  },
  {
   "property": "C89",
   "status": "proved",
   "theorems": [
    "H800.C89_print"
   ],
   "note": "Never raises on a reachable table; exactly the entries printed, in order."
  },
  {
   "property": "C90",
   "status": "proved",
   "theorems": [
    "H800.C90_frequencies"
   ],
   "note": "Entries exactly, order, both option combinations."
  },
  {
   "property": "C91",
   "status": "proved",
   "theorems": [
    "H800.C91_unused"
   ],
   "note": "Exactly, in order."
  },
  {
   "property": "C92",
   "status": "proved",
   "theorems": [
    "H800.C92_rows",
    "H800.C92_completes"
   ],
   "note": "Rows exactly, in order; errors; completion."
  },
  {
   "property": "C93",
   "status": "proved",
   "theorems": [
    "H800.C93_refused",
    "H800.C93_exact_ignored",
    "H800.C93_definitions",
    "H800.C93_affix"
   ],
   "note": "Options; definitions exactly; begin/end exactly. The fuzzy matcher is a parameter."
  },
  {
   "property": "C94",
   "status": "proved",
   "theorems": [
    "H800.C94_contents",
    "H800.C94_completes"
   ],
   "note": "Contents of every file written; completion."
  },
  {
   "property": "C95",
   "status": "partial",
   "theorems": [
    "H800.C95_refuted",
    "H800.C95_nonblank_partial",
    "H800.C95_filename_partial"
   ],
   "note": "False of the code (blank column 8 becomes None): refuted. Partial: for non-blank column 8; for sections made from the file name comment."
  },
  {
   "property": "C96",
   "status": "proved",
   "theorems": [
    "H800.C96_unchanged"
   ],
   "note": "Every failure."
  },
  {
   "property": "C97",
   "status": "partial",
   "theorems": [
    "H800.C97_refuted",
    "H800.C97_exact_partial"
   ],
   "note": "False of the code (no page comment: UnboundLocalError): refuted. Partial: the cases that exit and the one that does not."
  },
  {
   "property": "C98",
   "status": "proved",
   "theorems": [
    "H800.C98_documented",
    "H800.C98_conversely",
    "H800.C98_proceed",
    "H800.C98_mnemonics"
   ],
   "note": "Both directions, for the table in the comment (instructions.py 16-95); Proceed separately. The print rows PRA/PRD/PRO are identical."
  },
  {
   "property": "C99",
   "status": "partial",
   "theorems": [
    "H800.C99_zero_based_partial",
    "H800.C99_one_based_partial",
    "H800.C99_register_partial",
    "H800.C99_module_partial",
    "H800.C99_refuted"
   ],
   "note": "False in every case: the subscript raises ValueError (KeyError for modules) instead of IndexError. Exact behaviour proved: zero-based fields deliver all bits first, one-based fields and registers nothing, modules all banks."
  },
  {
   "property": "C100",
   "status": "proved",
   "theorems": [
    "H800.C100_sum_of_bits",
    "H800.C100_determined"
   ],
   "note": "Full statement."
  },
  {
   "property": "C101",
   "status": "proved",
   "theorems": [
    "H800.C101_bit_array"
   ],
   "note": "Refinement over histories; LSB-left fields are excluded by the statement (see C06)."
  },
  {
   "property": "C102",
   "status": "proved",
   "theorems": [
    "H800.C102_register",
    "H800.C102_negative",
    "H800.C102_group",
    "H800.C102_file",
    "H800.C102_determined"
   ],
   "note": "Full statement, including that the text determines the values; also what is shown of a register that a store through a slice has made negative (C102_negative)."
  },
  {
   "property": "C103",
   "status": "proved",
   "theorems": [
    "H800.C103_bank",
    "H800.C103_determined"
   ],
   "note": "Full statement."
  },
  {
   "property": "C104",
   "status": "proved",
   "theorems": [
    "H800.C104_layout",
    "H800.C104_rows"
   ],
   "note": "Full statement; C104_layout gives the output as the layout of its rows, C104_rows that the layout loses nothing, C92_rows which rows there are."
  },
  {
   "property": "C105",
   "status": "proved",
   "theorems": [
    "H800.C105_list",
    "H800.C105_check",
    "H800.C105_segments_needed"
   ],
   "note": "Full statement; C105_segments_needed is the witness that different segments are needed for list-symbols."
  },
  {
   "property": "C106",
   "status": "proved",
   "theorems": [
    "H800.C106_twice"
   ],
   "note": "Full statement."
  },
  {
   "property": "C107",
   "status": "proved",
   "theorems": [
    "H800.C107_check",
    "H800.C107_list_append"
   ],
   "note": "Full statement; for list-instructions as compositionality over file lists, from which the effect of any reordering follows."
  },
  {
   "property": "C108",
   "status": "proved",
   "theorems": [
    "H800.C108_lines",
    "H800.C108_print"
   ],
   "note": "Full statement; C108_lines for Deck(lines=...), C108_print for a file."
  },
  {
   "property": "C109",
   "status": "proved",
   "theorems": [
    "H800.C109_file_lines"
   ],
   "note": "Full statement."
  },
  {
   "property": "C110",
   "status": "proved",
   "theorems": [
    "H800.C110_fields",
    "H800.C110_entries",
    "H800.C110_argus"
   ],
   "note": "Full statement; C110_fields for arbitrary field contents, C110_entries for justified entries, C110_argus for the ARGUS layout."
  },
  {
   "property": "C111",
   "status": "proved",
   "theorems": [
    "H800.C111_banks"
   ],
   "note": "Full statement."
  },
  {
   "property": "C112",
   "status": "partial",
   "theorems": [
    "H800.C112_step_ignored_partial",
    "H800.C112_refuted"
   ],
   "note": "False of the code: the step is ignored (C112_refuted, bank[0:4:2] reads four words). C112_step_ignored_partial: whatever the step, all words of the range are read or written."
  },
  {
   "property": "C113",
   "status": "proved",
   "theorems": [
    "H800.C113_symbols"
   ],
   "note": "Full statement, on the class as if the missing import of parser_record succeeded."
  },
  {
   "property": "C114",
   "status": "partial",
   "theorems": [
    "H800.C114_outcome_partial",
    "H800.C114_refuted",
    "H800.C114_no_context_partial",
    "H800.C114_short_partial"
   ],
   "note": "False of the code: each parseable record is overwritten with the context's current record, which resolve never sets (C114_refuted). C114_outcome_partial gives the outcome for every list of records; C114_short_partial: IndexError if the assembler has fewer records than its context; C114_no_context_partial: the class never sets a context, so used by itself resolve always raises AttributeError."
  },
  {
   "property": "C115",
   "status": "proved",
   "theorems": [
    "H800.C115_load_save"
   ],
   "note": "Full statement."
  },
  {
   "property": "C116",
   "status": "partial",
   "theorems": [
    "H800.C116_refuted",
    "H800.C116_never_moves_partial"
   ],
   "note": "False of the code: the constructor and __str__ raise NameError, setLoc and setCoLoc raise AttributeError before moving (C116_refuted). C116_never_moves_partial: setLoc never changes the context; a context that has not loaded a record cannot be saved and leaves a half-written record."
  },
  {
   "property": "C117",
   "status": "proved",
   "theorems": [
    "H800.C117_references",
    "H800.C117_shared"
   ],
   "note": "Full statement."
  },
  {
   "property": "C118",
   "status": "proved",
   "theorems": [
    "H800.C118_defaults"
   ],
   "note": "Full statement (validity of names as identifiers is not modelled)."
  },
  {
   "property": "C119",
   "status": "proved",
   "theorems": [
    "H800.C119_positions"
   ],
   "note": "Full statement."
  },
  {
   "property": "C120",
   "status": "partial",
   "theorems": [
    "H800.C120_refuted",
    "H800.C120_width_partial"
   ],
   "note": "False of the code: the classes have a __len__ but no __bool__, so zero is true (C120_refuted). C120_width_partial: a field is true iff its width is not 0; registers and words always are."
  },
  {
   "property": "C121",
   "status": "partial",
   "theorems": [
    "H800.C121_refuted",
    "H800.C121_plain_partial",
    "H800.C121_exact_partial"
   ],
   "note": "False of the code: list-instructions removes blanks inside the operation before comparing and check-instructions strips its ends (C121_refuted: `B A` is listed but not counted, BA with a tab before its comma is counted but not listed). C121_exact_partial: for all files the two numbers differ by exactly these lines. C121_plain_partial: the claim holds when no operation has white space before its first comma."
  },
  {
   "property": "C122",
   "status": "proved",
   "theorems": [
    "H800.C122_definitions",
    "H800.C122_affix"
   ],
   "note": "Full statement."
  },
  {
   "property": "C123",
   "status": "proved",
   "theorems": [
    "H800.C123_complex"
   ],
   "note": "Full statement."
  },
  {
   "property": "C124",
   "status": "proved",
   "theorems": [
    "H800.C124_stays",
    "H800.C124_stored_instruction"
   ],
   "note": "Full statement."
  },
  {
   "property": "C125",
   "status": "proved",
   "theorems": [
    "H800.C125_any_order",
    "H800.C125_last_counts"
   ],
   "note": "Full statement; an index 0 of set and clear counts as all bits (C10)."
  },
  {
   "property": "C126",
   "status": "partial",
   "theorems": [
    "H800.C126_history_partial",
    "H800.C126_refuted"
   ],
   "note": "False of the code: the clears iterate with the shared cursor, so a second clear zeroes nothing (C126_refuted). C126_history_partial: exact for all histories, with the positions of the groups and of the file as part of the abstract state."
  },
  {
   "property": "C127",
   "status": "proved",
   "theorems": [
    "H800.C127_references",
    "H800.C127_undefined"
   ],
   "note": "Full statement."
  },
  {
   "property": "C128",
   "status": "partial",
   "theorems": [
    "H800.C128_refuted",
    "H800.C128_parallel_partial",
    "H800.C128_lines_partial"
   ],
   "note": "False of the code: the lines of a deck made from a list still have its comments and newlines (C128_refuted). C128_parallel_partial: fields, stripped fields and records always run parallel, and lines do for a deck read from a file. C128_lines_partial: for a list exactly if it has no comments and no newlines."
  },
  {
   "property": "C129",
   "status": "proved",
   "theorems": [
    "H800.C129_layout",
    "H800.C129_default"
   ],
   "note": "Full statement."
  },
  {
   "property": "C130",
   "status": "partial",
   "theorems": [
    "H800.C130_refuted",
    "H800.C130_reset_partial"
   ],
   "note": "False of the code: reset leaves coloc and the messages of the last loaded record (C130_refuted). C130_reset_partial: exact state of a reset context."
  },
  {
   "property": "C131",
   "status": "partial",
   "theorems": [
    "H800.C131_refuted",
    "H800.C131_assemble_partial"
   ],
   "note": "False of the code: the lines are read and dropped (C131_refuted). C131_assemble_partial: exact effect of assemble."
  },
  {
   "property": "C132",
   "status": "proved",
   "theorems": [
    "H800.C132_reports"
   ],
   "note": "Full statement."
  },
  {
   "property": "C133",
   "status": "proved",
   "theorems": [
    "H800.C133_same_code",
    "H800.C133_reports"
   ],
   "note": "Full statement."
  },
  {
   "property": "C134",
   "status": "partial",
   "theorems": [
    "H800.C134_refuted",
    "H800.C134_others_partial",
    "H800.C134_asterisk_partial"
   ],
   "note": "False of the code: code 44 is an asterisk in the manual and None in CHARSET (C134_refuted). C134_others_partial: all other 63 codes agree; C134_asterisk_partial: the code has no asterisk at all."
  },
  {
   "property": "C135",
   "status": "proved",
   "theorems": [
    "H800.C135_documented"
   ],
   "note": "Full statement."
  },
  {
   "property": "C136",
   "status": "proved",
   "theorems": [
    "H800.C136_codes",
    "H800.C136_order"
   ],
   "note": "Full statement; the packing is the one of the manual, as there is no encoder in the code."
  },
  {
   "property": "C137",
   "status": "proved",
   "theorems": [
    "H800.C137_check_ends",
    "H800.C137_check_prefix",
    "H800.C137_zero",
    "H800.C137_list_ends",
    "H800.C137_list_prefix",
    "H800.C137_parse"
   ],
   "note": "Full statement."
  },
  {
   "property": "C138",
   "status": "proved",
   "theorems": [
    "H800.C138_errors",
    "H800.C138_ends",
    "H800.C138_same"
   ],
   "note": "Full statement; file lists without exceptions."
  },
  {
   "property": "C139",
   "status": "partial",
   "theorems": [
    "H800.C139_refuted",
    "H800.C139_close_partial",
    "H800.C139_nearest_partial",
    "H800.C139_least_partial",
    "H800.C139_order_partial",
    "H800.C139_text_partial",
    "H800.C139_report_partial"
   ],
   "note": "False of the code for huge totals, where the float quotient is on the other side of a half of a hundredth than the fraction (C139_refuted). C139_least_partial: the least such total is 764877654117. C139_nearest_partial, C139_text_partial and C139_report_partial: all totals below it; C139_close_partial and C139_order_partial: any total (limits of the float exponent not modelled)."
  },
  {
   "property": "C140",
   "status": "partial",
   "theorems": [
    "H800.C140_refuted",
    "H800.C140_log_card_partial",
    "H800.C140_filename_partial",
    "H800.C140_exact_partial",
    "H800.C140_settles_partial"
   ],
   "note": "False of the code (C140_refuted: a section name that begins with a space). Holds for files with a log card, for file names that do not begin or end with an underscore and are short enough for the card, and in any case from the second run on. C140_exact_partial: for files without log card it holds exactly for such names."
  },
  {
   "property": "C141",
   "status": "proved",
   "theorems": [
    "H800.C141_check",
    "H800.C141_list"
   ],
   "note": "Full statement; one level of include less is available to the named files (recursion limit as fuel)."
  },
  {
   "property": "C142",
   "status": "partial",
   "theorems": [
    "H800.C142_refuted",
    "H800.C142_exact_partial",
    "H800.C142_plain_partial"
   ],
   "note": "False of the code for slices (C142_refuted). C142_exact_partial: what every history does; C142_plain_partial: the statement for histories without slices of more than one bit and less than the field."
  },
  {
   "property": "C143",
   "status": "partial",
   "theorems": [
    "H800.C143_refuted",
    "H800.C143_exact_partial",
    "H800.C143_whole_partial"
   ],
   "note": "False of the code (C143_refuted). C143_exact_partial: what the methods compute on proper ranges; C143_whole_partial: the whole field."
  },
  {
   "property": "C144",
   "status": "proved",
   "theorems": [
    "H800.C144_source"
   ],
   "note": "Full statement."
  },
  {
   "property": "C145",
   "status": "proved",
   "theorems": [
    "H800.C145_failure"
   ],
   "note": "Full statement."
  },
  {
   "property": "C146",
   "status": "proved",
   "theorems": [
    "H800.C146_once",
    "H800.C146_faults"
   ],
   "note": "Full statement."
  },
  {
   "property": "C147",
   "status": "proved",
   "theorems": [
    "H800.C147_ends",
    "H800.C147_check_failure",
    "H800.C147_list_failure",
    "H800.C147_find_failure",
    "H800.C147_check_success",
    "H800.C147_list_success",
    "H800.C147_find_success"
   ],
   "note": "Full statement."
  },
  {
   "property": "C148",
   "status": "proved",
   "theorems": [
    "H800.C148_details"
   ],
   "note": "Full statement."
  },
  {
   "property": "C149",
   "status": "proved",
   "theorems": [
    "H800.C149_definitions"
   ],
   "note": "Full statement."
  },
  {
   "property": "C150",
   "status": "proved",
   "theorems": [
    "H800.C150_unique",
    "H800.C150_reading"
   ],
   "note": "Full statement. A run that exceeds Python's recursion limit is left out of the failing case."
  },
  {
   "property": "C151",
   "status": "proved",
   "theorems": [
    "H800.C151_check",
    "H800.C151_list",
    "H800.C151_listing",
    "H800.C151_check_symbols",
    "H800.C151_find_symbols",
    "H800.C151_list_symbols",
    "H800.C151_parse"
   ],
   "note": "Full statement."
  },
  {
   "property": "C152",
   "status": "proved",
   "theorems": [
    "H800.C152_check",
    "H800.C152_list",
    "H800.C152_listing",
    "H800.C152_symbols",
    "H800.C152_parse"
   ],
   "note": "Full statement."
  },
  {
   "property": "C153",
   "status": "proved",
   "theorems": [
    "H800.C153_good",
    "H800.C153_parse",
    "H800.C153_unique",
    "H800.C153_help"
   ],
   "note": "Full statement. optparse is modelled for options without values only, as the tools have no others."
  },
  {
   "property": "C154",
   "status": "proved",
   "theorems": [
    "H800.C154_anywhere",
    "H800.C154_cluster",
    "H800.C154_reach",
    "H800.C154_dash"
   ],
   "note": "Full statement."
  },
  {
   "property": "C155",
   "status": "proved",
   "theorems": [
    "H800.C155_same",
    "H800.C155_tools"
   ],
   "note": "Full statement."
  },
  {
   "property": "C156",
   "status": "partial",
   "theorems": [
    "H800.C156_refuted",
    "H800.C156_abbreviated_partial",
    "H800.C156_refused_partial"
   ],
   "note": "False for --e of find-symbols (ambiguous)."
  },
  {
   "property": "C157",
   "status": "proved",
   "theorems": [
    "H800.C157_verbose"
   ],
   "note": "Full statement."
  },
  {
   "property": "C158",
   "status": "partial",
   "theorems": [
    "H800.C158_refuted",
    "H800.C158_args_partial",
    "H800.C158_numbers_partial"
   ],
   "note": "False: negative numbers are taken for options."
  },
  {
   "property": "C159",
   "status": "partial",
   "theorems": [
    "H800.C159_refuted",
    "H800.C159_partial",
    "H800.C159_exact_partial"
   ],
   "note": "False: three options are ignored."
  },
  {
   "property": "C160",
   "status": "proved",
   "theorems": [
    "H800.C160_parse",
    "H800.C160_check"
   ],
   "note": "Full statement."
  },
  {
   "property": "C161",
   "status": "proved",
   "theorems": [
    "H800.C161_check",
    "H800.C161_parse"
   ],
   "note": "Full statement; an example shows that names with blanks have to be excluded."
  },
  {
   "property": "C162",
   "status": "proved",
   "theorems": [
    "H800.C162_check",
    "H800.C162_unique"
   ],
   "note": "Full statement."
  },
  {
   "property": "C163",
   "status": "proved",
   "theorems": [
    "H800.C163_list",
    "H800.C163_listing"
   ],
   "note": "Full statement."
  },
  {
   "property": "C164",
   "status": "proved",
   "theorems": [
    "H800.C164_check",
    "H800.C164_list",
    "H800.C164_find"
   ],
   "note": "Full statement. Which symbols a fuzzy matcher picks is not modelled."
  },
  {
   "property": "C165",
   "status": "proved",
   "theorems": [
    "H800.C165_parse"
   ],
   "note": "Full statement of what is printed; that the number at the end forgets the errors of all files but the last is C84."
  },
  {
   "property": "C166",
   "status": "proved",
   "theorems": [
    "H800.C166_check",
    "H800.C166_list",
    "H800.C166_listing",
    "H800.C166_check_symbols",
    "H800.C166_list_symbols",
    "H800.C166_find_symbols",
    "H800.C166_parse",
    "H800.C166_unique"
   ],
   "note": "Full statement. The status of genlines and genpages is in C168 and C169."
  },
  {
   "property": "C167",
   "status": "partial",
   "theorems": [
    "H800.C167_refuted",
    "H800.C167_sources_partial"
   ],
   "note": "False of the code: C167_refuted has a file with an unknown instruction and a file with a line in error, for both the status is 0, so that make or a script cannot tell. C167_sources_partial: the status of the checking tools depends on the source files only in so far as they can be read."
  },
  {
   "property": "C168",
   "status": "proved",
   "theorems": [
    "H800.C168_int",
    "H800.C168_int_unique",
    "H800.C168_lines",
    "H800.C168_unique",
    "H800.C168_steps_unique",
    "H800.C168_status"
   ],
   "note": "Full statement. Lines too long for memory are not modelled."
  },
  {
   "property": "C169",
   "status": "proved",
   "theorems": [
    "H800.C169_pages",
    "H800.C169_unique",
    "H800.C169_status"
   ],
   "note": "Full statement."
  },
  {
   "property": "C170",
   "status": "proved",
   "theorems": [
    "H800.C170_check",
    "H800.C170_list",
    "H800.C170_check_symbols",
    "H800.C170_list_symbols",
    "H800.C170_find_symbols",
    "H800.C170_parse",
    "H800.C170_listing",
    "H800.C170_unique"
   ],
   "note": "Full statement; for the symbol tools and parse with plain file names (PlainFiles), as in C164 and C165."
  },
  {
   "property": "C171",
   "status": "proved",
   "theorems": [
    "H800.C171_literal",
    "H800.C171_found"
   ],
   "note": "Full statement. Cards are shown only as addresses (PunchCard has no __repr__), so nothing about them but their presence can be read back."
  },
  {
   "property": "C172",
   "status": "proved",
   "theorems": [
    "H800.C172_check",
    "H800.C172_list",
    "H800.C172_find",
    "H800.C172_parse"
   ],
   "note": "Full statement for runs that end normally; what Python writes for an uncaught exception is not modelled."
  },
  {
   "property": "C173",
   "status": "proved",
   "theorems": [
    "H800.C173_find",
    "H800.C173_check",
    "H800.C173_list"
   ],
   "note": "Full statement for runs that end normally."
  },
  {
   "property": "C174",
   "status": "partial",
   "theorems": [
    "H800.C174_refuted",
    "H800.C174_check_partial"
   ],
   "note": "False of the code: line 56 prints the possible matches without file=sys.stderr. C174_refuted gives a run; C174_check_partial proves that the suggestions are all that is written on the standard output. Missing: that they too are on the standard error stream."
  },
  {
   "property": "C175",
   "status": "proved",
   "theorems": [
    "H800.C175_replace",
    "H800.C175_space",
    "H800.C175_lines",
    "H800.C175_order",
    "H800.C175_sorted",
    "H800.C175_numeral",
    "H800.C175_split",
    "H800.C175_strip",
    "H800.C175_word"
   ],
   "note": "Full statement about the model of the built-in functions; that Python's own are like this is part of the trusted base."
  },
  {
   "property": "C176",
   "status": "proved",
   "theorems": [
    "H800.C176_accepted",
    "H800.C176_refused"
   ],
   "note": "Full statement for int and None arguments."
  },
  {
   "property": "C177",
   "status": "partial",
   "theorems": [
    "H800.C177_refuted",
    "H800.C177_same_partial"
   ],
   "note": "False of the code: only BinaryAdd has a default for the sequence bit (instructions.py 447-451), so BinaryAdd() makes an instruction and DecimalAdd() raises TypeError. C177_refuted gives this pair; C177_same_partial proves the claim for all classes but BinaryAdd, and for BinaryAdd for all calls that give a sequence bit."
  },
  {
   "property": "C178",
   "status": "proved",
   "theorems": [
    "H800.C178_text",
    "H800.C178_tells",
    "H800.C178_once",
    "H800.C178_same"
   ],
   "note": "Full statement. The print looks like a debugging aid left in the library (the others in the file are comments)."
  },
  {
   "property": "C179",
   "status": "proved",
   "theorems": [
    "H800.C179_read",
    "H800.C179_missing",
    "H800.C179_exit"
   ],
   "note": "Full statement."
  },
  {
   "property": "C180",
   "status": "proved",
   "theorems": [
    "H800.C180_check",
    "H800.C180_listing",
    "H800.C180_check_symbols",
    "H800.C180_list_symbols",
    "H800.C180_parse",
    "H800.C180_list",
    "H800.C180_find_symbols",
    "H800.C180_genlines",
    "H800.C180_genpages",
    "H800.C180_kinds",
    "H800.C180_ends_check",
    "H800.C180_ends_list",
    "H800.C180_ends_listing",
    "H800.C180_ends_check_symbols",
    "H800.C180_ends_list_symbols",
    "H800.C180_ends_find_symbols",
    "H800.C180_ends_parse",
    "H800.C180_ends_genlines",
    "H800.C180_ends_genpages"
   ],
   "note": "Full statement; for the symbol tools and parse the names of the files up to the first dot must be plain (as in C146). Nothing is claimed of the help text."
  },
  {
   "property": "C181",
   "status": "partial",
   "theorems": [
    "H800.C181_refuted",
    "H800.C181_prog_partial"
   ],
   "note": "False of the code: check-instructions.py 59, check-symbols.py 32, find-symbols.py 60, genpages.py 23, list-instructions.py 32, list-symbols.py 27, listing.py 27 and parse.py 34 pass 'usage: %prog ...' to parser.error, which does not expand %prog (only the usage given to the constructor is expanded), so the message says '%prog' literally, after the usage with the name. list-instructions.py 32 also leaves out the opcode there. C181_refuted gives check-instructions without arguments; C181_prog_partial proves that a percent sign is in no other message, and that these messages are the three texts."
  },
  {
   "property": "C182",
   "status": "partial",
   "theorems": [
    "H800.C182_true_partial",
    "H800.C182_refuted",
    "H800.C182_raise",
    "H800.C182_ok",
    "H800.C182_new",
    "H800.C182_new_ok"
   ],
   "note": "False of the code: the text for bounds in the wrong order says 'MSB...LSB' for a field with its least significant bit on the left too. C182_refuted gives such a field; C182_true_partial proves that everything else in the texts is true. The text 'Illegal bit-field width' does not occur (it does for negative widths only, see C201)."
  },
  {
   "property": "C183",
   "status": "proved",
   "theorems": [
    "H800.C183_true",
    "H800.C183_raise",
    "H800.C183_constant"
   ],
   "note": "Full statement. The message of a constant says 'Opcode' although the data are at fault."
  },
  {
   "property": "C184",
   "status": "proved",
   "theorems": [
    "H800.C184_word",
    "H800.C184_word_set",
    "H800.C184_field_set",
    "H800.C184_iword",
    "H800.C184_memory",
    "H800.C184_checks",
    "H800.C184_memory_range"
   ],
   "note": "Full statement. That 4096 passes the check of 12 bits is stated as it is."
  },
  {
   "property": "C185",
   "status": "partial",
   "theorems": [
    "H800.C185_new",
    "H800.C185_new_raise",
    "H800.C185_set",
    "H800.C185_lookup",
    "H800.C185_refuted",
    "H800.C185_group_partial",
    "H800.C185_group_set",
    "H800.C185_file",
    "H800.C185_file_set",
    "H800.C185_new_group"
   ],
   "note": "False of the code: a group calls RAC an invalid register name although registerNumber and the constructor of Register accept it (an alias), since it looks up REGISTERS only. C185_refuted gives this; C185_group_partial proves the rest. Of a negative width the message says that the value is invalid."
  },
  {
   "property": "C186",
   "status": "proved",
   "theorems": [
    "H800.C186_add",
    "H800.C186_prune",
    "H800.C186_resolve",
    "H800.C186_reachable"
   ],
   "note": "Full statement."
  },
  {
   "property": "C187",
   "status": "partial",
   "theorems": [
    "H800.C187_refuted",
    "H800.C187_lines_partial"
   ],
   "note": "False of the code: SymbolTableEntry has neither __str__ nor __repr__, so that each line is the address of an object and shows nothing of the symbol. C187_refuted gives two tables with different names and the same text; C187_lines_partial proves the number and order of the lines."
  },
  {
   "property": "C188",
   "status": "proved",
   "theorems": [
    "H800.C188_built",
    "H800.C188_crash",
    "H800.C188_plain"
   ],
   "note": "Full statement."
  },
  {
   "property": "C189",
   "status": "partial",
   "theorems": [
    "H800.C189_completes_partial",
    "H800.C189_stops_partial",
    "H800.C189_check_partial",
    "H800.C189_list_partial",
    "H800.C189_plain_partial",
    "H800.C189_refuted"
   ],
   "note": "False of the code: a file simple.arg that defines a symbol again with EQUALS makes all four tools end with a KeyError, because buildSymbolTable looks for the previous definition two levels too high in the table (C189_refuted). C189_completes_partial and C189_stops_partial prove exactly when they end normally; C189_check_partial and C189_list_partial what check-symbols and list-symbols print then, for files of any name."
  },
  {
   "property": "C190",
   "status": "partial",
   "theorems": [
    "H800.C190_codes_partial",
    "H800.C190_mnemonics_partial",
    "H800.C190_complete_partial",
    "H800.C190_simulator_partial",
    "H800.C190_refuted"
   ],
   "note": "False of the code: the Simulator class cannot give the address of the routine, so only 0007 and 4007 (octal) of the 512 simulator codes can be made (C190_simulator_partial), and the irrelevant positions of PR and of the prints are always zero. C190_codes_partial gives exactly the codes that can be made with each class; C190_complete_partial: all of Table II for all other mnemonics; C190_mnemonics_partial: Table II and the classes have the same mnemonics."
  },
  {
   "property": "C191",
   "status": "partial",
   "theorems": [
    "H800.C191_unbroken_partial",
    "H800.C191_gap_partial",
    "H800.C191_designated_partial",
    "H800.C191_refuted"
   ],
   "note": "False of the code: columns 20-32 are all taken as operation, so a designated counter in column 32 (`LN` with C in column 32, as in the manual) or a space within the operation code makes the instruction unknown (C191_designated_partial, C191_gap_partial). C191_unbroken_partial: an operation code without gaps is read right if no counter is designated or a comma comes before it."
  },
  {
   "property": "C192",
   "status": "partial",
   "theorems": [
    "H800.C192_reported_partial",
    "H800.C192_masked_partial",
    "H800.C192_refuted"
   ],
   "note": "False of the code: of the operation codes of the documents exactly the fourteen with an appended A or D (WAA, TXD, ...) are reported as unknown (C192_reported_partial); C192_masked_partial: the mask after the comma does not matter."
  },
  {
   "property": "C193",
   "status": "partial",
   "theorems": [
    "H800.C193_accepted_partial",
    "H800.C193_unsupported_partial",
    "H800.C193_lax_partial",
    "H800.C193_refuted"
   ],
   "note": "False of the code, both ways: link tags L, and out-of-sequence tags X, are refused as unsupported (C193_unsupported_partial); neither the length nor the characters of a tag are checked, nor whether a register exists, so that A+B, 123, ABCDEFGHI and Z,X9 are accepted (C193_refuted, C193_lax_partial gives exactly what is accepted). C193_accepted_partial: all other tags of the manual are accepted with the right tag and type."
  },
  {
   "property": "C194",
   "status": "partial",
   "theorems": [
    "H800.C194_assign_partial",
    "H800.C194_tas_partial",
    "H800.C194_refuted"
   ],
   "note": "False of the code: only ASSIGN makes a definition complex (C194_assign_partial); a tag assigned by TAS is recorded as a simple definition, and as a complex one only if an ASSIGN assigns it too or it was in the table before (C194_tas_partial)."
  },
  {
   "property": "C195",
   "status": "partial",
   "theorems": [
    "H800.C195_plain_partial",
    "H800.C195_other_partial",
    "H800.C195_refuted"
   ],
   "note": "False of the code: after SETLOC,dC definitions are under dC instead of d, and after a SETLOC without subsegment under 0, where the manual keeps the subsegment in force (C195_other_partial). C195_plain_partial: it is true if every SETLOC is of the form SETLOC,d."
  },
  {
   "property": "C196",
   "status": "proved",
   "theorems": [
    "H800.C196_reports"
   ],
   "note": "Full statement."
  },
  {
   "property": "C197",
   "status": "proved",
   "theorems": [
    "H800.C197_string",
    "H800.C197_found",
    "H800.C197_error"
   ],
   "note": "Full statement."
  },
  {
   "property": "C198",
   "status": "proved",
   "theorems": [
    "H800.C198_reports",
    "H800.C198_inlined"
   ],
   "note": "Full statement."
  },
  {
   "property": "C199",
   "status": "proved",
   "theorems": [
    "H800.C199_bit_value",
    "H800.C199_widths"
   ],
   "note": "Full statement."
  },
  {
   "property": "C200",
   "status": "proved",
   "theorems": [
    "H800.C200_lines",
    "H800.C200_total",
    "H800.C200_same",
    "H800.C200_genpages",
    "H800.C200_listing"
   ],
   "note": "Full statement."
  },
  {
   "property": "C201",
   "status": "partial",
   "theorems": [
    "H800.C201_refuted",
    "H800.C201_agrees",
    "H800.C201_error",
    "H800.C201_made_partial",
    "H800.C201_refused",
    "H800.C201_value",
    "H800.C201_int",
    "H800.C201_missing",
    "H800.C201_shape",
    "H800.C201_zero"
   ],
   "note": "False of the code: the constructor has no lower bound for the width. C201_refuted gives a field of width 0; a negative width is accepted with any negative value. C201_made_partial says exactly which arguments are accepted; C201_refused, C201_value and C201_shape prove that a field of negative width refuses every call about bits or a new value, with a text giving its width ('Illegal bit-field width' occurs only here), keeps its value until it is set or cleared as a whole, and has no length and no text; C201_zero that a field of width 0 refuses every call about bits."
  },
  {
   "property": "C202",
   "status": "proved",
   "theorems": [
    "H800.C202_reports"
   ],
   "note": "Full statement."
  },
  {
   "property": "C203",
   "status": "proved",
   "theorems": [
    "H800.C203_read",
    "H800.C203_write",
    "H800.C203_unique",
    "H800.C203_address"
   ],
   "note": "Full statement. The groups are given by the indices of their outer bits in the numbering of the field (Spec/Groups.lean)."
  },
  {
   "property": "C204",
   "status": "proved",
   "theorems": [
    "H800.C204_parts",
    "H800.C204_proceed"
   ],
   "note": "Full statement; Proceed, which takes no operands, separately (C204_proceed)."
  },
  {
   "property": "C205",
   "status": "partial",
   "theorems": [
    "H800.C205_refuted",
    "H800.C205_designates_partial"
   ],
   "note": "False of the code: NA without mask and FNN have the same operation code (C205_refuted), as in the manual's own table. C205_designates_partial is exact: the bits are the same iff both are of the same form and the same instruction, or two prints, or NA and FNN."
  },
  {
   "property": "C206",
   "status": "partial",
   "theorems": [
    "H800.C206_segments_partial",
    "H800.C206_occurs_partial",
    "H800.C206_refuted"
   ],
   "note": "False of the code: the segment is the name of the file given, up to its first dot, so two files make two segments (C206_refuted). C206_segments_partial: there is one segment if one file is given, whatever it includes, or if all names begin in the same way; C206_occurs_partial: every file given that defines a tag has its segment in the table."
  },
  {
   "property": "C207",
   "status": "proved",
   "theorems": [
    "H800.C207_flat",
    "H800.C207_special"
   ],
   "note": "Full statement. The way from the address to the word is the client's, as Figures IV-1 and IV-2 of the manual describe it."
  },
  {
   "property": "C208",
   "status": "proved",
   "theorems": [
    "H800.C208_divided",
    "H800.C208_renamed"
   ],
   "note": "Full statement. That the names must begin in the same way for the symbol tools is shown by the example."
  },
  {
   "property": "C209",
   "status": "proved",
   "theorems": [
    "H800.C209_words",
    "H800.C209_bits",
    "H800.C209_once",
    "H800.C209_nested"
   ],
   "note": "Full statement. A word is named by its address; that an operation on a word needs a word handed out before is part of the model (LiveOp.run)."
  },
  {
   "property": "C210",
   "status": "proved",
   "theorems": [
    "H800.C210_text",
    "H800.C210_shown",
    "H800.C210_explains",
    "H800.C210_taken",
    "H800.C210_printed",
    "H800.C210_fit",
    "H800.C210_words"
   ],
   "note": "Full statement, for pages of 80 columns (COLUMNS not set), on which no text is broken (C210_fit)."
  },
  {
   "property": "C211",
   "status": "partial",
   "theorems": [
    "H800.C211_finds_partial",
    "H800.C211_refuted"
   ],
   "note": "False of the code: by default only the word itself is found. C211_refuted: in a file that defines TAB, a search for A does not find it. C211_finds_partial: with one of the three options the symbols found are those told; without, the word itself if it is defined and nothing else."
  },
  {
   "property": "C212",
   "status": "proved",
   "theorems": [
    "H800.C212_list",
    "H800.C212_check",
    "H800.C212_find"
   ],
   "note": "Full statement, for plain file names; the suggestions of check-symbols and the fuzzy search depend on fuzzywuzzy and are left out."
  },
  {
   "property": "C213",
   "status": "partial",
   "theorems": [
    "H800.C213_refuted",
    "H800.C213_agrees",
    "H800.C213_index_partial",
    "H800.C213_which_partial",
    "H800.C213_slice_partial",
    "H800.C213_value_partial",
    "H800.C213_bit_partial",
    "H800.C213_whole_partial",
    "H800.C213_made_partial",
    "H800.C213_kinds_partial",
    "H800.C213_unusable_partial"
   ],
   "note": "False: the value setter cuts the fraction of a float off and stores the rest, the setter of a bit takes a float that is not 1.0 for 0, set and clear take an index such as 0.0 or an empty string for none, and the constructor stores a float, after which no bit can be used. Proved: the exact behaviour for every value; a bit or bound that is not an int, and a value for a range of bits, is always refused. Which exception a float as a bit raises is C213_which_partial."
  },
  {
   "property": "C214",
   "status": "partial",
   "theorems": [
    "H800.C214_refuted",
    "H800.C214_agrees",
    "H800.C214_refused_partial",
    "H800.C214_word_partial",
    "H800.C214_bank_partial"
   ],
   "note": "False: the value of a word, and so a word of memory, takes a float between 0 and 2**48 - 1 without its fraction. Proved: exactly these are taken; the constructors, the fields of instruction words and registers refuse everything that is not an int."
  },
  {
   "property": "C215",
   "status": "partial",
   "theorems": [
    "H800.C215_directory_refuted",
    "H800.C215_latin_refuted",
    "H800.C215_refuted",
    "H800.C215_texts_refuted",
    "H800.C215_read_partial"
   ],
   "note": "False: a directory is said not to exist, and a file that may not be opened or is not UTF-8 ends the tool with an exception. Proved: the first file met that is no readable text decides, and how, for every disk."
  },
  {
   "property": "C216",
   "status": "proved",
   "theorems": [
    "H800.C216_bytes",
    "H800.C216_deck",
    "H800.C216_check",
    "H800.C216_list",
    "H800.C216_symbols",
    "H800.C216_parse",
    "H800.C216_texts",
    "H800.C216_stored",
    "H800.C216_listing",
    "H800.C216_blocked",
    "H800.C216_genpages"
   ],
   "note": "The bytes are decoded by a model of the strict UTF-8 decoder, proved exact against the encoding of Lean's core library. For listing the names of the listings have to be writable; what happens otherwise is proved as well."
  },
  {
   "property": "C217",
   "status": "partial",
   "theorems": [
    "H800.C217_refuted",
    "H800.C217_include_refuted",
    "H800.C217_read_partial"
   ],
   "note": "False: the mark is part of the first line. Proved: exactly what is read: the first line is a card with the mark in column 1 and all else one column to the right (no comment, include, remark or log card); the other lines are not affected."
  },
  {
   "property": "C218",
   "status": "partial",
   "theorems": [
    "H800.C218_refuted",
    "H800.C218_agrees",
    "H800.C218_equal_partial",
    "H800.C218_memory_partial",
    "H800.C218_group_partial",
    "H800.C218_groups_partial",
    "H800.C218_names_partial",
    "H800.C218_number_partial"
   ],
   "note": "False: a float that is equal to an int is taken for it by banks, modules, groups that are read and the names of registers (not by the set of groups). Proved: this, and for every other key that it is refused, with which exception, and that nothing changes."
  },
  {
   "property": "C219",
   "status": "proved",
   "theorems": [
    "H800.C219_reports"
   ],
   "note": "Proved of the reports of all six tools, with and without --verbose. Spaces inside operations do matter to the code, against the manual: see C191."
  },
  {
   "property": "C220",
   "status": "partial",
   "theorems": [
    "H800.C220_refuted",
    "H800.C220_agrees",
    "H800.C220_exact_partial",
    "H800.C220_one_partial",
    "H800.C220_classes_partial",
    "H800.C220_constant_partial"
   ],
   "note": "False: the address bits take 0.0 and 1.0, the sequence bit takes 0.0 (but not 1.0). Proved: this is all: with these floats the instruction is that with the equal ints, and every other operand that is not an int is refused with a ValueError or a TypeError; constants are made of ints only."
  },
  {
   "property": "C221",
   "status": "partial",
   "theorems": [
    "H800.C221_zero_based_partial",
    "H800.C221_one_based_partial",
    "H800.C221_register_partial",
    "H800.C221_bank_partial",
    "H800.C221_group_partial",
    "H800.C221_file_partial",
    "H800.C221_module_partial",
    "H800.C221_refuted"
   ],
   "note": "False: no number is ever in a bank (its iteration gives word objects), a search moves the cursor so that the next one misses what lies before it, and a search that fails ends in ValueError (fields, registers) or KeyError (modules). Proved: the exact answer and the exact cursor afterwards for every class, with every value."
  },
  {
   "property": "C222",
   "status": "partial",
   "theorems": [
    "H800.C222_zero_based_partial",
    "H800.C222_one_based_partial",
    "H800.C222_register_partial",
    "H800.C222_bank_partial",
    "H800.C222_module_partial",
    "H800.C222_group_partial",
    "H800.C222_file_partial",
    "H800.C222_refuted"
   ],
   "note": "False: of fields numbered from 1 and of registers the bit numbered by the width is left out and ValueError ends the loop; a group to which a name was ever assigned, and a file with an assignment outside 0-7, fail at once. Proved: exactly what is delivered in each case; right for fields numbered from 0, banks, modules, and all other groups and files."
  },
  {
   "property": "C223",
   "status": "proved",
   "theorems": [
    "H800.C223_finished",
    "H800.C223_listing",
    "H800.C223_sources",
    "H800.C223_genpages"
   ],
   "note": "The process can be cut off after any byte; the operating system keeps what was written in order. Also: without a stop the single changes make up the run of C200 and C216."
  },
  {
   "property": "C224",
   "status": "partial",
   "theorems": [
    "H800.C224_refuted",
    "H800.C224_separate_partial"
   ],
   "note": "False: a deck named *.lst is its own listing and is lost when the run is stopped after opening it. Proved for arguments none of whose listings is among the files read."
  },
  {
   "property": "C225",
   "status": "partial",
   "theorems": [
    "H800.C225_refuted",
    "H800.C225_log_card_partial",
    "H800.C225_pages_partial",
    "H800.C225_cut_partial",
    "H800.C225_ascii_partial",
    "H800.C225_reports_partial"
   ],
   "note": "False: a run stopped within the log card that it appends leaves a shortened name, which the next run takes for the log section. Proved: for a file that had a log card from the beginning the next run appends the same text; in any case it succeeds for the same pages, unless a character was cut in two, when it fails and changes nothing, which does not happen with ASCII files; the reports of all other tools stay as they were at any moment."
  },
  {
   "property": "C226",
   "status": "partial",
   "theorems": [
    "H800.C226_refuted",
    "H800.C226_apart_partial",
    "H800.C226_sources_partial",
    "H800.C226_ends_partial"
   ],
   "note": "False: two decks that differ in the suffix of their names have the same listing, which is that of whichever run is later. Proved for runs whose listings are different from each other and from all files read, for every schedule, with nothing assumed on what is read from a file that is being changed; no other files change at any moment; the runs come to an end whatever their arguments."
  },
  {
   "property": "C227",
   "status": "proved",
   "theorems": [
    "H800.C227_reports",
    "H800.C227_genpages",
    "H800.C227_listing"
   ],
   "note": "The condition on the listings is needed: a listing that is read later decides which files are reached."
  },
  {
   "property": "C228",
   "status": "partial",
   "theorems": [
    "H800.C228_refuted",
    "H800.C228_agrees",
    "H800.C228_bounds_partial",
    "H800.C228_subscript_partial",
    "H800.C228_objects",
    "H800.C228_field_partial"
   ],
   "note": "False of the code (C228_refuted): `bank[f]` is a KeyError and `b[f]` a TypeError. Proved: in a slice of a memory bank or module a field is its value, mixed with any other bound (C228_bounds_partial); by itself it is a KeyError, TypeError or ValueError, and nothing is changed (C228_subscript_partial); a bit-field takes no field for an index or a bound (C228_field_partial); other subscripts do what they do in the other properties (C228_agrees)."
  },
  {
   "property": "C229",
   "status": "partial",
   "theorems": [
    "H800.C229_codes_partial",
    "H800.C229_refuted",
    "H800.C229_raises_partial",
    "H800.C229_operands_partial"
   ],
   "note": "False of the code (C229_refuted): no operand and no type is checked. Proved: the codes of all instructions of the table (C229_codes_partial); which calls raise, and what all others return (C229_raises_partial); for which operands the number is a code of the mnemonic all the same, and that its low six bits always are (C229_operands_partial)."
  },
  {
   "property": "C230",
   "status": "partial",
   "theorems": [
    "H800.C230_still",
    "H800.C230_check_partial",
    "H800.C230_parse_partial",
    "H800.C230_lost_partial",
    "H800.C230_refuted",
    "H800.C230_refuted_parse"
   ],
   "note": "False of the code: a file that is given twice and changes in between (C230_refuted), and parse reads every file twice (C230_refuted_parse). Proved: if nothing changes the model is that of the other properties (C230_still); the lines dealt with are those of each file at the moment it is opened, the moments in order, and there is one state of each file if no file opened twice has changed in between (C230_check_partial); for parse this holds of each of its two readings and of both together, and the symbols are those of the first (C230_parse_partial); FileNotFoundError and SystemExit mean that a file vanished between two accesses, or was missing at one (C230_lost_partial). Opening a file and reading its lines is one access."
  },
  {
   "property": "C231",
   "status": "partial",
   "theorems": [
    "H800.C231_made_partial",
    "H800.C231_record_partial",
    "H800.C231_columns_partial",
    "H800.C231_refuted",
    "H800.C231_refuted_column",
    "H800.C231_argus_partial",
    "H800.C231_deck_partial"
   ],
   "note": "False of the code: of two fields of one name only the last is found (C231_refuted), and columns before the first are counted from the end of the line (C231_refuted_column). Proved: exactly when a card is made (C231_made_partial); the fields and the record for any columns and names, the last field of a name being the one found (C231_record_partial); the claim if the columns count from 1 and the names differ (C231_columns_partial); for ARGUS cards the names that are needed, the exceptions otherwise, and what P, R and L cards and others hold (C231_argus_partial); which columns a deck of lines can be laid out in (C231_deck_partial)."
  },
  {
   "property": "C232",
   "status": "partial",
   "theorems": [
    "H800.C232_still",
    "H800.C232_list_partial",
    "H800.C232_table_partial",
    "H800.C232_symbols_partial",
    "H800.C232_lost_partial",
    "H800.C232_refuted",
    "H800.C232_refuted_symbols"
   ],
   "note": "False of the code: a file that is given twice and changes in between (C232_refuted for list-instructions, C232_refuted_symbols for list-symbols). Proved: if nothing changes the model is that of the other properties (C232_still); the lines listed are those of each file at the moment it is opened, the moments in order, and there is one state of each file if no file opened twice has changed in between (C232_list_partial); the same of the symbol table and its errors (C232_table_partial) and of what the three symbol tools print (C232_symbols_partial); what FileNotFoundError and SystemExit mean (C232_lost_partial). Opening a file and reading its lines is one access."
  },
  {
   "property": "C233",
   "status": "partial",
   "theorems": [
    "H800.C233_made",
    "H800.C233_text_partial",
    "H800.C233_shared_partial",
    "H800.C233_effect_partial",
    "H800.C233_parts_partial",
    "H800.C233_others_partial",
    "H800.C233_lines_partial",
    "H800.C233_refuted",
    "H800.C233_refuted_record"
   ],
   "note": "False of the code, which hands out the objects it holds: the list given is deck.lines (C233_refuted), a record of deck.records is that of the card (C233_refuted_record). Proved: the deck as made shows what the model of the other properties holds (C233_made); str(deck) changes only if deck.cards is changed (C233_text_partial); while the lists of the deck are left alone, its fields, stripped fields and records stay those of its cards whatever is done to either (C233_shared_partial), a change at one place changes that part of that card and no other card (C233_effect_partial, C233_parts_partial), and a card that nothing is done to stays as it was (C233_others_partial); deck.lines is the list given, if made from one, and else independent of it (C233_lines_partial). Positions are counted from the start."
  },
  {
   "property": "C234",
   "status": "partial",
   "theorems": [
    "H800.C234_source_partial",
    "H800.C234_list_partial",
    "H800.C234_again_partial",
    "H800.C234_print_partial",
    "H800.C234_file_partial",
    "H800.C234_complete_partial",
    "H800.C234_refuted"
   ],
   "note": "False of the code for a column 0, which counts from the end of the line, so that the newline of a file matters (C234_refuted). Proved for every layout: where the cards of a file deck and of a list deck come from and what the deck's text splits into (C234_source_partial, C234_list_partial), that a file without include lines and the list of its lines make the same deck but for the file name or fail alike (C234_file_partial), and that a deck is made if every line makes a card (C234_complete_partial). Proved for columns from 1 on and widths that are not negative: reading again from the lines and from a printed file (C234_again_partial, C234_print_partial)."
  },
  {
   "property": "C235",
   "status": "partial",
   "theorems": [
    "H800.C235_half",
    "H800.C235_resolve_partial",
    "H800.C235_exact",
    "H800.C235_report",
    "H800.C235_any",
    "H800.C235_sharp",
    "H800.C235_refuted"
   ],
   "note": "False of the code: the loop deletes from the list it goes through and skips the next name, so of 1024 names with values one is left (C235_refuted); the same for 2^k names and k passes (C235_sharp, C235_exact). Proved: every pass takes out at least half of the names with values and no other (C235_half); k passes take out all if there are less than 2^k (C235_resolve_partial); what is reported is true, and something is reported if there are less than 2^(k-1) (C235_report). In any table, also with names that have no entry, only names with values are taken out, and the only exception is KeyError, with a name without an entry left (C235_any). Names with values get into undefines only if a caller changes the lists handed out (C63)."
  },
  {
   "property": "C236",
   "status": "partial",
   "theorems": [
    "H800.C236_entries",
    "H800.C236_agrees",
    "H800.C236_ends",
    "H800.C236_shared",
    "H800.C236_apart",
    "H800.C236_kept_partial",
    "H800.C236_missing",
    "H800.C236_refuted",
    "H800.C236_refuted_twice"
   ],
   "note": "False of the code, which hands out the dict and the lists it works with: a name taken out of symbols is still among the undefined ones (C236_refuted), and twice after it is added again (C236_refuted_twice). Proved: without such changes the table is the one of the other properties (C236_agrees), and the calls end as there in any state (C236_ends); an entry keeps all but its references whatever is done (C236_entries); an entry under two names is the same under both until one is replaced (C236_shared), and other names do not see its references (C236_apart); if a caller only changes references and puts entries under new names, undefined names have entries without a value, each once, and the methods work (C236_kept_partial); with an undefined name that has no entry, printing raises KeyError, and so does pruning if no undefined name has a value (C236_missing)."
  },
  {
   "property": "C237",
   "status": "partial",
   "theorems": [
    "H800.C237_ends_partial",
    "H800.C237_renamed",
    "H800.C237_spelled",
    "H800.C237_strings",
    "H800.C237_refuted",
    "H800.C237_refuted_resolve"
   ],
   "note": "False of the code, which puts names into messages with % (name): a name that is a tuple of other than one element is a TypeError when it is added again (C237_refuted) and when resolve says that it tries it (C237_refuted_resolve). C237_ends_partial: exactly which calls fail, and that they change nothing. C237_renamed: the table is always that of the same calls with strings for the names (calls with names that cannot be hashed left out, the empty string for names that are false); C237_spelled: there are such strings; C237_strings: for strings it is the table of the other properties, and nothing fails. printTable, which sorts the names, is left out."
  },
  {
   "property": "C238",
   "status": "partial",
   "theorems": [
    "H800.C238_refuted",
    "H800.C238_kept_partial",
    "H800.C238_ends",
    "H800.C238_order",
    "H800.C238_undisturbed_partial",
    "H800.C238_one_writer_partial",
    "H800.C238_blind_partial",
    "H800.C238_locked_partial",
    "H800.C238_bits_partial",
    "H800.C238_any_lost"
   ],
   "note": "False of the code, which reads _value and assigns it without a lock: of two threads that each set a bit one can undo the other (C238_refuted). C238_kept_partial: for every schedule the field is that of some of the operations in the order of ending, the last one always among them, and what a call returns is what it returns after some of the operations that ended before it; C238_any_lost: any such selection can happen. C238_undisturbed_partial, C238_one_writer_partial, C238_blind_partial, C238_locked_partial: the full property for schedules in which no value read is gone at the end of its operation, for one writing thread, for operations that do not use the old value, and for whole calls at a time. C238_bits_partial: values that fit stay so and untouched bits stay as they were. C238_ends, C238_order: how operations end does not depend on the schedule, and which calls end. Reading and assigning the attribute are taken to be single steps."
  },
  {
   "property": "C239",
   "status": "partial",
   "theorems": [
    "H800.C239_refuted",
    "H800.C239_refuted_whole",
    "H800.C239_apart_partial",
    "H800.C239_whole_partial",
    "H800.C239_kept_partial"
   ],
   "note": "False of the code, which takes no lock: two runs that append to the same file in two pieces each mix their texts (C239_refuted); and even in one piece each, for a file without log card, as the second run would have found the log card of the first (C239_refuted_whole). C239_apart_partial: the property for runs on different files, in any pieces, for every order. C239_whole_partial: the property for texts appended in one piece on files that have a log card or on which genpages fails, several runs on the same file allowed, for every order. C239_kept_partial: at any moment of any runs each file begins with what was in it and nothing else has changed. Reading a file is one step (files are only appended to)."
  },
  {
   "property": "C240",
   "status": "partial",
   "theorems": [
    "H800.C240_twice",
    "H800.C240_error",
    "H800.C240_back",
    "H800.C240_refuted",
    "H800.C240_alone",
    "H800.C240_words_partial",
    "H800.C240_ends_partial",
    "H800.C240_in_turn_partial",
    "H800.C240_one_thread_partial"
   ],
   "note": "False of the code, which reads the cursor three times and takes no lock (C240_refuted): in every bank with two words left two threads can be given the same word and the one before it goes to none (C240_twice), in every bank with one word left both calls can raise KeyError (C240_error), and a word can be given out after StopIteration (C240_back). C240_alone: a call that no step of another thread comes into is that of the model for one thread. C240_words_partial: any schedule changes no word, gives out words from the cursor on only and raises nothing but KeyError and StopIteration. C240_ends_partial: any schedule ends: the calls that do not raise StopIteration are bounded by a number that depends on the threads and the words left only. C240_in_turn_partial, C240_one_thread_partial: the property for threads that take turns and for one thread. Register groups iterate in the same way and are not modelled here."
  },
  {
   "property": "C241",
   "status": "partial",
   "theorems": [
    "H800.C241_in_turn_partial",
    "H800.C241_single_partial",
    "H800.C241_mixed",
    "H800.C241_refuted",
    "H800.C241_apart_partial",
    "H800.C241_words_partial"
   ],
   "note": "False of the code, which takes no lock: two fills of the same words can each win one of them, and a read during a fill sees some words from before (C241_mixed, C241_refuted). C241_single_partial: the property for calls that touch one word each, at any moment of any schedule. C241_in_turn_partial: for threads of which none makes a step while another one is within a call. C241_apart_partial: if no thread assigns a word that another one touches, each thread is at any moment where it would be alone. C241_words_partial: in any schedule each word is as at first or holds a value that a call assigns to it."
  },
  {
   "property": "C242",
   "status": "partial",
   "theorems": [
    "H800.C242_stops",
    "H800.C242_check_partial",
    "H800.C242_parse_partial",
    "H800.C242_list_partial",
    "H800.C242_refuted"
   ],
   "note": "False of the code: a message quotes the card, print raises UnicodeEncodeError for a character that the output encoding lacks, and nothing catches it (C242_refuted). C242_stops: the lines before are printed, the later ones are not. C242_check_partial, C242_parse_partial, C242_list_partial: the property if the encoding also has the characters of the names given and of the files that are read, directly or by include; so the tools never print a character that is neither ASCII nor from there."
  },
  {
   "property": "C243",
   "status": "partial",
   "theorems": [
    "H800.C243_whole_partial",
    "H800.C243_others",
    "H800.C243_cut",
    "H800.C243_refuted",
    "H800.C243_lost"
   ],
   "note": "False of the code: the listing is opened before its lines are known to be writable, and print raises UnicodeEncodeError at a character that its encoding lacks (C243_refuted); if the file given is itself named .lst, the rest of it is lost (C243_lost). C243_whole_partial: the property if the encodings also have the characters of the names given and of all files. C243_cut: with any encodings a run on one file leaves its listing as it was or with a beginning of its lines, and with all of them if there is no error. C243_others: no other file is changed."
  },
  {
   "property": "C244",
   "status": "partial",
   "theorems": [
    "H800.C244_list_partial",
    "H800.C244_find_partial",
    "H800.C244_check_partial",
    "H800.C244_refuted"
   ],
   "note": "False of the code: symbols and cards are printed as they are, and print raises UnicodeEncodeError for a character that the output encoding lacks (C244_refuted). C244_list_partial, C244_find_partial, C244_check_partial: the property if the encoding also has the characters of the names given and of the files that are read; the symbol that find-symbols looks for does not matter. The messages on the standard error stream never fail, as it escapes such characters."
  },
  {
   "property": "C245",
   "status": "partial",
   "theorems": [
    "H800.C245_new",
    "H800.C245_others_partial",
    "H800.C245_ends_partial",
    "H800.C245_in_turn_partial",
    "H800.C245_alone",
    "H800.C245_missed",
    "H800.C245_error",
    "H800.C245_refuted"
   ],
   "note": "False of the code: clear iterates over the group itself, so the threads share its cursor, and += and the look-up after it are several steps: a register can be left out although both calls return (C245_missed, C245_refuted), or both calls raise KeyError (C245_error). C245_others_partial: for any order of steps a register is as it was or cleared, and only KeyError is raised. C245_ends_partial: every call ends. C245_in_turn_partial: the property if no thread makes a step while another is within next, as with a lock for next only. C245_alone: a call that no other comes into is RegisterGroup.clear of Model/Registers."
  },
  {
   "property": "C246",
   "status": "proved",
   "theorems": [
    "H800.C246_genpages",
    "H800.C246_characters",
    "H800.C246_genlines"
   ],
   "note": "In full. The file is read and written in the same encoding, so its characters can be encoded; that the encoding has all of ASCII is a condition. Reading a file in an encoding in which it cannot be decoded is in C215."
  },
  {
   "property": "C247",
   "status": "proved",
   "theorems": [
    "H800.C247_genlines",
    "H800.C247_genlines_same",
    "H800.C247_genpages",
    "H800.C247_genpages_same"
   ],
   "note": "In full. Before Python 3.11 there is no limit, then it is 4300 unless set otherwise (to 640 or more, or 0 for none), so that the bound of 8 on the limit always holds; the other claims on these scripts (such as C78, C79, C86, C95 to C97, C158, C168 and C169) are about no limit, and by this one also hold with a limit if the numbers are shorter."
  },
  {
   "property": "C248",
   "status": "partial",
   "theorems": [
    "H800.C248_others_partial",
    "H800.C248_alone",
    "H800.C248_in_turn_partial",
    "H800.C248_missed",
    "H800.C248_refuted"
   ],
   "note": "False of the code: clear iterates over the file itself, so the threads share its cursor, and += and the look-up after it are several steps: a whole group can be left out although both calls return (C248_missed, C248_refuted). C248_others_partial: for any order of steps a register is as it was, or it is one of the file and cleared, the file keeps its groups and these their registers, and only KeyError and AttributeError are raised. C248_in_turn_partial: the property if no thread makes a step while another is within next of the file or of a group, as with a lock for next only. C248_alone: a call that no other comes into is Registers.clear of Model/Registers. Not proved: that every call ends, as C245_ends_partial has it for one group."
  }
 ]
}