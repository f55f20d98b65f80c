{
 "claims": [
  {
   "property": "C01",
   "status": "proved",
   "theorems": [
    "Dredd.C01_entry_unambiguous",
    "Dredd.C01_flat_ids_perm",
    "Dredd.C01_ids_are_range"
   ],
   "note": "all runs, all trees"
  },
  {
   "property": "C02",
   "status": "proved",
   "theorems": [
    "Dredd.C02_block",
    "Dredd.C02_blocks_in_order"
   ],
   "note": "block of ids per file; local ids at every instrumented point map back to the reported ids"
  },
  {
   "property": "C03",
   "status": "proved",
   "theorems": [
    "Dredd.C03_same_info",
    "Dredd.C03_same_points"
   ],
   "note": "any two option settings that agree on optimisation"
  },
  {
   "property": "C04",
   "status": "proved",
   "theorems": [
    "Dredd.C04_firstOcc_spec",
    "Dredd.C04_only_first_occurrence",
    "Dredd.C04_written_once"
   ],
   "note": "run = run over first occurrences"
  },
  {
   "property": "C05",
   "status": "proved",
   "theorems": [
    "Dredd.C05_left_alone",
    "Dredd.C05_others_undisturbed"
   ],
   "note": "failing or mutation-free files can be deleted from the run"
  },
  {
   "property": "C06",
   "status": "proved",
   "theorems": [
    "Dredd.C06_entries_are_written_files",
    "Dredd.C06_entries_nonempty",
    "Dredd.C06_processing_order",
    "Dredd.C06_without_info"
   ],
   "note": ""
  },
  {
   "property": "C07",
   "status": "proved",
   "theorems": [
    "Dredd.C07_ancestors_kept",
    "Dredd.C07_empty",
    "Dredd.C07_idempotent",
    "Dredd.C07_no_empty_subtree",
    "Dredd.C07_no_useless_node",
    "Dredd.C07_order_kept"
   ],
   "note": "all finite trees"
  },
  {
   "property": "C08",
   "status": "proved",
   "theorems": [
    "Dredd.C08_decodes",
    "Dredd.C08_well_formed"
   ],
   "note": ""
  },
  {
   "property": "C09",
   "status": "partial",
   "theorems": [
    "Dredd.C09_enabled_partial",
    "Dredd.C09_first_file",
    "Dredd.C09_full_false",
    "Dredd.C09_overflow"
   ],
   "note": "every list of ints whose difference with the first id fits in int; for all other lists the behaviour is undefined (C09_overflow), so the full statement is false (C09_full_false); see C49 for lists of mutant ids"
  },
  {
   "property": "C10",
   "status": "partial",
   "theorems": [
    "Dredd.C10_enabled_partial",
    "Dredd.C10_overflow"
   ],
   "note": "as C09, for strtok/atoi"
  },
  {
   "property": "C11",
   "status": "partial",
   "theorems": [
    "Dredd.C11_c_any_text_partial",
    "Dredd.C11_c_later_files_partial",
    "Dredd.C11_cpp_any_text_partial",
    "Dredd.C11_full_false_c",
    "Dredd.C11_full_false_cpp",
    "Dredd.C11_throws_partial"
   ],
   "note": "full statement false for both languages (witnesses); complete description of what arbitrary texts enable"
  },
  {
   "property": "C12",
   "status": "partial",
   "theorems": [
    "Dredd.C12_after_exception_false",
    "Dredd.C12_c_interleaved_false",
    "Dredd.C12_threads_partial"
   ],
   "note": "all interleavings with atomic queries and values that are lists of integers; false for C when initialisations interleave (strtok) and for C++ after an exception (witnesses)"
  },
  {
   "property": "C13",
   "status": "partial",
   "theorems": [
    "Dredd.C13_assign_false",
    "Dredd.C13_binary_exact",
    "Dredd.C13_binary_partial",
    "Dredd.C13_expr",
    "Dredd.C13_logical_cpp",
    "Dredd.C13_shift_false",
    "Dredd.C13_unary"
   ],
   "note": "logical operators (C++ here, C in C16), unary operators and expressions in full; other binary operators when the language leaves the order of the operands open or they do not interfere; false for C++17 shifts and assignments (witnesses)"
  },
  {
   "property": "C14",
   "status": "partial",
   "theorems": [
    "Dredd.C14_binary_cpp",
    "Dredd.C14_binary_exact",
    "Dredd.C14_binary_partial",
    "Dredd.C14_expr_c",
    "Dredd.C14_expr_cpp",
    "Dredd.C14_expr_partial",
    "Dredd.C14_lhs_c_false",
    "Dredd.C14_only",
    "Dredd.C14_others",
    "Dredd.C14_unary"
   ],
   "note": "exact behaviour of every reported action for binary (C++ logical included), unary and expression sites; coincides with the changed expression when dropped operands have no effects and the order is open; false in C for dropped operands with side effects (witness); C logical operators in C16"
  },
  {
   "property": "C15",
   "status": "partial",
   "theorems": [
    "Dredd.C15_binary",
    "Dredd.C15_c_logical_false",
    "Dredd.C15_c_logical_partial",
    "Dredd.C15_expr",
    "Dredd.C15_unary"
   ],
   "note": "all sites and enabled sets except C logical operators with the second and third but not the first mutant enabled, where it is false (witness)"
  },
  {
   "property": "C16",
   "status": "proved",
   "theorems": [
    "Dredd.C16_lhs",
    "Dredd.C16_lhs_rhs",
    "Dredd.C16_none",
    "Dredd.C16_reported",
    "Dredd.C16_rhs",
    "Dredd.C16_swap"
   ],
   "note": ""
  },
  {
   "property": "C17",
   "status": "proved",
   "theorems": [
    "Dredd.C17_disabled",
    "Dredd.C17_enabled",
    "Dredd.C17_tracking"
   ],
   "note": "a statement entered at its beginning; jumps to case labels inside are not modelled"
  },
  {
   "property": "C18",
   "status": "proved",
   "theorems": [
    "Dredd.C18_original"
   ],
   "note": "whole programs with loops and recursion: no new behaviours, and no lost ones, under the condition on interfering operands that the property states; without it false in C++17 (C13_shift_false, C13_assign_false)"
  },
  {
   "property": "C19",
   "status": "partial",
   "theorems": [
    "Dredd.C19_tracking_partial"
   ],
   "note": "places whose group is empty at the very end of a file excluded (their recording is out of bounds, see C20); operands of C logical operators must be typed"
  },
  {
   "property": "C20",
   "status": "partial",
   "theorems": [
    "Dredd.C20_c_unwritable_false",
    "Dredd.C20_calls",
    "Dredd.C20_during_partial",
    "Dredd.C20_empty_group_exists",
    "Dredd.C20_empty_group_false",
    "Dredd.C20_recorded_partial",
    "Dredd.C20_unset"
   ],
   "note": "all schedules, groups with at least one mutant; false with empty groups (witness), which the tool can generate"
  },
  {
   "property": "C21",
   "status": "partial",
   "theorems": [
    "Dredd.C21_empty_group_false",
    "Dredd.C21_in_range_partial"
   ],
   "note": "as C20"
  },
  {
   "property": "C22",
   "status": "proved",
   "theorems": [
    "Dredd.C22_bin_bin",
    "Dredd.C22_binary",
    "Dredd.C22_call",
    "Dredd.C22_either",
    "Dredd.C22_expr",
    "Dredd.C22_once",
    "Dredd.C22_same",
    "Dredd.C22_unary"
   ],
   "note": "Names decode uniquely to everything a definition depends on; hypotheses on clang facts are in Spec/Coherent.lean."
  },
  {
   "property": "C23",
   "status": "proved",
   "theorems": [
    "Dredd.C23_defined",
    "Dredd.C23_determined",
    "Dredd.C23_order_free",
    "Dredd.C23_output",
    "Dredd.C23_prelude",
    "Dredd.C23_used"
   ],
   "note": ""
  },
  {
   "property": "C24",
   "status": "partial",
   "theorems": [
    "Dredd.C24_binary",
    "Dredd.C24_c_logical",
    "Dredd.C24_expr",
    "Dredd.C24_false",
    "Dredd.C24_operators",
    "Dredd.C24_partial",
    "Dredd.C24_unary_partial"
   ],
   "note": "Every function generated for a mutation of a well-typed program is well typed (parameters, alternatives, result), in C and C++, whatever the options, except for ++ on bool before C++17, where the offered -- is ill typed (C24_false)."
  },
  {
   "property": "C25",
   "status": "proved",
   "theorems": [
    "Dredd.C25_binary_new",
    "Dredd.C25_distinct",
    "Dredd.C25_expr_changes",
    "Dredd.C25_unary_new"
   ],
   "note": ""
  },
  {
   "property": "C26",
   "status": "proved",
   "theorems": [
    "Dredd.C26_c_logical",
    "Dredd.C26_sublist"
   ],
   "note": ""
  },
  {
   "property": "C27",
   "status": "proved",
   "theorems": [
    "Dredd.C27_bool_operands_false",
    "Dredd.C27_c_operand_kept",
    "Dredd.C27_logical",
    "Dredd.C27_operand",
    "Dredd.C27_operand_dropped",
    "Dredd.C27_operand_replacement_false",
    "Dredd.C27_relational"
   ],
   "note": "Relational: any comparison function into a linear order; operands of == and != not bool-typed (clang promotes them; C27_bool_operands_false shows the hypothesis is needed). Logical: C++, operands not small constants. Operand replacements of relational operators are not part of the claim (C27_operand_replacement_false)."
  },
  {
   "property": "C28",
   "status": "partial",
   "theorems": [
    "Dredd.C28_comparison_without_mutants",
    "Dredd.C28_dropped_partial",
    "Dredd.C28_unsigned_false"
   ],
   "note": "Holds wherever the original is also defined, except for replacing the operator of 0u op 1u by subtraction (C28_unsigned_false: the visitor drops it, nothing kept yields the value). Integers (floating-point numbers: C82). C51 is the part without exceptions."
  },
  {
   "property": "C29",
   "status": "partial",
   "theorems": [
    "Dredd.C29_c_lnot_false",
    "Dredd.C29_incdec",
    "Dredd.C29_insertion",
    "Dredd.C29_minus_one_false",
    "Dredd.C29_operator_partial",
    "Dredd.C29_unsigned_minus_false",
    "Dredd.C29_unsigned_not_false"
   ],
   "note": "Inserted operators and constants: full (C29_insertion). Replaced or removed operators: wherever the original is also defined, with four exceptions, each of which is shown to be a real gap (C29_unsigned_minus_false, C29_c_lnot_false, C29_minus_one_false, C29_unsigned_not_false). Integers (floating-point numbers: C82)."
  },
  {
   "property": "C30",
   "status": "partial",
   "theorems": [
    "Dredd.C30_false",
    "Dredd.C30_partial"
   ],
   "note": "C30_partial: for every layout of instrumented pieces in which no instrumented piece starts exactly where another ends, the output is the recursive wrapping (any nesting, any number of mutations per node, shared starts or shared ends, constants, prelude). C30_false: for touching statements the code violates the property. Missing: nothing that holds."
  },
  {
   "property": "C31",
   "status": "partial",
   "theorems": [
    "Dredd.C31_false",
    "Dredd.C31_operators",
    "Dredd.C31_partial",
    "Dredd.C31_source"
   ],
   "note": "C31_partial: exact characterisation of removed characters (operator symbols and rewritten constants), everything else kept in order. C31_source: the same from the parsed source. C31_operators: literal property for files without rewritten constants. C31_false: rewritten constants are gone too, so the literal property does not hold of the code."
  },
  {
   "property": "C32",
   "status": "proved",
   "theorems": [
    "Dredd.C32_constants",
    "Dredd.C32_mutations",
    "Dredd.C32_range"
   ],
   "note": "Characterisation of GetSourceRangeInMainFile on all locations (files, nested macro expansions, pasted tokens) against an inductive specification."
  },
  {
   "property": "C33",
   "status": "proved",
   "theorems": [
    "Dredd.C33_bounded",
    "Dredd.C33_long",
    "Dredd.C33_short"
   ],
   "note": "Bound holds for all inputs; exact contents for ranges below 2^32."
  },
  {
   "property": "C34",
   "status": "partial",
   "theorems": [
    "Dredd.C34_accepts",
    "Dredd.C34_earlier_line_false",
    "Dredd.C34_offsets",
    "Dredd.C34_rejects_partial"
   ],
   "note": "Acceptance of non-empty ranges and consistency with offsets in a file are proved; rejection only when the end is not on an earlier line (C34_rejects_partial), the full claim is false (C34_earlier_line_false)."
  },
  {
   "property": "C35",
   "status": "proved",
   "theorems": [
    "Dredd.C35_found",
    "Dredd.C35_known",
    "Dredd.C35_largest",
    "Dredd.C35_unknown"
   ],
   "note": "For every run: largest id, every id found with its file, group and instance, no other id found; the JSON file and the script's key lookups are modelled."
  },
  {
   "property": "C36",
   "status": "partial",
   "theorems": [
    "Dredd.C36_multiline_token_false",
    "Dredd.C36_snippet",
    "Dredd.C36_text_partial"
   ],
   "note": "Proved for ranges whose last token has no line break; false otherwise (C36_multiline_token_false)."
  },
  {
   "property": "C37",
   "status": "proved",
   "theorems": [
    "Dredd.C37_applies_binary",
    "Dredd.C37_applies_expr",
    "Dredd.C37_applies_unary",
    "Dredd.C37_binary",
    "Dredd.C37_c_logical",
    "Dredd.C37_expr",
    "Dredd.C37_parentheses",
    "Dredd.C37_stmt",
    "Dredd.C37_unary",
    "Dredd.C37_unparenthesised"
   ],
   "note": "Every action has a rendering; the operator shown is that of the action, and the generated code for the id applies it."
  },
  {
   "property": "C38",
   "status": "partial",
   "theorems": [
    "Dredd.C38_normal_paths",
    "Dredd.C38_partial",
    "Dredd.C38_paths",
    "Dredd.C38_root_partial",
    "Dredd.C38_slashes",
    "Dredd.C38_unnormalised_false"
   ],
   "note": "Proved for prefixes as pathlib writes them: C38_paths for all; C38_normal_paths and C38_slashes say which paths it leaves unchanged; false for prefixes in other forms (C38_unnormalised_false)."
  },
  {
   "property": "C39",
   "status": "partial",
   "theorems": [
    "Dredd.C39_false_negative",
    "Dredd.C39_false_wide",
    "Dredd.C39_once",
    "Dredd.C39_only",
    "Dredd.C39_partial"
   ],
   "note": "Every rewrite of a constant replaces the text of a constant of the program by a C literal of the same value, for values from 0 to 2^64-1; static assertions become 1; each argument is rewritten once. False for negative and for wider constants (C39_false_*)."
  },
  {
   "property": "C40",
   "status": "partial",
   "theorems": [
    "Dredd.C40_false_alignof",
    "Dredd.C40_false_lambda",
    "Dredd.C40_false_removal",
    "Dredd.C40_false_sizeof",
    "Dredd.C40_false_vla",
    "Dredd.C40_partial",
    "Dredd.C40_plain_partial"
   ],
   "note": "Proved for everything the visitor mutates: the place is inside a function and not below a child the visitor knows to be compile-time (C40_partial), and well placed when the remaining compile-time constructs do not occur (C40_plain_partial). False in full: removal of statements in lambdas outside functions, sizeof of a VLA, __alignof, constexpr lambdas, C VLA sizes (C40_false_*)."
  },
  {
   "property": "C41",
   "status": "partial",
   "theorems": [
    "Dredd.C41_false",
    "Dredd.C41_partial",
    "Dredd.C41_replacements"
   ],
   "note": "Proved for well-typed programs without __extension__, __real and __imag (C41_partial); every replacement operator is supported without conditions (C41_replacements). False for those three GNU operators (C41_false)."
  },
  {
   "property": "C42",
   "status": "proved",
   "theorems": [
    "Dredd.C42_at_most_once",
    "Dredd.C42_binary",
    "Dredd.C42_by_value",
    "Dredd.C42_expr",
    "Dredd.C42_logical_cpp",
    "Dredd.C42_unary"
   ],
   "note": "at most one evaluation for C and C++; exact description of short-circuiting in C++"
  },
  {
   "property": "C43",
   "status": "proved",
   "theorems": [
    "Dredd.C43",
    "Dredd.C43_comment_directive",
    "Dredd.C43_macro",
    "Dredd.C43_nested",
    "Dredd.C43_source"
   ],
   "note": "All sequences of white space, comments and directives between a statement and its semicolon; the raw tokens of clang's lexer are modelled (Model/StmtEnd.lean). Macros are outside the property (C43_macro); a directive preceded by a comment on its line is moved behind the brace (C43_comment_directive). C43_source: for the statements that the visitor finds in parsed source."
  },
  {
   "property": "C44",
   "status": "proved",
   "theorems": [
    "Dredd.C44_all_or_nothing",
    "Dredd.C44_ids_consistent"
   ],
   "note": "interruption between translation units"
  },
  {
   "property": "C45",
   "status": "proved",
   "theorems": [
    "Dredd.C45_c_logical",
    "Dredd.C45_counter",
    "Dredd.C45_function",
    "Dredd.C45_stmt"
   ],
   "note": ""
  },
  {
   "property": "C46",
   "status": "partial",
   "theorems": [
    "Dredd.C46_false",
    "Dredd.C46_false_macro",
    "Dredd.C46_left_over",
    "Dredd.C46_macro",
    "Dredd.C46_partial",
    "Dredd.C46_source"
   ],
   "note": "C46_partial for spellings as long as the usual one (incl. all usual spellings and 'or'); C46_source: the same from the parsed source, without hypotheses on the mutations; C46_left_over and C46_false: longer alternative spellings leave a rest, the code violates the property. C46_macro and C46_false_macro: an operator that comes from a macro is left in place, so the symbol is not removed."
  },
  {
   "property": "C47",
   "status": "proved",
   "theorems": [
    "Dredd.C47_exit_status",
    "Dredd.C47_reported",
    "Dredd.C47_reported_once"
   ],
   "note": "exit status as a function of which processed files had errors; JSON output failures are not modelled"
  },
  {
   "property": "C48",
   "status": "proved",
   "theorems": [
    "Dredd.C48_inside",
    "Dredd.C48_left",
    "Dredd.C48_linear",
    "Dredd.C48_order",
    "Dredd.C48_removal"
   ],
   "note": "Order in which the visitor records mutations: children before parents, left before right, statement removal last; ids follow it."
  },
  {
   "property": "C49",
   "status": "proved",
   "theorems": [
    "Dredd.C49_ids"
   ],
   "note": "both languages"
  },
  {
   "property": "C50",
   "status": "proved",
   "theorems": [
    "Dredd.C50_mutant"
   ],
   "note": "evaluation order as in the instrumented call; operands of C logical operators must be typed"
  },
  {
   "property": "C51",
   "status": "proved",
   "theorems": [
    "Dredd.C51_signed",
    "Dredd.C51_unsigned"
   ],
   "note": ""
  },
  {
   "property": "C52",
   "status": "proved",
   "theorems": [
    "Dredd.C52_insertion",
    "Dredd.C52_lvalue"
   ],
   "note": ""
  },
  {
   "property": "C53",
   "status": "proved",
   "theorems": [
    "Dredd.C53_calls",
    "Dredd.C53_enabled",
    "Dredd.C53_names",
    "Dredd.C53_recorded",
    "Dredd.C53_steps",
    "Dredd.C53_text"
   ],
   "note": "The prelude text is the printed form of a MiniC program (C53_text, C53_names); calls answer (C53_enabled) and record (C53_recorded) as claimed and refine the state machines of C09-C12, C20, C21 (C53_calls, C53_steps). Reading the printed text back as the syntax tree (C/C++ parsing) and the semantics of the fragment are trusted."
  },
  {
   "property": "C54",
   "status": "proved",
   "theorems": [
    "Dredd.C54"
   ],
   "note": "C54: hypotheses only about how the syntax tree lies over the text (Spec/Source.lean) and that the constants recorded are those marked in the text; the tree of pieces that C30_partial needs is constructed from the visitor's run (source_layout)."
  },
  {
   "property": "C55",
   "status": "proved",
   "theorems": [
    "Dredd.C55_binary",
    "Dredd.C55_expression",
    "Dredd.C55_removal",
    "Dredd.C55_unary"
   ],
   "note": "Completeness of the visitor: C55_expression, C55_unary, C55_binary, C55_removal. WellFormed states what clang guarantees about the children of compound statements and labels; the conditions are those of Spec/Eligible.lean, which does not refer to the visitor; they include the ranges recorded for the operands and the conversion in an initializer list."
  },
  {
   "property": "C56",
   "status": "proved",
   "theorems": [
    "Dredd.C56"
   ],
   "note": "Converse of C55: every mutation belongs to an eligible place (exact conditions of Spec/Eligible.lean)."
  },
  {
   "property": "C57",
   "status": "proved",
   "theorems": [
    "Dredd.C57",
    "Dredd.C57_layout",
    "Dredd.C57_needs_free"
   ],
   "note": "The rewrite buffer of clang (text plus table of deltas) is modelled as Model/RewriteBuffer.lean; C57: for parsed files laid out over their text, the buffer after all calls is the text given by handleTU. C57_layout: the same for files given as trees of pieces. C57_needs_free: the condition on constants is needed (the size of a token range counts text inserted at its begin)."
  },
  {
   "property": "C58",
   "status": "partial",
   "theorems": [
    "Dredd.C58_false",
    "Dredd.C58_partial",
    "Dredd.C58_source_false",
    "Dredd.C58_source_partial",
    "Dredd.C58_text_false",
    "Dredd.C58_text_partial",
    "Dredd.C58_tokens"
   ],
   "note": "C58_partial, C58_tokens for every file in which what is mutated is made of tokens (Spec/Lex.lean); C58_source_partial from the parsed source, for every syntax tree that lies over the tokens of its text (Spec/LexSource.lean), without hypotheses on the mutations; C58_text_partial the same with the text before expressions and behind statements read as the code does (C58_text_false: the remaining hypothesis is needed). Missing: a word just before something that is mutated, other than an expression for which a space is inserted (WordsKnown). False without: else++x; becomes else__dredd_replace_unary_operator_PreInc_int(...) (C58_false; C58_source_false with all other hypotheses)."
  },
  {
   "property": "C59",
   "status": "proved",
   "theorems": [
    "Dredd.C59",
    "Dredd.C59_binary",
    "Dredd.C59_coherent",
    "Dredd.C59_expr",
    "Dredd.C59_function",
    "Dredd.C59_unary",
    "Dredd.C59_visited"
   ],
   "note": "The hypothesis Readable follows from well-typedness of the program (C59_visited) or from coherence (C59_coherent)."
  },
  {
   "property": "C60",
   "status": "proved",
   "theorems": [
    "Dredd.C60",
    "Dredd.C60_point",
    "Dredd.C60_visited"
   ],
   "note": "Supported follows for typed programs without the GNU operators (C60_visited). The JSON value is modelled, its text is not; the JSON mapping of protobuf is part of the specification (Spec/Proto.lean)."
  },
  {
   "property": "C61",
   "status": "partial",
   "theorems": [
    "Dredd.C61_partial",
    "Dredd.C61_types_unique",
    "Dredd.C61_visited_partial"
   ],
   "note": "Proved for programs in which no bool is incremented in C++ (C61_partial, C61_visited_partial); for ++ on bool before C++17 the function does not compile (C24_false)."
  },
  {
   "property": "C62",
   "status": "proved",
   "theorems": [
    "Dredd.C62",
    "Dredd.C62_file"
   ],
   "note": "any grammar with the rules listed in Grammar.Has (cGrammar_has: met by a concrete grammar); C62_file combines it with C23/C30/C59 for whole files. Words directly before instrumented operators, touching statements and initialiser-list conversions in C are excluded (see C58_false, C30_false, DESIGN.md)."
  },
  {
   "property": "C63",
   "status": "proved",
   "theorems": [
    "Dredd.C63",
    "Dredd.C63_mutant",
    "Dredd.C63_original",
    "Dredd.C63_program",
    "Dredd.C63_tracking"
   ],
   "note": "C63 for phrases, C63_program for files; C63_original, C63_mutant and C63_tracking combine it with C18, C50 and C19 (under their conditions). The semantics of the language is any that has the rules of Sem.Has (Spec/CSem.lean) and agrees with the elaboration on what is not instrumented; Spec/CSemSample.lean is one. The grammar is not shown to be unambiguous; the prelude is given by what it does (C09, C12)."
  },
  {
   "property": "C64",
   "status": "proved",
   "theorems": [
    "Dredd.C64_enabled",
    "Dredd.C64_faithful",
    "Dredd.C64_mutant",
    "Dredd.C64_original",
    "Dredd.C64_recorded",
    "Dredd.C64_records",
    "Dredd.C64_threads",
    "Dredd.C64_threads_recorded",
    "Dredd.C64_tracking"
   ],
   "note": "prelude text preprocessed, tokenised, parsed and resolved to a program for all numbers, options and macros; answers, records and whole output text follow"
  },
  {
   "property": "C65",
   "status": "partial",
   "theorems": [
    "Dredd.C65_c",
    "Dredd.C65_cpp_partial",
    "Dredd.C65_false_bool",
    "Dredd.C65_false_getenv",
    "Dredd.C65_false_thread_local",
    "Dredd.C65_functions",
    "Dredd.C65_names",
    "Dredd.C65_rest_partial"
   ],
   "note": "C: all names declared. C++: false for std::getenv (cstdlib is not included), and for uint64_t and size_t without std::. Names at file scope: proved. Rest of the file: false for thread_local (Apple, Visual C++) and, in C, for bool, true, false; proved otherwise"
  },
  {
   "property": "C66",
   "status": "partial",
   "theorems": [
    "Dredd.C66_deleted_partial",
    "Dredd.C66_false_case"
   ],
   "note": "proved for all programs in which no removed statement contains a label; false otherwise (C66_false_case: a case label inside a removed loop, as in Duff's device, is still jumped to and the rest of the loop executed)"
  },
  {
   "property": "C67",
   "status": "partial",
   "theorems": [
    "Dredd.C67_false_c_logical",
    "Dredd.C67_unrecorded_partial"
   ],
   "note": "proved for all programs whose points have pairwise different first ids (no points without mutants); in C, right operands of logical operators must return (C67_false_c_logical shows that this is needed)"
  },
  {
   "property": "C68",
   "status": "proved",
   "theorems": [
    "Dredd.C68_blocks",
    "Dredd.C68_mutant",
    "Dredd.C68_original"
   ],
   "note": "all files in the same language; points of the program lie in the blocks of ids of their files"
  },
  {
   "property": "C69",
   "status": "partial",
   "theorems": [
    "Dredd.C69_tracking_partial",
    "Dredd.C69_unrecorded_partial"
   ],
   "note": "same restrictions as C19 and C67: groups without mutants; in C, right operands of logical operators that do not return"
  },
  {
   "property": "C70",
   "status": "partial",
   "theorems": [
    "Dredd.C70_false_info",
    "Dredd.C70_false_listed",
    "Dredd.C70_false_skipped",
    "Dredd.C70_reports_partial",
    "Dredd.C70_written"
   ],
   "note": "needs that no file is skipped, or that there are errors, or a build without assertions (C70_false_skipped); files failing early are not listed (C70_false_listed); an info file that cannot be opened is not reported (C70_false_info)"
  },
  {
   "property": "C71",
   "status": "proved",
   "theorems": [
    "Dredd.C71_mutant",
    "Dredd.C71_original_c",
    "Dredd.C71_original_cpp",
    "Dredd.C71_types"
   ],
   "note": "C71_original_c, C71_original_cpp, C71_mutant; C71_types is type soundness of the original and of every mutant"
  },
  {
   "property": "C72",
   "status": "partial",
   "theorems": [
    "Dredd.C72_false_return",
    "Dredd.C72_false_temporaries",
    "Dredd.C72_mutant",
    "Dredd.C72_mutant_partial",
    "Dredd.C72_no_temporaries",
    "Dredd.C72_original_partial"
   ],
   "note": "C72_mutant is unconditional about what lambdas do; equality with the mutant or original holds if lambdas make no difference (C72_no_temporaries), and is false for temporaries with destructors and for return in statement expressions."
  },
  {
   "property": "C73",
   "status": "partial",
   "theorems": [
    "Dredd.C73_asserts",
    "Dredd.C73_asserts_writable",
    "Dredd.C73_false_info",
    "Dredd.C73_release",
    "Dredd.C73_writable"
   ],
   "note": "The contents of the other files, exit status and list of failed files without assertions (C73_release), and agreement with C70 if everything can be written (C73_writable, C73_asserts_writable). The claim that the information lists exactly the modified files is false (C73_false_info), and with assertions the program stops at the first file that cannot be written (C73_asserts). That an error is reported when writing fails is an assumption about clang's Rewriter."
  },
  {
   "property": "C74",
   "status": "proved",
   "theorems": [
    "Dredd.C74_comments",
    "Dredd.C74_dump",
    "Dredd.C74_info_file",
    "Dredd.C74_same",
    "Dredd.C74_tokens"
   ],
   "note": "Reading the command line is left to llvm::cl. Names of syntax tree nodes contain no star; for the tokens, what is mutated is made of tokens as in C58."
  },
  {
   "property": "C75",
   "status": "proved",
   "theorems": [
    "Dredd.C75_file",
    "Dredd.C75_points",
    "Dredd.C75_run"
   ],
   "note": "with the condition LocationsApart, and an example where it is needed"
  },
  {
   "property": "C76",
   "status": "partial",
   "theorems": [
    "Dredd.C76_block_partial",
    "Dredd.C76_cast_partial",
    "Dredd.C76_enclosed_partial",
    "Dredd.C76_false_case",
    "Dredd.C76_false_cast",
    "Dredd.C76_false_lvalue",
    "Dredd.C76_why"
   ],
   "note": "missing: lvalues in parentheses, casts that are not mutated, switch without braces; each fails (C76_false_lvalue, C76_false_cast, C76_false_case)"
  },
  {
   "property": "C77",
   "status": "partial",
   "theorems": [
    "Dredd.C77_false_null",
    "Dredd.C77_false_temporary",
    "Dredd.C77_partial"
   ],
   "note": "missing: parentheses; fails there (C77_false_null, C77_false_temporary)"
  },
  {
   "property": "C78",
   "status": "partial",
   "theorems": [
    "Dredd.C78_before_partial",
    "Dredd.C78_false_before",
    "Dredd.C78_marker",
    "Dredd.C78_start"
   ],
   "note": "missing: mutated code in front of the placeholder function; fails there (C78_false_before)"
  },
  {
   "property": "C79",
   "status": "proved",
   "theorems": [
    "Dredd.C79_assert",
    "Dredd.C79_constant",
    "Dredd.C79_false_optimised",
    "Dredd.C79_optimised"
   ],
   "note": "Completeness for the constants that C39 is about: C79_constant, C79_assert, in code that is looked at. C79_optimised compares the two settings; C79_false_optimised shows that with optimisation code that is not looked at may need it."
  },
  {
   "property": "C80",
   "status": "proved",
   "theorems": [
    "Dredd.C80",
    "Dredd.C80_file",
    "Dredd.C80_order",
    "Dredd.C80_prefix"
   ],
   "note": "Edits and definitions do not depend on the first id; the prelude has it in one place; groups are shifted (Spec/Shift.lean)."
  },
  {
   "property": "C81",
   "status": "proved",
   "theorems": [
    "Dredd.C81_relational"
   ],
   "note": "C81_relational: the replacements by an operand are excluded, as in C27."
  },
  {
   "property": "C82",
   "status": "partial",
   "theorems": [
    "Dredd.C82_dropped_partial",
    "Dredd.C82_false_nan",
    "Dredd.C82_false_sign",
    "Dredd.C82_insertion",
    "Dredd.C82_minus"
   ],
   "note": "C82_dropped_partial: equal as numbers unless the dropped mutant is not a number, and exactly equal (not-a-number included) if neither operand is the constant 0.0; C82_insertion and C82_minus up to the sign of zero. Missing: results that are not numbers, and signs of zeros, with a constant 0.0 as an operand; false there (C82_false_nan, C82_false_sign). Logical negation of a floating-point number in C (result of type int) is not considered."
  },
  {
   "property": "C83",
   "status": "proved",
   "theorems": [
    "Dredd.C83",
    "Dredd.C83_source"
   ],
   "note": "C83 for every site whose facts are read from the text, C83_source for the mutations of parsed source. Characters before the beginning of the file, and letters outside of ASCII, are not considered."
  },
  {
   "property": "C84",
   "status": "partial",
   "theorems": [
    "Dredd.C84_false",
    "Dredd.C84_listed",
    "Dredd.C84_partial"
   ],
   "note": "C84_partial: the whole way from a parsed file to what the script shows. Missing: last tokens that go over several lines (C84_false shows that the claim fails for them), carriage returns in the text (the script's text mode translates them), and a file that is listed several times under the same name with different contents."
  },
  {
   "property": "C85",
   "status": "partial",
   "theorems": [
    "Dredd.C85_error",
    "Dredd.C85_largest",
    "Dredd.C85_partial"
   ],
   "note": "C85_largest and C85_error in full; C85_partial: missing as in C84 (last tokens over several lines, C84_false; carriage returns). Prefixes in the form that Path yields (C38_unnormalised_false for others). The parsing of the arguments (argparse) and what is printed before an exception are not modelled."
  },
  {
   "property": "C86",
   "status": "partial",
   "theorems": [
    "Dredd.C86_false_removed",
    "Dredd.C86_false_unmutated",
    "Dredd.C86_partial"
   ],
   "note": "C86_partial: with optimisation the statement is only removed if it has side effects. In full the claim is false: C86_false_removed, C86_false_unmutated."
  },
  {
   "property": "C87",
   "status": "partial",
   "theorems": [
    "Dredd.C87_false_register",
    "Dredd.C87_false_vector",
    "Dredd.C87_partial"
   ],
   "note": "What is passed by address is an l-value that is not a bit-field; false for register variables in C and for elements of vectors, with witnesses."
  },
  {
   "property": "C88",
   "status": "partial",
   "theorems": [
    "Dredd.C88_false",
    "Dredd.C88_partial"
   ],
   "note": "Holds for __builtin_frame_address; other builtin functions are not known to the code, with a witness."
  },
  {
   "property": "C89",
   "status": "partial",
   "theorems": [
    "Dredd.C89_binary_partial",
    "Dredd.C89_false",
    "Dredd.C89_insert_partial",
    "Dredd.C89_symbols",
    "Dredd.C89_unary_partial"
   ],
   "note": "Proved for every grammar with the rules for parentheses and operators, for operands that are postfix expressions if no symbol occurs in them; C89_symbols: in the grammar without operators spelled with letters this always holds. False for operators spelled with letters (C89_false)."
  },
  {
   "property": "C90",
   "status": "proved",
   "theorems": [
    "Dredd.C90",
    "Dredd.C90_run"
   ],
   "note": "all syntax trees"
  },
  {
   "property": "C91",
   "status": "proved",
   "theorems": [
    "Dredd.C91",
    "Dredd.C91_run"
   ],
   "note": "all syntax trees and places"
  },
  {
   "property": "C92",
   "status": "proved",
   "theorems": [
    "Dredd.C92",
    "Dredd.C92_consecutive",
    "Dredd.C92_run",
    "Dredd.C92_tree"
   ],
   "note": "all source texts as in C54"
  }
 ]
}