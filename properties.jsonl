{"id": "C01", "title": "Mutant ids are exactly 0..N-1, each used once", "statement": "After any run of the tool over any list of source files, the mutant ids listed in the mutation information file (in the order files and mutation groups are applied) are 0,1,...,N-1 with no gap, no repeat and no reordering, where N is the total number of mutants inserted.", "quantifier": "every list of translation units (each with any mutation tree), every option setting with an info file requested", "why_tests_cant": "the id counter is shared by all files and all mutation kinds; a test fixes one set of files, while an off-by-one in one kind of mutation shows only for particular combinations", "anchors": ["src/libdredd/src/mutate_ast_consumer.cc: MutateAstConsumer::ApplyMutations, HandleTranslationUnit", "src/libdredd/src/mutation_replace_expr.cc: AddMutationInstance, GenerateMutatorFunction", "src/libdredd/src/mutation_replace_binary_operator.cc: HandleCLogicalOperator, GenerateMutatorFunction", "src/dredd/src/main.cc: main (mutation_id)"]}
{"id": "C02", "title": "Each mutated file owns one contiguous block of ids and its generated code uses file-local ids that map back to it", "statement": "For each file, the ids reported for it form an interval [first, first+n); intervals of different files do not overlap and follow the processing order; the file-local id written at each instrumented point, plus the first id written into that file's prelude, is the id reported for that point, and is always in [0,n) for every point that carries at least one mutant.", "quantifier": "every list of files, every mutation tree, every option setting", "why_tests_cant": "requires relating three independently written outputs (prelude constants, call-site constants, JSON) for every possible file set", "anchors": ["src/libdredd/src/mutate_ast_consumer.cc: HandleTranslationUnit, GetRegularDreddPreludeCpp, GetRegularDreddPreludeC", "src/libdredd/src/mutation_replace_expr.cc: ReplaceExprWithFunctionCall", "src/libdredd/src/mutation_remove_stmt.cc: Apply"]}
{"id": "C03", "title": "A tracking build and a mutating build of the same code use the same ids", "statement": "Running the tool on the same files with and without --only-track-mutant-coverage (and with or without --show-ast-node-types or --dump-asts) produces the same mutation information, and every instrumented point carries the same file-local id in both outputs.", "quantifier": "every list of files, every mutation tree, every pair of option settings that agree on optimisation", "why_tests_cant": "the documented coverage workflow runs one binary to find ids and another to enable them; a test compares one example, the claim is about all code", "anchors": ["src/libdredd/src/mutate_ast_consumer.cc: ApplyMutations", "src/libdredd/src/mutation_replace_binary_operator.cc: GenerateMutatorFunction, HandleCLogicalOperator", "src/libdredd/src/mutation_replace_unary_operator.cc: GenerateUnaryOperatorReplacement", "README.md (mutant coverage tracking)"]}
{"id": "C04", "title": "Every source file is processed at most once", "statement": "If the same file is named several times (for example by several compile commands), only its first occurrence has any effect: ids, mutation information and file contents are those of the run in which later occurrences are deleted.", "quantifier": "every list of translation units with arbitrary repetitions", "why_tests_cant": "repetitions can be anywhere in an unbounded list and interleaved with failures", "anchors": ["src/libdredd/src/new_mutate_frontend_action_factory.cc: MutateFrontendAction::BeginInvocation"]}
{"id": "C05", "title": "Files with compile errors are left alone and do not disturb the others", "statement": "A file whose compilation reports errors is not modified, gets no mutation information, consumes no ids and does not change what happens to the other files; likewise a file with no mutation opportunities is not modified and gets no entry.", "quantifier": "every list of files with arbitrary failing positions", "why_tests_cant": "failing files can occur at any position of an unbounded list", "anchors": ["src/libdredd/src/mutate_ast_consumer.cc: HandleTranslationUnit (hasErrorOccurred, initial_mutation_id == *mutation_id_)", "src/dredd/src/main.cc: main"]}
{"id": "C06", "title": "The mutation information lists exactly the modified files, in processing order", "statement": "With an info file requested there is one entry per modified file, in the order processed, carrying that file's name, and every entry holds at least one mutant; with no info file requested the modified sources are the same and no information is produced.", "quantifier": "every list of files, every option setting", "why_tests_cant": "global statement about all runs", "anchors": ["src/libdredd/src/mutate_ast_consumer.cc: HandleTranslationUnit", "src/dredd/src/main.cc: main"]}
{"id": "C07", "title": "Tidying the mutation tree loses no mutation and no nesting relation", "statement": "Simplifying the tree of mutations keeps every mutation, keeps the order in which they are applied, and keeps for every mutation the chain of mutation-carrying ancestors; afterwards no subtree is empty (except possibly the whole tree), no node without mutations has exactly one child, and simplifying again changes nothing.", "quantifier": "every finite mutation tree, of any depth and branching", "why_tests_cant": "unbounded recursive structure; the deletion loop erases while iterating", "anchors": ["src/libdredd/src/mutation_tree_node.cc: TidyUp, PruneEmptySubtrees, Compress, IsEmpty"]}
{"id": "C08", "title": "The flat tree in the mutation information is a well-formed encoding of the mutation tree", "statement": "In every file entry the list of nodes is a tree rooted at index 0: every child index is in range and larger than its parent's index, every node except the root is the child of exactly one node, and reading the flat list back gives a tree with the same shape and the same mutation groups at each node.", "quantifier": "every finite mutation tree", "why_tests_cant": "index arithmetic in a recursive traversal that appends to the list being indexed; tests see small trees", "anchors": ["src/libdredd/src/mutate_ast_consumer.cc: ApplyMutations", "src/libdredd/include/libdredd/protobufs/dredd.proto: MutationTreeNode"]}
{"id": "C09", "title": "C++ output: exactly the mutants named in DREDD_ENABLED_MUTATION are enabled", "statement": "In a mutated C++ file with first id f and n mutants, if the environment variable holds a comma-separated list of integers, then the point with local id i in [0,n) sees its mutant enabled iff f+i is in the list; ids outside [f,f+n), empty entries and trailing commas are ignored; if the variable is unset nothing is enabled; no array access is out of range.", "quantifier": "every first id, every number of mutants, every list of integers in int range, every local id in [0,n)", "why_tests_cant": "bitset indexing and masking must be right for every id, in particular around multiples of 64 and for any number of words", "anchors": ["src/libdredd/src/mutate_ast_consumer.cc: GetRegularDreddPreludeCpp"]}
{"id": "C10", "title": "C output: exactly the mutants named in DREDD_ENABLED_MUTATION are enabled", "statement": "The same guarantee as C09 for the C prelude (strtok/atoi based).", "quantifier": "every first id, every number of mutants, every list of integers in int range, every local id in [0,n)", "why_tests_cant": "as C09; and the C prelude is a separately written port", "anchors": ["src/libdredd/src/mutate_ast_consumer.cc: GetRegularDreddPreludeC"]}
{"id": "C11", "title": "Malformed DREDD_ENABLED_MUTATION values never silently enable a mutant", "statement": "If some entry of the environment variable is not an integer in int range, the program stops with an error rather than enabling some mutant not named by the user.", "quantifier": "every string value of the environment variable, both preludes", "why_tests_cant": "all strings; tests use well-formed values", "anchors": ["src/libdredd/src/mutate_ast_consumer.cc: GetRegularDreddPreludeCpp (std::stoi), GetRegularDreddPreludeC (atoi)"]}
{"id": "C12", "title": "The enabled set is decided once per thread and never changes", "statement": "For every interleaving of queries by any number of threads, every query by a thread about id i gives the same answer, the one determined by the environment variable at that thread's first query; threads do not affect each other, and the quick check flag is false iff that thread's enabled set is empty and it has made a query.", "quantifier": "every number of threads, every schedule, every sequence of queries and environment changes", "why_tests_cant": "schedules cannot be enumerated by tests", "anchors": ["src/libdredd/src/mutate_ast_consumer.cc: GetRegularDreddPreludeCpp, GetRegularDreddPreludeC (thread_local, initialized)"]}
{"id": "C13", "title": "With no mutant enabled, each instrumented operator or expression behaves like the original", "statement": "If none of the file's mutants is enabled, a call of a generated mutator function evaluates the original operands the same number of times in the same circumstances and returns the value of the original expression, for every operator, every operand type, C and C++, with or without optimisation.", "quantifier": "every supported expression site, every operand behaviour (value, side effects, undefined behaviour), every runtime state", "why_tests_cant": "every generated function, for every state of the enabling flags", "anchors": ["src/libdredd/src/mutation_replace_binary_operator.cc: GenerateMutatorFunction", "src/libdredd/src/mutation_replace_unary_operator.cc: GenerateMutatorFunction", "src/libdredd/src/mutation_replace_expr.cc: GenerateMutatorFunction"]}
{"id": "C14", "title": "Enabling one mutant performs exactly the change the mutation information describes", "statement": "If exactly one mutant of a group is enabled, the instrumented point computes what the action reported for that id says (replacement operator applied to the operands, an operand, an inserted operator, or a constant), and every point whose group does not contain the id behaves like the original.", "quantifier": "every site, every reported instance, every operand behaviour", "why_tests_cant": "the code path that writes the reported action and the one that writes the generated C/C++ clause are separate statements that must agree for every instance", "anchors": ["src/libdredd/src/mutation_replace_binary_operator.cc: GenerateBinaryOperatorReplacement, GenerateArgumentReplacement, OperatorKindToAction", "src/libdredd/src/mutation_replace_unary_operator.cc: GenerateUnaryOperatorReplacement", "src/libdredd/src/mutation_replace_expr.cc: Generate*Replacement, GenerateUnaryOperatorInsertion*"]}
{"id": "C15", "title": "With several mutants of one group enabled, the smallest id wins", "statement": "For every set of enabled ids, an instrumented operator or expression performs the action of the smallest enabled id of its group (and the original if none is enabled).", "quantifier": "every site, every set of enabled ids", "why_tests_cant": "all subsets of ids (higher-order mutants)", "anchors": ["src/libdredd/src/mutation_replace_binary_operator.cc: GenerateMutatorFunction", "src/libdredd/src/mutation_replace_expr.cc: GenerateMutatorFunction", "src/libdredd/src/mutation_replace_unary_operator.cc: GenerateMutatorFunction", "src/libdredd/src/mutation_replace_binary_operator.cc: HandleCLogicalOperator"]}
{"id": "C16", "title": "C logical operators: the three mutants have the advertised truth value and keep short-circuiting", "statement": "For a C expression a && b or a || b, with no mutant enabled the instrumented form has the same value and evaluates the same operands; with the swap mutant enabled it has the value of the swapped operator and evaluates b in the same cases the swapped operator would; with the LHS (RHS) mutant enabled its value is the truth value of a (b).", "quantifier": "every operand value and evaluation behaviour, every enabled set containing at most one of the three ids", "why_tests_cant": "relation between three cooperating generated functions for all operand behaviours", "anchors": ["src/libdredd/src/mutation_replace_binary_operator.cc: HandleCLogicalOperator"]}
{"id": "C17", "title": "Statement removal: disabled keeps the statement, enabled skips it entirely", "statement": "A removable statement is executed exactly once when its mutant is disabled, and has no effect at all when enabled; in a tracking build it is always executed.", "quantifier": "every statement, every state", "why_tests_cant": "universally quantified over statements and states", "anchors": ["src/libdredd/src/mutation_remove_stmt.cc: Apply"]}
{"id": "C18", "title": "Whole program: with no mutant enabled the mutated program has the behaviour of the original", "statement": "For every program, running the mutated version with none of its mutants enabled gives the same final state, result and termination behaviour as the original program, for C, and for C++ whenever no operand passed by value is affected by the side effects of the other operand; and in general gives a behaviour the original is allowed to have where the language leaves operand order unspecified.", "quantifier": "every program of the modelled statement and expression language, every initial state, every number of execution steps", "why_tests_cant": "behavioural equivalence of all programs", "anchors": ["src/libdredd/src/mutate_visitor.cc: VisitExpr, TraverseCompoundStmt", "src/libdredd/src/mutation_replace_binary_operator.cc: ReplaceOperator", "src/libdredd/src/mutation_replace_expr.cc: ReplaceExprWithFunctionCall", "src/libdredd/src/mutation_remove_stmt.cc: Apply"]}
{"id": "C19", "title": "Tracking instrumentation does not change behaviour", "statement": "The tracking version of a program has the same final state, result and termination behaviour as the version with no mutant enabled; it differs only by what it appends to the tracking file.", "quantifier": "every program, every initial state", "why_tests_cant": "behavioural equivalence of all programs", "anchors": ["src/libdredd/src/mutation_replace_binary_operator.cc: GenerateMutatorFunction (only_track_mutant_coverage)", "src/libdredd/src/mutation_remove_stmt.cc: Apply", "src/libdredd/src/mutate_ast_consumer.cc: GetMutantTrackingDreddPreludeCpp"]}
{"id": "C20", "title": "Coverage file: every reached mutant is recorded, only reached mutants are recorded, none twice", "statement": "When all threads have finished, the tracking file holds the id of every mutant whose group was reached by some thread, exactly once per process, and no other id, for every interleaving of threads.", "quantifier": "every number of threads, every schedule, every sequence of reached groups", "why_tests_cant": "interleavings; and the interplay of neighbouring groups with zero mutants", "anchors": ["src/libdredd/src/mutate_ast_consumer.cc: GetMutantTrackingDreddPreludeCpp, GetMutantTrackingDreddPreludeC", "src/libdredd/src/mutation_replace_binary_operator.cc: GenerateMutatorFunction"]}
{"id": "C21", "title": "The tracking array is never accessed out of range", "statement": "For every file and every reached point, the index used by the tracking prelude is within the array it declares.", "quantifier": "every mutation tree, every reached instrumentation point", "why_tests_cant": "depends on the last points of a file having no mutants", "anchors": ["src/libdredd/src/mutate_ast_consumer.cc: GetMutantTrackingDreddPreludeCpp, GetMutantTrackingDreddPreludeC"]}
{"id": "C22", "title": "Generated functions never clash", "statement": "In one mutated file, two generated function definitions with the same name and the same parameter types are textually identical, hence emitted once; in C, where there is no overloading, equal names suffice.", "quantifier": "every pair of sites in one file, C and C++, optimised or not", "why_tests_cant": "quadratically many combinations of operators, types, qualifiers and constant operands", "anchors": ["src/libdredd/src/mutation_replace_binary_operator.cc: GetFunctionName", "src/libdredd/src/mutation_replace_unary_operator.cc: GetFunctionName", "src/libdredd/src/mutation_replace_expr.cc: GetFunctionName, AddOptimisationSpecifier", "src/libdredd/src/util.cc: SpaceToUnderscore"]}
{"id": "C23", "title": "Inserted declarations are deterministic, complete, duplicate free and follow the prelude", "statement": "The text inserted at the prelude location is the prelude followed by each needed function definition exactly once, in an order that depends only on the set of definitions; every function called at an instrumented point is defined there.", "quantifier": "every set of definitions, every order in which they were collected", "why_tests_cant": "iteration order of a hash set is not under test control", "anchors": ["src/libdredd/src/mutate_ast_consumer.cc: HandleTranslationUnit (sorted_dredd_declarations)"]}
{"id": "C24", "title": "Replacement operators are type-correct wherever the original was", "statement": "For every supported operator and operand types for which the original expression is well typed, every replacement operator the tool offers is well typed on the same operands.", "quantifier": "every operator, every pair of builtin operand types, C and C++, optimised or not", "why_tests_cant": "the full product of operators and types", "anchors": ["src/libdredd/src/mutation_replace_binary_operator.cc: IsValidReplacementOperator, GetReplacementOperators", "src/libdredd/src/mutation_replace_unary_operator.cc: IsValidReplacementOperator", "src/libdredd/src/mutation_replace_expr.cc: GenerateUnaryOperatorInsertion*"]}
{"id": "C25", "title": "A mutation group never contains the original or a repeated action", "statement": "Within one group all reported actions are different, and none of them is 'replace with the operator already present'.", "quantifier": "every site", "why_tests_cant": "all sites", "anchors": ["src/libdredd/src/mutation_replace_binary_operator.cc: GetReplacementOperators", "src/libdredd/src/mutation_replace_unary_operator.cc: GenerateUnaryOperatorReplacement", "src/libdredd/src/mutation_replace_expr.cc: GenerateMutatorFunction"]}
{"id": "C26", "title": "Optimisation only removes mutants", "statement": "For every expression, the actions offered with optimisations on are a sub-sequence of those offered with --no-mutation-opts; C logical operators are unaffected.", "quantifier": "every site", "why_tests_cant": "all sites", "anchors": ["src/libdredd/src/mutation_replace_binary_operator.cc: GetReplacementOperators", "src/libdredd/src/mutation_replace_expr.cc", "src/libdredd/src/mutation_replace_unary_operator.cc"]}
{"id": "C27", "title": "Boolean-valued operators: dropped mutants are subsumed by kept ones", "statement": "For every relational operator (whose operands are not of type bool, as the language converts them) and every (C++) logical operator with non-constant operands, every mutant that optimisation drops (other operators, boolean constants, inserted negation) is killed by every operand pair that kills some particular kept mutant of the same expression, so a test suite killing all kept killable mutants kills it.", "quantifier": "all operand values of any linearly ordered type (relational) and all booleans (logical)", "why_tests_cant": "all operand values", "anchors": ["src/libdredd/src/mutation_replace_binary_operator.cc: IsRedundantReplacementForBooleanValuedOperator", "src/libdredd/src/mutation_replace_expr.cc: IsBooleanReplacementRedundantForBinaryOperator, IsRedundantOperatorInsertionBeforeBinaryExpr, IsRedundantOperatorInsertionBeforeLogicalOperatorArgument"]}
{"id": "C28", "title": "Arithmetic and shift operators: dropped mutants equal a kept mutant or the original wherever defined", "statement": "When optimisation drops a replacement operator (or operand replacement) because an operand is the constant 0, 1 or -1, then for every value of the other operand for which the dropped mutant is defined, its result equals that of the original or of a mutant still offered for the same expression.", "quantifier": "every integer type width and signedness, every value of the other operand", "why_tests_cant": "all operand values, widths and signedness", "anchors": ["src/libdredd/src/mutation_replace_binary_operator.cc: IsRedundantReplacementForArithmeticOperator, GenerateArgumentReplacement", "src/libdredd/src/mutate_visitor.cc: HandleBinaryOperator"]}
{"id": "C29", "title": "Unary operators: dropped mutants equal a kept mutant or the original wherever defined", "statement": "When optimisation drops a unary replacement, an inserted unary operator, or the removal of a self-inverse operator, its result equals that of the original or of a mutant still offered for the same expression, for every operand value for which it is defined.", "quantifier": "every integer type width and signedness, every operand value", "why_tests_cant": "all operand values, widths and signedness", "anchors": ["src/libdredd/src/mutation_replace_unary_operator.cc: IsRedundantReplacementOperator, IsOperatorSelfInverse", "src/libdredd/src/mutation_replace_expr.cc: IsRedundantUnary*", "src/libdredd/src/mutate_visitor.cc: HandleUnaryOperator"]}
{"id": "C30", "title": "Edits nest: the mutated text is the original with every instrumented expression properly wrapped", "statement": "For every source text and every tree of instrumented expressions and statements laid out in it, the text after all edits equals the text obtained by recursively wrapping each instrumented node around its already instrumented children; in particular inserted parentheses and braces pair up with the node they belong to.", "quantifier": "every nesting of nodes, any number of mutations per node, any sharing of start or end positions", "why_tests_cant": "edits at the same offset are order dependent; all nestings must work", "anchors": ["src/libdredd/src/mutate_ast_consumer.cc: ApplyMutations", "src/libdredd/src/mutation_replace_binary_operator.cc: ReplaceOperator, HandleCLogicalOperator", "src/libdredd/src/mutation_replace_unary_operator.cc: Apply", "src/libdredd/src/mutation_replace_expr.cc: ReplaceExprWithFunctionCall", "src/libdredd/src/mutation_remove_stmt.cc: Apply"]}
{"id": "C31", "title": "Instrumentation only adds text, apart from operator symbols", "statement": "Deleting the inserted text from the mutated file and putting the replaced operator symbols back gives the original file, character for character.", "quantifier": "every source text, every set of edits the tool performs", "why_tests_cant": "all programs", "anchors": ["src/libdredd/src/mutation_replace_binary_operator.cc: ReplaceOperator", "src/libdredd/src/mutation_replace_unary_operator.cc: Apply"]}
{"id": "C32", "title": "Only code whose range lies in the main file is edited", "statement": "A range is handed to the editing code only if both its ends are in the main source file, either directly or as the matching extreme of a macro expansion that is itself in the main file; otherwise nothing is edited for that node.", "quantifier": "every pair of source locations (file, macro nesting, pasted tokens)", "why_tests_cant": "all macro nestings", "anchors": ["src/libdredd/src/util.cc: getSourceLocationInMainFileForExtremeOfRange, GetSourceRangeInMainFile", "src/libdredd/src/mutate_visitor.cc: VisitExpr, HandleBinaryOperator, HandleUnaryOperator, TraverseCompoundStmt"]}
{"id": "C33", "title": "Snippets are bounded and faithful", "statement": "The snippet reported for a range has at most 36 characters, is exactly the source text of the range when that has at most 36 characters, and otherwise is its first 10 characters, a fixed marker, and its last 10 characters.", "quantifier": "every source text and every range in it", "why_tests_cant": "all lengths, in particular around the threshold", "anchors": ["src/libdredd/src/util.cc: InfoForSourceRange::InfoForSourceRange"]}
{"id": "C34", "title": "Source ranges accepted for mutation never end before they start", "statement": "The range check accepts a range only if its end is not before its start, and accepts every non-empty range.", "quantifier": "every pair of (line, column) positions", "why_tests_cant": "all pairs of positions", "anchors": ["src/libdredd/src/util.cc: SourceRangeConsistencyCheck"]}
{"id": "C35", "title": "The query script reports the largest id and knows every id", "statement": "For every mutation information the tool writes, --largest-mutant-id prints N-1 (-1 when there are no mutants), every id in [0,N) is found together with the file, group and action it was written with, and no other id is found.", "quantifier": "every run of the tool", "why_tests_cant": "all infos; composition of two programs in different languages", "anchors": ["scripts/query_mutant_info.py: build_mutant_to_node_mapping, main", "src/libdredd/src/mutate_ast_consumer.cc: ApplyMutations"]}
{"id": "C36", "title": "The query script extracts exactly the text of the reported range", "statement": "For every text file (one byte per character, '\\n' line ends) and every range of offsets in it, the text the script shows for the line/column range reported by the tool is the text of that range.", "quantifier": "every text, every pair of offsets", "why_tests_cant": "all texts and multi-line ranges", "anchors": ["scripts/query_mutant_info.py: get_text_for_source_range", "src/libdredd/src/util.cc: InfoForSourceRange"]}
{"id": "C37", "title": "The query script understands every action the tool can report", "statement": "For every group and instance the tool can write, the script has a rendering for the action (no lookup failure), and the operator it shows is the operator the mutated code applies.", "quantifier": "every mutation kind and action", "why_tests_cant": "cross-language agreement for the whole table and all instances", "anchors": ["scripts/query_mutant_info.py: show_info_for_replace_expr, show_info_for_replace_unary_operator, show_info_for_replace_binary_operator"]}
{"id": "C38", "title": "Path prefix replacement finds the original file", "statement": "If a mutated file's name is P/rest, then with prefixes P and Q the script opens Q/rest.", "quantifier": "every pair of prefixes and every relative path", "why_tests_cant": "all paths", "anchors": ["scripts/query_mutant_info.py: show_info_for_mutant"]}
{"id": "C39", "title": "Constants rewritten in place keep their value", "statement": "An array size, builtin argument or template argument that is replaced by a literal is replaced by a literal denoting the same integer value.", "quantifier": "every integer constant of every width and signedness", "why_tests_cant": "all values, in particular negative ones", "anchors": ["src/libdredd/src/mutate_ast_consumer.cc: RewriteExpressionsInMainFile, RewriteExpressionInMainFileToIntegerConstant"]}
{"id": "C40", "title": "Mutants are only placed where they can be compiled: inside functions and outside compile-time contexts", "statement": "Every mutation the visitor creates belongs to a node that is in a function (possibly through variable declarations only), is not below a constant expression, noexcept operator, sizeof/alignof, constexpr function or variable, case label, array type, template argument, lambda capture or parameter default, has a supported type and a range in the main file.", "quantifier": "every syntax tree", "why_tests_cant": "all programs", "anchors": ["src/libdredd/src/mutate_visitor.cc: TraverseDecl, TraverseVarDecl, TraverseStmt, TraverseCaseStmt, TraverseCompoundStmt, VisitExpr, IsInFunction"]}
{"id": "C41", "title": "Every operator handed to a mutation is one the mutation supports", "statement": "Every unary or binary operator for which the visitor creates an operator mutation has a name, an action and a protobuf code; no 'unsupported opcode' assertion can fire.", "quantifier": "every operator kind of the language front end, every operand type", "why_tests_cant": "rare operators do not occur in tests", "anchors": ["src/libdredd/src/mutate_visitor.cc: HandleUnaryOperator, HandleBinaryOperator", "src/libdredd/src/mutation_replace_unary_operator.cc: GetFunctionName, OperatorKindToAction, ClangOperatorKindToProtobufOperatorKind", "src/libdredd/src/mutation_replace_binary_operator.cc: GetFunctionName, OperatorKindToAction, ClangOperatorKindToProtobufOperatorKind"]}
{"id": "C42", "title": "Operands are evaluated at most once per instrumented operator and short-circuiting is preserved in C++", "statement": "In C++ output, for every enabled set, one call of a mutator function evaluates each side-effecting operand at most once, evaluates no operand of a logical operator that the selected action would not evaluate, and operands passed by value are side-effect free.", "quantifier": "every site, every enabled set, every operand behaviour", "why_tests_cant": "all sites and enabled sets", "anchors": ["src/libdredd/src/mutation_replace_binary_operator.cc: GenerateMutatorFunction, ReplaceOperator", "src/libdredd/src/mutation_replace_expr.cc: GenerateMutatorFunction", "src/libdredd/src/mutation_replace_unary_operator.cc: GenerateMutatorFunction"]}
{"id": "C43", "title": "The closing brace of a removable statement is never lost", "statement": "After instrumenting a statement for removal, the inserted closing brace is outside every comment, and the code between the braces is the statement followed by its terminating semicolon whenever the statement needs one.", "quantifier": "every statement followed by any mixture of white space, comments, semicolons and preprocessor directives", "why_tests_cant": "all token sequences after a statement", "anchors": ["src/libdredd/src/mutation_remove_stmt.cc: Apply, IsNextTokenHash"]}
{"id": "C44", "title": "An interrupted run leaves every file either original or completely mutated", "statement": "If the tool stops after any number of translation units, the files processed so far are complete mutated files with consistent ids, and all other files are unchanged.", "quantifier": "every list of files and every interruption point between translation units", "why_tests_cant": "crash points", "anchors": ["src/libdredd/src/mutate_ast_consumer.cc: HandleTranslationUnit (overwriteChangedFiles)", "src/dredd/src/main.cc: main"]}
{"id": "C45", "title": "The group of a mutation lists as many instances as the code it instruments checks for", "statement": "For every site the number of reported instances, the number of guarded alternatives in the generated function, the number passed to the coverage recorder, and the amount by which the id counter advances are equal.", "quantifier": "every site, every option setting", "why_tests_cant": "four separately maintained counts must agree for every site", "anchors": ["src/libdredd/src/mutation_replace_binary_operator.cc: GenerateMutatorFunction, HandleCLogicalOperator", "src/libdredd/src/mutation_replace_unary_operator.cc: GenerateMutatorFunction", "src/libdredd/src/mutation_replace_expr.cc: GenerateMutatorFunction", "src/libdredd/src/mutation_remove_stmt.cc: Apply"]}
{"id": "C46", "title": "The whole operator symbol is replaced", "statement": "When an operator expression is instrumented, the operator as written in the source disappears completely from the output (replaced by a comma for binary operators), whatever spelling of the operator the source uses.", "quantifier": "every operator and every spelling the language allows for it", "why_tests_cant": "alternative spellings do not occur in tests", "anchors": ["src/libdredd/src/mutation_replace_binary_operator.cc: ReplaceOperator", "src/libdredd/src/mutation_replace_unary_operator.cc: Apply"]}
{"id": "C47", "title": "Exit status and reports reflect failures", "statement": "The tool's exit status is 0 exactly when every file it processed compiled without errors, and the files reported as not mutated are exactly those that had errors, each once.", "quantifier": "every list of files", "why_tests_cant": "all failure patterns", "anchors": ["src/dredd/src/main.cc: main", "src/dredd/src/log_failed_files_diagnostic_consumer.cc: HandleDiagnostic"]}
{"id": "C48", "title": "Children before parents", "statement": "The mutations of an expression's sub-expressions get smaller ids than the mutations of the expression itself, and the mutations inside a statement get smaller ids than the removal of that statement; statements of a block are numbered in source order.", "quantifier": "every syntax tree", "why_tests_cant": "all programs", "anchors": ["src/libdredd/src/mutate_visitor.cc: TraverseStmt, TraverseCompoundStmt, VisitExpr (post-order)", "src/libdredd/src/mutate_ast_consumer.cc: ApplyMutations"]}
{"id": "C49", "title": "Listing mutant ids in decimal enables exactly these mutants", "statement": "For any first id f (a non-negative int) and any n, if DREDD_ENABLED_MUTATION holds non-negative ids written in decimal and separated by commas, possibly with empty entries, then in C and in C++ the point with local id i in [0,n) sees its mutant enabled iff f+i is one of the ids; no undefined behaviour occurs.", "quantifier": "all first ids up to 2^31, all file sizes, all finite lists of ids below 2^31 with empty entries in any position, both languages", "why_tests_cant": "Unboundedly many lists, positions and word boundaries of the bitset.", "anchors": ["src/libdredd/src/mutate_ast_consumer.cc: GetRegularDreddPreludeCpp"]}
{"id": "C50", "title": "The instrumented program is the mutant that the mutation information describes", "statement": "For every program built from the instrumented expressions and statements and every set of enabled ids, the instrumented program has exactly the behaviours of the program in which each mutated place performs the change that the mutation information lists under the smallest enabled id of that place, and is unchanged up to the order of operand evaluation if none of its ids is enabled (logical operators in C: see C16).", "quantifier": "all programs with loops, recursion, early exits and undefined behaviour; all sets of enabled mutants, several at a time; all inputs and numbers of steps", "why_tests_cant": "All programs, inputs and exponentially many sets of mutants.", "anchors": ["src/libdredd/src/mutate_ast_consumer.cc: ApplyMutations", "src/libdredd/src/mutation_replace_binary_operator.cc", "src/libdredd/src/mutation_replace_unary_operator.cc", "src/libdredd/src/mutation_replace_expr.cc", "src/libdredd/src/mutation_remove_stmt.cc", "src/libdredd/include/libdredd/protobufs/dredd.proto"]}
{"id": "C51", "title": "Signed arithmetic: optimisation loses nothing", "statement": "For an arithmetic, shift or bitwise operator on signed integers (or unsigned ones unless the operands are the constants 0 and 1), every operator or operand replacement that optimisation drops yields, wherever it and the original are defined, the same value as one particular mutant still offered for the expression or as the original.", "quantifier": "every platform (widths, shift rules), operator, operand facts, language, and all operand values", "why_tests_cant": "all operand values, widths and operand facts", "anchors": ["src/libdredd/src/mutation_replace_binary_operator.cc: IsRedundantReplacementForArithmeticOperator, GenerateArgumentReplacement", "src/libdredd/src/mutate_visitor.cc: HandleBinaryOperator"]}
{"id": "C52", "title": "Inserted operators and constants: optimisation loses nothing", "statement": "For an integer expression that is not a relational or logical expression nor an operand of a C++ logical operator, every inserted operator or constant replacement that optimisation drops yields, wherever it is defined, the same value as one particular mutant still offered for the expression or as the expression itself; for an l-value nothing is dropped.", "quantifier": "every platform, integer type, language, and all values of the expression", "why_tests_cant": "all values, widths and types", "anchors": ["src/libdredd/src/mutation_replace_expr.cc: IsRedundantUnaryMinusInsertion, IsRedundantUnaryNotInsertion, IsRedundantUnaryLogicalNotInsertion, GenerateIntegerConstantReplacement, GenerateBooleanConstantReplacement"]}
{"id": "C53", "title": "The text of the preludes is a program that answers and records as claimed", "statement": "The text inserted at the top of a mutated file, read as the C or C++ program it is, behaves as claimed: its function __dredd_enabled_mutation returns, for any sequence of calls by a thread, whether first+i is among the integers listed in DREDD_ENABLED_MUTATION, and its function __dredd_record_covered_mutants appends the ids of a group, one per line, on the first call for the group and on no other call; whatever the variable holds, each call does exactly what the state machines on which C09-C12, C20 and C21 are stated do.", "quantifier": "every first id, every number of mutants, both languages, every value of the environment variable, every sequence of calls", "why_tests_cant": "ids, numbers of mutants and environment values are unbounded; a text is tested only by compiling one instance of it", "anchors": ["src/libdredd/src/mutate_ast_consumer.cc: GetRegularDreddPreludeCpp, GetRegularDreddPreludeC, GetMutantTrackingDreddPreludeCpp, GetMutantTrackingDreddPreludeC"]}
{"id": "C54", "title": "From parsed source text to the output", "statement": "Let a source file be given with its syntax tree, every node that has a place in the main file covering exactly its own text, operators spelled with their symbols, and no node beginning just where its neighbour (with the comments and the semicolon that belong to it) ends. If the file is mutated, its output is the source text in which every expression, operator and statement that the visitor found is wrapped around its own instrumented parts and every constant to be rewritten is replaced by its value, with the prelude and the definitions inserted at the prelude location. Nothing is supposed about the mutations found or their order.", "quantifier": "every such source text and syntax tree, both languages, all options, every first id", "why_tests_cant": "source files are unbounded and nest without limit; tests compare a fixed set of files", "anchors": ["src/libdredd/src/mutate_visitor.cc: TraverseStmt, TraverseCompoundStmt, VisitExpr", "src/libdredd/src/mutate_ast_consumer.cc: HandleTranslationUnit", "src/libdredd/src/mutation_replace_expr.cc, mutation_replace_binary_operator.cc, mutation_replace_unary_operator.cc, mutation_remove_stmt.cc: Apply"]}
{"id": "C55", "title": "Nothing that may be mutated is left out", "statement": "In a tree as clang builds it, every expression of supported arithmetic type, in the main file and in a function, that is not in a compile-time context (nor, with optimisation, in a statement without effect) and may be replaced as a whole, gets a mutation at its place, made from the facts about this expression; the same for every unary operator other than + and every binary operator other than the comma whose operands are of supported type, unless a bit-field would be modified or, with optimisation, the operands are the known trivial constants; and every item of a compound statement other than empty statements, declarations, labels (and with optimisation nested compound statements) gets a removal. The only further exception: expressions that begin where some variable is declared.", "quantifier": "every syntax tree, both languages, with and without optimisation, every place in the tree", "why_tests_cant": "syntax trees are unbounded and nest without limit; tests show only that the listed mutants exist in fixed files", "anchors": ["src/libdredd/src/mutate_visitor.cc: TraverseDecl, TraverseStmt, TraverseCompoundStmt, TraverseCaseStmt, VisitExpr, HandleUnaryOperator, HandleBinaryOperator, HandleExpr"]}
{"id": "C56", "title": "Only what may be mutated is mutated", "statement": "Whatever the visitor mutates at a place is the expression, operator or statement at that place, with the facts about it, and it may be mutated: it has a supported type and is in a function and outside compile-time contexts; its replacement cannot change which function argument-dependent lookup finds nor refer to a temporary that is gone; an l-value is replaced only if it can be modified, is not a truth value nor a bit-field, and only its value is used; initializer lists, null pointers converted to pointers, enumeration constants converted for a constructor, and bit-fields that become temporaries are not replaced; increments, decrements and assignments of bit-fields are not mutated; with optimisation nothing in a statement without effect is mutated.", "quantifier": "every syntax tree, both languages, with and without optimisation, every mutation", "why_tests_cant": "each of the conditions guards against code that does not compile or misbehaves in some nesting; trees are unbounded", "anchors": ["src/libdredd/src/mutate_visitor.cc: VisitExpr, HandleUnaryOperator, HandleBinaryOperator, HandleExpr, MutatingMayAffectArgumentDependentLookup, MayDependOnLifetimeOfMaterializedTemporaryStorage, IsConversionOfEnumToConstructor", "src/libdredd/src/mutation_replace_expr.cc: CanMutateLValue"]}
{"id": "C57", "title": "The order of the rewriter calls does not matter for what is written", "statement": "The rewriter keeps the text as rewritten so far and a table of how much it has grown at which offset, and every call is carried out on that text. Although operator symbols and constants are replaced in between, and text is inserted at the same offset many times, the file written in the end is the original in which every insertion and replacement is where it was asked for: no call hits text inserted by another one. This holds whenever no instrumented expression, operand or statement begins or ends just where a rewritten constant begins, and the prelude is not put inside an operator symbol or constant.", "quantifier": "every file whose syntax tree is laid out over its text, all options, both languages, every first id", "why_tests_cant": "the buffer is changed by thousands of calls in an order given by the shape of the tree; offsets of later calls are mapped through all earlier ones, so a wrong mapping shows only for particular combinations of nesting and adjacency", "anchors": ["src/libdredd/src/mutate_ast_consumer.cc: HandleTranslationUnit, RewriteExpressionInMainFileToIntegerConstant", "src/libdredd/src/mutation_replace_binary_operator.cc: ReplaceOperator", "src/libdredd/src/mutation_replace_unary_operator.cc: Apply", "src/libdredd/src/mutation_replace_expr.cc: ReplaceExprWithFunctionCall", "src/libdredd/src/mutation_remove_stmt.cc: Apply"]}
{"id": "C58", "title": "Instrumentation never joins or splits the tokens of the program", "statement": "Reading the instrumented file from left to right into white space, comments and tokens gives the white space, comments and tokens of the original in their order, with new ones in between; the only ones missing are the symbols of mutated operators and the constants that are rewritten. In particular no inserted text runs together with a neighbouring token, opens or closes a comment or literal, or is itself joined with what follows it.", "quantifier": "every file in which what is mutated is made of tokens, every tree of mutations, all options, both languages, every first id", "why_tests_cant": "text is inserted at positions chosen by the input program; whether it runs together with a neighbour depends on which characters happen to be adjacent (else++x, return-1, a/ *p), of which a test suite samples a few", "anchors": ["src/libdredd/src/mutation_replace_expr.cc: PrecedingCharacterIsIdentifierCharacter, ReplaceExprWithFunctionCall", "src/libdredd/src/mutation_replace_unary_operator.cc: Apply", "src/libdredd/src/mutation_replace_binary_operator.cc: ReplaceOperator", "src/libdredd/src/mutation_remove_stmt.cc: Apply", "src/libdredd/src/mutate_ast_consumer.cc: HandleTranslationUnit, RewriteExpressionInMainFileToIntegerConstant"]}
{"id": "C59", "title": "The inserted function definitions, read as C or C++ text, compute the mutants", "statement": "What a mutated file has behind the prelude is a sequence of well-formed function definitions. Splitting that text into tokens, parsing it with the operator precedences of C and evaluating the bodies gives, for every instrumented point, a function of the name used in the inserted call (and of the parameter types that overload resolution needs), whose call with the point's id yields the mutant with the smallest enabled id, or the original operation if none is enabled; there are no further functions, and no two that clash.", "quantifier": "every tree of mutations of a well-typed program, C and C++, all options, every id, every abstract machine (values, states, operators) and prelude state", "why_tests_cant": "compiling an expected output checks one program; the claim is about the printed form (parentheses, spaces, pointers, std::function, operator spelling) for every operator, type, qualifier and option", "anchors": ["src/libdredd/src/mutation_replace_binary_operator.cc: GenerateMutatorFunction, HandleCLogicalOperator", "src/libdredd/src/mutation_replace_unary_operator.cc: GenerateMutatorFunction", "src/libdredd/src/mutation_replace_expr.cc: GenerateMutatorFunction, ApplyCppTypeModifiers, ApplyCTypeModifiers"]}
{"id": "C60", "title": "The mutation information, read with dredd.proto alone, describes every point and mutant", "statement": "A reader that knows only the message definitions of dredd.proto and the JSON mapping of protobuf accepts the mutation information file: all field names and enumerators are known, none occurs twice. It finds one entry per written file; the node table of that entry decodes to the tree of mutation points of the file; for each point with mutants it finds the operator of the source, the ranges and snippets of the expression and its operands, and for each mutant an id and an action; the action named there is what the mutant with that id does; the ids are consecutive, without gaps or repetition.", "quantifier": "every list of source files, every tree of supported mutations, all options, both languages", "why_tests_cant": "tests compare the JSON of a few files with an expected text; a wrong enumerator for one operator in one optimisation mode, or two swapped ranges, only shows for the programs that contain it", "anchors": ["src/libdredd/include/libdredd/protobufs/dredd.proto", "src/libdredd/src/mutation_replace_binary_operator.cc: Apply, OperatorKindToAction, ClangOperatorKindToProtobufOperatorKind", "src/libdredd/src/mutation_replace_unary_operator.cc: Apply, OperatorKindToAction, ClangOperatorKindToProtobufOperatorKind", "src/libdredd/src/mutation_replace_expr.cc: Apply, AddMutationInstance", "src/libdredd/src/mutation_remove_stmt.cc: Apply", "src/libdredd/src/mutate_ast_consumer.cc: ApplyMutations", "src/dredd/src/main.cc: 174-191"]}
{"id": "C61", "title": "The inserted functions, read as text, are well typed and fit the calls", "statement": "Every function definition behind the prelude of a mutated file, read from its text, is well typed: its parameter and result types are types of the language, parameter names differ, every returned expression is typed by the rules of the language (assignments and increments only to modifiable objects, literals of the right kind) and convertible or bindable to the result type, the queries of the prelude get integers and are not shadowed, and the last statement returns. For every instrumented point these definitions include the functions called there; each operand can be passed to its parameter, and the result has the type of the original expression and is an object wherever the original is.", "quantifier": "every tree of mutations of a well-typed program, C, C++ before and since C++17, all options, every first id", "why_tests_cant": "whether the output compiles depends on the combination of operator, operand types, qualifiers, value category, side effects and language; tests compile a few of the many thousand combinations", "anchors": ["src/libdredd/src/mutation_replace_binary_operator.cc: GenerateMutatorFunction, Apply", "src/libdredd/src/mutation_replace_unary_operator.cc: GenerateMutatorFunction, Apply", "src/libdredd/src/mutation_replace_expr.cc: GenerateMutatorFunction, Apply", "src/libdredd/src/mutation.cc"]}
{"id": "C62", "title": "The instrumented program is a program of the same grammar", "statement": "If the source text behind the prelude location parses according to a grammar of C or C++, then the tokens of the instrumented text are those of syntax trees of the same grammar, obtained from the original tree by putting, for every instrumented operator and expression, a call of its function with the instrumented operands as arguments (in a lambda, by address, or as they are), in C around a logical operator and its operands; and, for every statement that may be removed, a conditional statement around it or a call in front of it. Every phrase is replaced by one that may stand in the same place, so no operand is torn apart by precedence, no comma expression becomes two arguments, and no else is attached to another if. In a mutated file this text follows, token by token, the text before the prelude location, the prelude and the function definitions of C59.", "quantifier": "every grammar with the rules of C or C++ that are used, every parsed source text and every set of instrumented points in it, all options, every first id; provided no word or literal comes just before an instrumented operator or statement and no instrumented statement begins just where another one ends (C58, C30 show that it fails otherwise), and conversions recorded in initialiser lists occur only in C++", "why_tests_cant": "precedence, nesting and gluing of tokens depend on all combinations of surrounding operators, white space, comments and mutated points; tests compile some outputs", "anchors": ["src/libdredd/src/mutation_replace_binary_operator.cc: Apply, ReplaceOperator", "src/libdredd/src/mutation_replace_unary_operator.cc: Apply", "src/libdredd/src/mutation_replace_expr.cc: Apply, AddMacroIdentifierWhitespace", "src/libdredd/src/mutation_remove_stmt.cc: Apply", "src/libdredd/src/mutate_ast_consumer.cc: HandleTranslationUnit"]}
{"id": "C63", "title": "What the text of the output means", "statement": "Read as C or C++, the text that is written for a mutated file means the instrumented program: the trees whose tokens it has (C62), with calls resolved to the functions that are read from the generated definitions (C59, C22) and the queries and records answered by the prelude, run as the source program does in which every instrumented operator, expression and statement behaves as its function says. Hence the text behaves as the original program when no mutant of the file is enabled, as the mutant that is meant when some are, and the text of a tracking run behaves as that of a mutating run with nothing enabled (up to the recording).", "quantifier": "every semantics of C or C++ that has the usual meaning for the constructs that are inserted (calls by value, by reference, of function objects and through addresses, conversions, conditional and compound statements, logical operators) and is compositional; every source text that parses and elaborates to a program, every machine, every prelude that does what C09 and C12 say, all options, first ids, inputs and numbers of steps; under the conditions of C62 and C22, and of C18, C50 and C19 for the consequences", "why_tests_cant": "the meaning of the output has to be the same in every context and for every input; tests run some outputs on some inputs", "anchors": ["src/libdredd/src/mutation_replace_binary_operator.cc: Apply, GenerateMutatorFunction", "src/libdredd/src/mutation_replace_unary_operator.cc: Apply, GenerateMutatorFunction", "src/libdredd/src/mutation_replace_expr.cc: Apply, GenerateMutatorFunction", "src/libdredd/src/mutation_remove_stmt.cc: Apply", "src/libdredd/src/mutate_ast_consumer.cc: HandleTranslationUnit"]}
{"id": "C64", "title": "The prelude read back from its text", "statement": "The text of the prelude that is written before the generated functions, put through the preprocessor and read as C or C++ (directives, tokens, declarations, operator precedence, statements, names resolved to declared variables of the right type and to library functions), is a program, whichever platform macros are defined. Run in an environment in which DREDD_ENABLED_MUTATION lists some integers, calls of its function made by a thread in any number and order return, and tell exactly whether the id is listed; for a tracking run, calls append to the tracking file the ids of the group, once per group and thread. Together with C63 the whole output text, prelude included, behaves as the original program, as the selected mutant, or (tracking) as the original apart from recording.", "quantifier": "every language, option set, first id, number of mutants (up to 2^31 for a mutating run), every definition of the macros that are tested, environment, sequence of calls, and for whole files all that C63 quantifies over", "why_tests_cant": "the prelude is a text that depends on numbers, options and macros; a test compiles it for a few of these on one platform", "anchors": ["src/libdredd/src/mutate_ast_consumer.cc: GetDreddPreludeCpp, GetRegularDreddPreludeCpp, GetMutantTrackingDreddPreludeCpp, GetDreddPreludeC, GetRegularDreddPreludeC, GetMutantTrackingDreddPreludeC"]}
{"id": "C65", "title": "The prelude stands on its own and leaves the rest of the file alone", "statement": "Every name that the text of the prelude uses is a keyword, is declared by the prelude, or is declared by a header that the prelude includes, as promised by the C and C++ standards, whichever platform macros are defined. At file scope the prelude and the generated functions declare only names that begin with __dredd_. The directives of the prelude do not change the tokens of the program behind it.", "quantifier": "every language, option set, first id, number of mutants, every definition of the macros that are tested, every program behind the prelude", "why_tests_cant": "tests compile the output with one standard library, whose headers happen to include each other, on one platform, and for programs that do not use the words concerned", "anchors": ["src/libdredd/src/mutate_ast_consumer.cc: kDreddPreludeHeadersCpp, kDreddPreludeHeadersC, GetRegularDreddPreludeCpp, GetMutantTrackingDreddPreludeCpp, GetRegularDreddPreludeC, GetMutantTrackingDreddPreludeC"]}
{"id": "C66", "title": "Enabling a statement removal is deleting the statement", "statement": "With any set of mutants enabled, the mutated program behaves exactly as the program from whose text the statements whose removal is enabled have been deleted (with the other enabled mutants applied to the rest), whatever else the program does: loops, jumps, exceptions, destructors, recursion. In particular no part of a removed statement is ever executed.", "quantifier": "every program, set of enabled mutants, input and number of steps", "why_tests_cant": "tests remove single statements in small functions; a removed statement may be entered in other ways than from its beginning", "anchors": ["src/libdredd/src/mutation_remove_stmt.cc: Apply", "src/libdredd/src/mutate_visitor.cc: TraverseCompoundStmt", "src/libdredd/include/libdredd/protobufs/dredd.proto: MutationRemoveStmt"]}
{"id": "C67", "title": "Mutants that a tracking run does not record make no difference to it", "statement": "If a run of the program built for coverage tracking ends (normally or not) and its coverage file contains none of a set of mutants, then the mutating build with exactly these mutants enabled can run from the same state in exactly the same way: same result, same output. So mutants missing from the coverage file of a test need not be run on that test.", "quantifier": "every program, input, set of mutants and number of steps", "why_tests_cant": "tests compare coverage files of a few runs; the claim relates two different instrumentations of every program on every input", "anchors": ["src/libdredd/src/mutate_ast_consumer.cc: GetDreddPreludeC/Cpp (tracking)", "src/libdredd/src/mutation_replace_binary_operator.cc: HandleCLogicalOperator, GenerateMutatorFunction", "src/libdredd/src/mutation_remove_stmt.cc: Apply"]}
{"id": "C68", "title": "Several mutated files in one program", "statement": "The files of one run of the tool have disjoint, consecutive blocks of ids. When they are linked into one program, each with its own prelude and all reading the same environment variable, the program behaves exactly like the mutant in which every point, in whichever file, does what the mutation information says for the listed ids; if none of the listed integers is an id of the run, it behaves like the original (under the conditions of C18).", "quantifier": "every list of files, every program made of points in their blocks, every value of the environment variable, every input and number of steps", "why_tests_cant": "tests mutate one or two small files; independence of the preludes must hold for every number of files and every interleaving of queries", "anchors": ["src/libdredd/src/mutate_ast_consumer.cc: HandleTranslationUnit, GetDreddPreludeC, GetDreddPreludeCpp", "src/libdredd/src/new_mutate_frontend_action_factory.cc"]}
{"id": "C69", "title": "Coverage tracking over several files", "statement": "When the files of one run are built for coverage tracking and linked, all writing to one coverage file, the program behaves like the one mutated without tracking with no mutant enabled; and mutants of any of the files that are missing from the coverage file of a run make no difference to that run (as C67).", "quantifier": "every list of files, every program made of points in their blocks, every set of mutants, every input and number of steps", "why_tests_cant": "needs all programs and all sets of mutants across files", "anchors": ["src/libdredd/src/mutate_ast_consumer.cc: GetMutantTrackingDreddPreludeC, GetMutantTrackingDreddPreludeCpp"]}
{"id": "C70", "title": "What a run of the program reports, whatever its inputs are", "statement": "A run of the program on any list of inputs (parsed files, files without a compile command, compile commands that fail early) ends normally: exit status 1 if there were errors, else 2 if a file was skipped, else 0; it lists the files with errors, sorted, once each; mutation information is written exactly if requested; inputs that could not be parsed have no influence on the mutated sources or the information.", "quantifier": "every list of inputs, with and without assertions", "why_tests_cant": "tests run the tool on inputs that are all parsed; all combinations of failures matter", "anchors": ["src/dredd/src/main.cc: main", "src/dredd/src/log_failed_files_diagnostic_consumer.cc: HandleDiagnostic"]}
{"id": "C71", "title": "Integer programs: correct static types suffice", "statement": "Take the integer arithmetic of C or C++ (any widths, integer promotion, usual conversions, undefined overflow and division). If the types that the tool records at its instrumentation points are the static types of the expressions, then in C a program with none of its mutants enabled has exactly the behaviours of the original; in C++ it only has behaviours of the original, provided that in C++17 the operands of shifts and assignments do not influence each other unless their order is kept; and with any set of mutants enabled it behaves exactly like the mutant described. In all of these programs every expression only has values of its static type.", "quantifier": "every integer program (functions, recursion, loops, jumps), every platform's integer types, every set of enabled mutants, every start state", "why_tests_cant": "tests fix a platform and a few programs; conversions between recorded types matter for all values of all types", "anchors": ["src/libdredd/src/mutation_replace_binary_operator.cc: GenerateMutatorFunction, Apply", "src/libdredd/src/mutation_replace_unary_operator.cc: Apply", "src/libdredd/src/mutation_replace_expr.cc: Apply"]}
{"id": "C72", "title": "Operands passed in lambdas", "statement": "In C++ an operand with side effects, and the right operand of && and ||, is passed to the generated function in a lambda with its own return statement. Whatever a lambda does to its operand, the instrumented program behaves exactly like the mutant (or, with no mutant enabled, the original) whose operands are in such lambdas. It behaves like the mutant or the original itself as long as operands in lambdas create no temporary objects with destructors and contain no return statements; functions called by the operands may create temporaries.", "quantifier": "every program, every set of enabled mutants, every behaviour of destructors and exceptions", "why_tests_cant": "tests look at results, not at the moments when temporaries are destroyed, and use few kinds of operands", "anchors": ["src/libdredd/src/mutation_replace_binary_operator.cc: ReplaceOperator", "src/libdredd/src/mutation_replace_unary_operator.cc: Apply", "src/libdredd/src/mutation_replace_expr.cc: ReplaceExprWithFunctionCall"]}
{"id": "C73", "title": "Sources that cannot be written", "statement": "If a mutated source file cannot be written, the other files still get the contents they would have had, the exit status is 1 and the file is listed as failed; the mutation information lists exactly the files that were modified. If every mutated file can be written, nothing is different from C70.", "quantifier": "every list of inputs, every set of options, every set of files that can be written, with and without assertions", "why_tests_cant": "tests run on writable directories only", "anchors": ["src/libdredd/src/mutate_ast_consumer.cc: HandleTranslationUnit", "src/dredd/src/main.cc: main", "src/dredd/src/log_failed_files_diagnostic_consumer.cc: HandleDiagnostic"]}
{"id": "C74", "title": "Command line options", "statement": "--only-track-mutant-coverage, --dump-asts, --show-ast-node-types and --mutation-info-file make no difference to the exit status, the files listed as failed and the names of the files that are overwritten. --dump-asts makes no difference to contents either. The mutation information is the same for all of them, and there is none without --mutation-info-file, which changes nothing else. --show-ast-node-types only adds comments to the files that are written, and leaves their tokens as they are.", "quantifier": "every list of inputs, every combination of options", "why_tests_cant": "tests use a few combinations of options on a few files", "anchors": ["src/dredd/src/main.cc: main", "src/libdredd/include/libdredd/options.h: Options", "src/libdredd/src/mutation_replace_binary_operator.cc: ReplaceOperator", "src/libdredd/src/mutation_replace_expr.cc: ReplaceExprWithFunctionCall", "src/libdredd/src/mutation_remove_stmt.cc: Apply"]}
{"id": "C75", "title": "Optimisation only leaves things out", "statement": "With optimisation on, the points where a file is mutated are some of those found with --no-mutation-opts, in the same order, and each such point offers some of the same replacements, in the same order. So a run with optimisation has the same exit status and lists the same failed files as one without, overwrites no further files, and its mutation information describes some of the same files, each with no more mutants. Provided that no declaration inside an expression that optimisation leaves out begins where an expression outside of it begins; without that, there is a file for which the first statement is false.", "quantifier": "every syntax tree, every list of inputs, every combination of options", "why_tests_cant": "tests compare the two settings for a few files, and look at the text that comes out", "anchors": ["src/libdredd/src/mutate_visitor.cc: TraverseStmt, TraverseCompoundStmt, VisitVarDecl, VisitExpr, VisitUnaryOperator, VisitBinaryOperator", "src/libdredd/src/mutate_ast_consumer.cc: HandleTranslationUnit", "src/dredd/src/main.cc: main", "src/libdredd/src/mutation_replace_expr.cc", "src/libdredd/src/mutation_replace_binary_operator.cc", "src/libdredd/src/mutation_replace_unary_operator.cc"]}
{"id": "C76", "title": "Expressions left out by optimisation have another point instead", "statement": "If an expression is replaced without optimisation but not with it, it is in a statement without side effects, or is a pair of parentheses (or clang's node for cleanups), or is the operand of a cast that does not change the value category, or is itself a statement. In the second case the expression inside is replaced with optimisation, and the same is offered for it; in the third case the outermost cast is replaced; in the last case the statement can be removed.", "quantifier": "every syntax tree, every expression in it", "why_tests_cant": "tests check the mutants of a few expressions, not that dropped ones have a substitute in every context", "anchors": ["src/libdredd/src/mutate_visitor.cc: VisitExpr, HandleExpr, TraverseCompoundStmt", "src/libdredd/src/mutation_replace_expr.cc: CanMutateLValue"]}
{"id": "C77", "title": "Parentheses do not expose what must not be replaced", "statement": "A null pointer constant that is converted to a pointer is never replaced, and neither is an expression that refers to a temporary object, whether there are parentheses or not.", "quantifier": "every syntax tree, every expression in it, with and without optimisation", "why_tests_cant": "tests have such expressions without parentheses only", "anchors": ["src/libdredd/src/mutate_visitor.cc: HandleExpr, MayDependOnLifetimeOfMaterializedTemporaryStorage", "src/libdredd/include/libdredd/util.h: GetFirstParentOfType"]}
{"id": "C78", "title": "The prelude is put at the first placeholder, and before everything that uses it", "statement": "The prelude and the definitions are inserted where the first function called __dredd_prelude_start of the main file begins, or at the beginning of the file if there is none. The text in front of that location is kept unchanged and nothing in front of it uses what is defined there.", "quantifier": "every syntax tree with any number of placeholder functions anywhere, both languages, with and without optimisation, every file", "why_tests_cant": "one test has one placeholder in front of the only mutated function", "anchors": ["src/libdredd/src/mutate_visitor.cc: TraverseDecl", "src/libdredd/src/mutate_ast_consumer.cc: HandleTranslationUnit (dredd_prelude_start_location)"]}
{"id": "C79", "title": "Every constant that is needed at compile time is rewritten", "statement": "The sizes of every constant-sized C++ array that is declared as variable or member, the integer template arguments (nested to any depth) in the type of every variable that is a template specialisation, and the arguments of __builtin_frame_address are replaced by literals for their values, and the condition of every static assertion by 1, wherever they are in the main file in code that is looked at. Constants that are rewritten with optimisation are rewritten without it.", "quantifier": "every syntax tree, every place in it, every constant", "why_tests_cant": "syntax trees nest without limit; a constant that is forgotten in some place makes the mutated file fail to compile", "anchors": ["src/libdredd/src/mutate_visitor.cc: TraverseDecl, TraverseVarDecl, TraverseStmt, SaveConstantTemplateArgumentForRewrite", "src/libdredd/src/mutate_ast_consumer.cc: RewriteExpressionsInMainFile"]}
{"id": "C80", "title": "Files are mutated independently of each other", "statement": "How a file is mutated depends on the other files of the run in one number only, the number of mutants in the files before it: this number is written in one place of the text, and is added to the ids in the entry of the mutation information; everything else (whether the file is written, its number of mutants, the rest of the text, points and actions of the entry) is determined by the file and the options. Giving further files changes nothing for those before them, and giving files with different names in another order gives as many mutants.", "quantifier": "every file, all options, all files before and behind it in the run", "why_tests_cant": "runs over all combinations of files would have to be compared; tests have runs with one or two files", "anchors": ["src/libdredd/src/new_mutate_frontend_action_factory.cc: Run, mutation_id_", "src/libdredd/src/mutate_ast_consumer.cc: HandleTranslationUnit, ApplyMutations, GetRegularDreddPreludeCpp", "src/libdredd/src/mutation_replace_expr.cc: Apply (mutation_id - first_mutation_id_in_file)"]}
{"id": "C81", "title": "Relational operators on floating-point numbers: dropped mutants are subsumed by kept ones", "statement": "For every relational operator on floating-point operands, every mutant that optimisation drops (except the replacement by an operand) is killed by all operands that kill a certain kept mutant of the expression, also if an operand is infinite, a zero with a sign, or not a number so that the operands do not compare.", "quantifier": "all floating-point operands, all six operators, both languages", "why_tests_cant": "all operand values; not-a-number breaks the trichotomy on which the choice of kept operators rests", "anchors": ["src/libdredd/src/mutation_replace_binary_operator.cc: IsRedundantReplacementForBooleanValuedOperator", "src/libdredd/src/mutation_replace_expr.cc: IsBooleanReplacementRedundantForBinaryOperator, IsRedundantOperatorInsertionBeforeBinaryExpr"]}
{"id": "C82", "title": "Floating-point arithmetic: dropped mutants equal a kept mutant or the original", "statement": "When optimisation drops a replacement of an arithmetic operator on floating-point numbers or of one of its operands, an inserted minus sign, a constant, or a mutant of a minus sign, because of operands that are the constants 0.0, 1.0 or -1.0, the dropped mutant yields the same value as a certain mutant still offered for the expression or as the original.", "quantifier": "every floating-point type (any set of magnitudes and any rounding), all operand values including infinities, signed zeros and not-a-number", "why_tests_cant": "all operand values and formats", "anchors": ["src/libdredd/src/mutation_replace_binary_operator.cc: IsRedundantReplacementForArithmeticOperator, GenerateArgumentReplacement", "src/libdredd/src/mutation_replace_expr.cc: IsRedundantUnaryMinusInsertion, GenerateFloatConstantReplacement", "src/libdredd/src/mutation_replace_unary_operator.cc: IsRedundantReplacementOperator, IsOperatorSelfInverse", "src/libdredd/src/mutate_visitor.cc: HandleBinaryOperator, HandleUnaryOperator"]}
{"id": "C83", "title": "A call that replaces an expression does not merge with the word before it", "statement": "When an expression is replaced by a call of a mutator function, the text inserted before it begins with a space exactly if the character before the expression in the file is a letter, a digit or an underscore; and the tokens of the file up to the expression stay as they are, the inserted text being read on its own, also if a keyword, identifier or macro name ends directly before the expression.", "quantifier": "every source text, every expression that begins with a token (before which no literal, and no number that ends in a full stop or sign, ends directly), both languages, all options", "why_tests_cant": "all texts before an expression", "anchors": ["src/libdredd/src/mutation_replace_expr.cc: PrecedingCharacterIsIdentifierCharacter, ReplaceExprWithFunctionCall"]}
{"id": "C84", "title": "From a mutant id to the code that is shown for it", "statement": "For every mutant id of a run, the query script, given the mutation information file and the original files, shows the text of a statement or expression of one of the files and the change: the removal, the operator inserted before or written instead, or the operand or constant put in its place, with the operands' own text; and it is this statement or expression to which the mutation with that id was applied in the written file.", "quantifier": "every list of parsed files, every id, all options, both languages, all prefixes", "why_tests_cant": "all programs, layouts and ids; it links the numbering, the visitor, the recorded ranges, the protobuf file and the script", "anchors": ["scripts/query_mutant_info.py: show_info_for_mutant, get_text_for_ast_node", "src/libdredd/src/util.cc: InfoForSourceRange", "src/libdredd/src/mutation_replace_expr.cc: Apply", "src/libdredd/src/mutation_remove_stmt.cc: Apply"]}
{"id": "C85", "title": "What the query script prints, and its exit status", "statement": "On the mutation information of a run with N mutants, --largest-mutant-id prints N-1 and exits with 0, whatever else is given; otherwise, without an id, without the path prefixes, or with an id outside [0,N), the script prints the respective message and exits with 1; and for every id in [0,N), with the prefixes of the mutated and original files, it prints what kind of mutation this is, the file relative to the prefix, the lines and columns where the statement or expression begins and ends in the original file, its text, and the replacement, and exits with 0.", "quantifier": "every list of parsed files, every id, all options, all combinations of arguments, all prefixes in normal form", "why_tests_cant": "all programs, layouts, ids and argument combinations", "anchors": ["scripts/query_mutant_info.py: main, show_info_for_mutant, show_info_for_replace_expr, show_info_for_replace_unary_operator, show_info_for_replace_binary_operator, show_info_for_remove_stmt"]}
{"id": "C86", "title": "The value of a statement expression", "statement": "The last statement of a statement expression ({ ... }) of builtin type, which yields its value, is never removed; and optimisation does not take it for a statement without effect: its operators are mutated.", "quantifier": "every syntax tree, both languages, with and without optimisation", "why_tests_cant": "all trees; no test in the repository has a statement expression", "anchors": ["src/libdredd/src/mutate_visitor.cc: TraverseCompoundStmt, HandleExpr"]}
{"id": "C87", "title": "Only objects that have an address are passed by address", "statement": "Whatever the instrumented code passes to an inserted function by pointer (C) or reference (C++) is an object of which the address can be taken: an l-value that is not a bit-field, not a variable declared register in C, not an element of a vector.", "quantifier": "every syntax tree whose operands are as C and C++ require, both languages, every option, every mutation and every parameter of its functions", "why_tests_cant": "all trees and mutations; the tests have some bit-fields, none has a register variable or a vector", "anchors": ["src/libdredd/src/mutate_visitor.cc: HandleUnaryOperator, HandleBinaryOperator, HandleExpr", "src/libdredd/src/mutation_replace_expr.cc: CanMutateLValue, ApplyCTypeModifiers, ApplyCppTypeModifiers"]}
{"id": "C88", "title": "Arguments of builtin functions that must be constants are not mutated", "statement": "An argument that a builtin function of the compiler requires to be an integer constant is not mutated, nor is anything in it.", "quantifier": "every syntax tree, both languages, with and without optimisation, every mutation", "why_tests_cant": "all trees; the tests call __builtin_frame_address only", "anchors": ["src/libdredd/src/mutate_visitor.cc: TraverseStmt"]}
{"id": "C89", "title": "A shown replacement reads as the operator applied to the operands", "statement": "The replacement text that query_mutant_info.py prints for a mutant that changes or inserts an operator is, by the grammar of C and C++, that operator applied to the operands of the original expression, each possibly in parentheses.", "quantifier": "every run of the tool, every mutant id, all source texts with well-formed expressions, single-line and multi-line operands", "why_tests_cant": "all operand texts; whether parentheses are needed depends on the operand and the operator", "anchors": ["scripts/query_mutant_info.py: parenthesise_if_needed", "scripts/query_mutant_info.py: show_info_for_replace_expr", "scripts/query_mutant_info.py: show_info_for_replace_unary_operator", "scripts/query_mutant_info.py: show_info_for_replace_binary_operator"]}
{"id": "C90", "title": "The tree of the mutation information is nested like the code", "statement": "In the tree that the nodes of the mutation information form, a mutation is below another exactly if it changes something inside what the other changes in the source, and two mutations share a node exactly if they are mutations of the same expression (or removals of the same statement).", "quantifier": "every syntax tree, every language and option, every first id", "why_tests_cant": "all syntax trees; the tree is built by pushing nodes while visiting, then pruned, compressed and written out with node numbers", "anchors": ["src/libdredd/src/mutate_visitor.cc: TraverseStmt", "src/libdredd/src/mutate_visitor.cc: TraverseCompoundStmt", "src/libdredd/src/mutation_tree_node.cc: TidyUp", "src/libdredd/src/mutate_ast_consumer.cc: ApplyMutations"]}
{"id": "C91", "title": "The mutants in an expression or statement have consecutive ids", "statement": "For every expression and statement of the source, the ids of the mutants of it and of everything inside it, as reported in the mutation information, are consecutive numbers.", "quantifier": "every syntax tree, every place in it, every language and option, every first id", "why_tests_cant": "all syntax trees and places", "anchors": ["src/libdredd/src/mutate_visitor.cc: TraverseStmt", "src/libdredd/src/mutate_visitor.cc: TraverseCompoundStmt", "src/libdredd/src/mutate_ast_consumer.cc: ApplyMutations"]}
{"id": "C92", "title": "The ranges of mutations are disjoint or nested, and the ids follow the text", "statement": "Of two mutations in a file, the one with the smaller ids has a source range that is entirely to the left of the range of the other or inside it; ranges never overlap in part. In the tree of the mutation information, what is below a mutation lies inside its range, what shares a node has the same range, and all other pairs have disjoint ranges. The ids of the mutants whose ranges lie inside the range of a mutation are consecutive.", "quantifier": "every source text with a syntax tree that lies over it, every language and option, every first id", "why_tests_cant": "all source texts and syntax trees, all pairs of mutations", "anchors": ["src/libdredd/src/mutate_visitor.cc: TraverseStmt", "src/libdredd/src/mutate_visitor.cc: TraverseCompoundStmt", "src/libdredd/src/mutate_ast_consumer.cc: ApplyMutations"]}
