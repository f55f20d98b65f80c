# Formal model of dredd: design

The subject is `mc-imperial/dredd` (`/repo`), a tool that rewrites C and C++
sources so that many mutants live in one program and are switched on by an
environment variable.  This directory holds a Lean 4 model of the tool, of the
code the tool generates, and machine-checked theorems about both.

## Layout

* `properties.jsonl` – the claims, in English.
* `lean/Verif/Model/*` – the model, function by function; each definition cites
  the file and lines in `/repo` it models.
* `lean/Verif/Sem/*` – what the generated C/C++ means (value, order of
  evaluation, undefined behaviour).
* `lean/Verif/Spec/*` – small specifications that do not mention the model.
* `lean/Verif/Proofs/*` – helper lemmas.
* `lean/Verif/Props/*` – one file per property or group of properties: the
  theorems (named after the property) and, beside each, an `example` that
  meets its hypotheses.
* `MANIFEST.json` – property → status → theorem names.
* `seeded/LOG.jsonl` – wrong programs tried against the theorems.

## Modelling decisions

* Text is `List Char`.  The model produces the exact text the tool writes and
  this is compared with the expected outputs of the repository's own tests
  with `#guard` in `Verif/Tests` (tests of fidelity only, not counted as proofs):
  91 of the 153 files of `test/single_file`, with and without optimisations, and both
  through the edit model and through the rewrite buffer model.  (All 153 were
  compared; the larger ones are left out to keep the sources small.)
* What the tool asks clang about an expression (type, l-value, constant value,
  `HasSideEffects`, parents, ranges) is a record (`ExprInfo`, sites).  The
  theorems hold for every value of the record; facts about clang that a theorem
  needs are explicit hypotheses.
* Generated mutator functions are lists of lines (quick check, guarded returns,
  record call, final return) with two interpretations: `render` (the text) and
  `exec` (the meaning), so text and meaning come from the same object.
* Undefined behaviour is a separate outcome.
* Clang's `Rewriter` is external.  It is modelled by its documented behaviour
  (insert before / insert after / replace at original offsets).

## Properties

| id | how it is modelled and proved |
|----|-------------------------------|
| C01 | `applyTree`/`runFiles`: ids of all instances are `List.range N`; induction over the tree and over the file list |
| C02 | per-file block `[first, first+n)`; local id written at every site + first = id reported |
| C03 | run with and without tracking / show-ast / dump: equal infos, equal local ids |
| C04 | `runFiles` on a list with repetitions = `runFiles` on the deduplicated list |
| C05 | failing or mutation-free units can be deleted from the list without changing anything |
| C06 | entries of the info = modified files, in order |
| C07 | `tidyUp` preserves post-order and ancestor chains, establishes the two asserted shapes, is idempotent |
| C08 | flat tree: decode (encode t) = t with zero-effect mutations dropped; parent/index properties |
| C09, C10 | prelude as a state machine over bit words; parsing of the printed list; bit test ⇔ membership |
| C11 | false: negations with witnesses; `_partial` for what holds |
| C12 | interleavings as lists of (thread, query) events; invariant by induction |
| C13–C15 | `exec` of the generated function equals the spec action selected by the least enabled offset |
| C16 | the three C logical functions composed; all operand behaviours |
| C17 | statement wrapper semantics |
| C18, C19 | big-step semantics of a small C/C++ core, instrumented program vs original |
| C20, C21 | tracking prelude, all interleavings; false when a group has no mutants: negation + `_partial` |
| C22 | function name (and parameter types) determine the text: unique decoding of names |
| C23 | sorted set of declarations; order independent of collection order |
| C24 | typing tables for operators; false for `++` on `bool` in C++ (→ `--`): negation + `_partial` |
| C25, C26 | lists of actions: no duplicates, not the original, sublist |
| C27 | kill sets over linear orders and booleans |
| C28, C29 | machine integers of every width; false for some cases: negation + `_partial` |
| C30, C31 | edits on original offsets vs structural rendering; false for touching statements: negation + `_partial` |
| C32 | location model with macro expansions |
| C33, C34 | arithmetic of snippets and of the consistency check; C34 false: negation + `_partial` |
| C35–C38 | model of `query_mutant_info.py` composed with the model of the tool |
| C39 | false for negative constants: negation + `_partial` for non-negative |
| C40, C41, C48 | visitor model over abstract syntax trees |
| C42 | evaluation traces of mutator functions |
| C43 | raw tokens after a statement; extent up to the semicolon, comments and directives |
| C44 | prefix of the run |
| C45 | the four counts |
| C46 | false for alternative spellings and for operators that come from macros: negations + `_partial`; `C46_macro` says that nothing is taken out in the latter case |
| C47 | driver model |
| C49 | parsing of the environment variable, printed lists of ids |
| C50 | instrumented program vs mutated program, small core language |
| C51, C52 | C28/C29 for signed arithmetic and for inserted operators and constants |
| C53 | the prelude as a program of a small C fragment (`MiniC`), printed and executed |
| C54 | from parsed source text (`Src`, a syntax tree with its text) to the output, composing the visitor with C30 |
| C55, C56 | exactly what the visitor mutates (`Spec/Eligible.lean`) |
| C57 | clang's rewrite buffer (text and table of deltas) against the rewriting by original offsets |
| C58 | lexer (`Spec/Lex.lean`); from the parsed source, for syntax trees over tokens (`Spec/LexSource.lean`) and with what the code reads from the text (`Spec/TextRead.lean`); false when an operator follows a keyword directly (`else++x;`): negation + `_partial` |
| C59 | reader for C function definitions (tokens of `Spec/Lex.lean`, recursive descent parser, evaluator: `Spec/CRead.lean`); text of generated functions read back and compared with `Sem/Exec.lean` |
| C60 | reader for the mutation information with the schema of dredd.proto and the JSON mapping of protobuf (`Spec/Proto.lean`); reports compared with the points and their mutants |
| C61 | types of the functions read from text (`Spec/CType.lean`, on top of the reader of C59 and the typing rules of C24) and of the calls; partial: `++` on `bool` before C++17 is excluded |
| C62 | grammars, syntax trees and parsed source text (`Spec/Grammar.lean`): the tokens of the instrumented text are those of syntax trees of the same grammar; concrete grammar in `Spec/CGrammar.lean`. Assumed: conversions recorded in initialiser lists occur only in C++ (the code prints `static_cast` without asking for the language, mutation_replace_expr.cc 603-616) |
| C63 | meanings of phrases (`Spec/CSem.lean`): any compositional semantics with the meaning of the inserted constructs that C and C++ give them; source text elaborated to programs of `Sem/Prog.lean`; the output text means the instrumented program, and so C18, C50 and C19 hold for the text. Concrete semantics in `Spec/CSemSample.lean` |
| C64 | reader for the prelude (`Spec/PreludeRead.lean`): preprocessor conditionals and includes, tokens of `Spec/Lex.lean`, precedence parser, statements, resolution of names with types; the text is read as the program of C53 (without its layout), and C63 is restated with that program in place of an assumed prelude |
| C65 | names used and declared by the prelude as read in C64, what the standards say headers declare (`Spec/Headers.lean`, only names that matter), macro replacement in the rest of the file; false for C++ (`cstdlib` is not included) and for the words that the prelude or its headers define as macros: negations + `_partial` |
| C66 | deletion of statements from programs (`Spec/Delete.lean`) against the instrumented program; false if a removed statement contains a `case` or other label |
| C67 | runs of the tracking build against runs of the mutating build (`Sem/Cov.lean`); false in C if the right operand of a logical operator does not return |
| C68 | files of one run linked into a program, one prelude each (`Sem/Linked.lean`) |
| C69 | the same with tracking preludes and one coverage file |
| C70 | `main` on arbitrary inputs (`Model/Main.lean`); false for skipped files with assertions enabled, for early failures, and for an info file that cannot be written |
| C71 | a machine for integers (`Spec/IntMachine.lean`) and typing rules; type soundness by induction on expressions gives the hypotheses of C18 and C50 |
| C72 | lambdas as a transformation of operands (`Sem/Lambda.lean`); simulation as for C50; computations that work the same on every stack of temporaries form a congruence, for which lambdas make no difference |
| C73 | a set of writable files as a parameter of the run (`Model/Write.lean`), compared with the run of C70 by an invariant; false: the mutation information also lists the files that could not be written, and with assertions the program stops |
| C74 | the options as a parameter of the run (`Model/Flags.lean`); two runs are compared step by step; comments are between a name and a parenthesis, and are lexemes of their own (`Proofs/Comments.lean`, with the lemmas for C58) |
| C75 | the visitor is run twice on the same tree, and the mutations found are compared as lists at every call (`Proofs/OptVisit.lean`); the declarations remembered by the visitor are the only thing that could let a point through with optimisation and not without, hence the condition on locations (`Spec/Optimised.lean`) |
| C76 | consequences of C55 (completeness of the visitor) for the four reasons that optimisation has; false for lvalues in parentheses, operands of casts to unsupported types, and `switch` without braces |
| C77 | consequence of C56 (soundness of the visitor) where there are no parentheses; false in parentheses |
| C78 | the notes that the visitor takes are those of the nodes it gets to, in the order of the tree (`Proofs/Records.lean`, by induction over the tree), so the first placeholder is taken; false where mutated code comes first |
| C79 | the same, for constants; completes C39 |
| C80 | edits and definitions are unchanged, and groups shifted, if the first id is; the prelude has the number in one place |
| C81 | as C27, by cases on how the operands compare, with the case that they do not |
| C82 | floating-point values with signed zeros, infinities and not-a-number, and any rounding that leaves representable numbers as they are (`Spec/Floating.lean`); as C28, C29.  False for results that are not numbers and for the signs of zeros |
| C83 | the lexer of C58; a word ends with the character that the code looks at (`Model/TextFacts.lean`) |
| C84 | ranges recorded from the text (`Spec/InfoRead.lean`), the run and the script together; false for a last token over several lines |
| C85 | the whole script (`Model/QueryMain.lean`); messages, lines and columns specified in `Spec/QuerySays.lean`; partial as C84 |
| C86 | the visitor; `Spec/UsedValue.lean` says which statements yield a value; false, with witnesses |
| C87 | the visitor and the inserted functions; `Spec/Address.lean` says what has an address; false, with witnesses |
| C88 | the visitor; `Spec/ConstArg.lean`; holds for `__builtin_frame_address` only, with a witness for others |
| C89 | the query script; `Spec/Reading.lean` (trees of the grammar of C62); holds for operators spelled with symbols, with a witness for `bitand` |
| C90 | the visitor, tidying up and numbering; `Spec/Nesting.lean` (nesting in a tree, nesting of places) |
| C91 | as C90; a place contains another if it is a prefix of it |
| C92 | as C91, for source texts as in C54 (`Spec/Source.lean`) |

## Trusted base

* Lean's kernel.  No axioms of our own; what each theorem of `MANIFEST.json` depends on is
  listed at the end (at most `propext`, `Classical.choice`, `Quot.sound`).  No `sorry`, no
  `native_decide`, no `bv_decide`, no `implemented_by`.
* The reading of the C++ code as written in the comments of the definitions in
  `Verif/Model`.  It is tested (not proved) by comparing the output of the model with the
  expected outputs of the repository (`Verif/Tests`).
* The specifications in `Verif/Spec` and the semantics in `Verif/Sem` as descriptions of C,
  C++, JSON, protobuf's JSON mapping and of what is claimed.
* External programs and libraries, which enter as data or as explicit hypotheses: clang
  (parser, syntax trees, `RecursiveASTVisitor`, constant evaluator, `Lexer`,
  `maybeExtendRange`, `Rewriter`), protobuf, Python, libc and libstdc++, the compilers for
  the output.

### What is modelled

| code | model |
|------|-------|
| `main.cc` 95-193, `new_mutate_frontend_action_factory.cc`, `log_failed_files_diagnostic_consumer.cc` | `Driver`: order of files, repeated files, failing units, id counter, mutation info file, exit code |
| `mutate_ast_consumer.cc` 76-175, 475-506 | `TransUnit`: one translation unit, `ApplyMutations`, sorted declarations, prelude location |
| `mutate_ast_consumer.cc` 177-251 | `Analyse`: rewriting of constants |
| `mutate_ast_consumer.cc` 48-74, 253-473 | `PreludeText` (text), `PreludeProg`/`MiniC` (as programs), `Prelude`, `PreludeThreads`, `Tracking` (behaviour) |
| `mutate_visitor.cc`, `mutate_visitor.h` | `Ast` (what clang says about nodes), `Visitor` |
| `mutation_tree_node.cc` | `Tree` |
| `mutation_replace_binary_operator.cc` | `Ops`, `GenBinary`, `Gen` |
| `mutation_replace_unary_operator.cc` | `Ops`, `GenUnary`, `Gen` |
| `mutation_replace_expr.cc` | `TextFacts` (lines 41-57), `GenExpr`, `Gen`, `Types` |
| `mutation_remove_stmt.cc` | `Apply`, `StmtEnd` |
| `util.cc` | `Util` (source ranges, snippets); `Types`/`Sites` (results of the constant evaluator as data) |
| `dredd.proto`, `protobuf_serialization.h` | `Sites`, `Json` |
| `scripts/query_mutant_info.py` | `Query` |
| clang's `RewriteBuffer` (not in the repository) | `Rewriter` (by offsets of the original), `RewriteBuffer` (text and deltas) |

### What is not modelled

* LLVM's reading of the command line (`main.cc` 54-107): what the options mean is modelled
  (`Model/Flags.lean`), how they are spelt is not. Messages on the standard error, the AST dump
  (`--dump-asts` only changes what is printed), creation of the temporary output.
* Clang's parser and semantic analysis: syntax trees are inputs, with the facts that the tool asks
  about (`Model/Ast.lean`); `Spec/Source.lean`, `Spec/Eligible.lean` say what is assumed about how
  trees lie over the text.
* Types other than the builtin types printed in function names (typedefs and the like are resolved by
  clang before the tool sees them).
* The scripts other than `query_mutant_info.py`, the build files, the tests.
* In the semantics (`Verif/Sem`): destructors of temporaries and statement expressions are modelled only
  for C72.  Values and memory are abstract (`Machine`); machine integers are concrete in C28, C29, C39,
  C51, C52, floating-point numbers in C81, C82 (any format and rounding; `Spec/Floating.lean`).
* In the prelude programs: memory exhaustion; C's `fopen` failing is recorded as undefined behaviour.

## Where the code violates a property

Each has a theorem with a concrete witness; the property is then proved under the condition that
excludes it (`_partial`).

1. Tracking mode calls the recorder for groups with zero mutants, which reads and writes outside of the
   array when the group is at the end of a file: `C20_empty_group_false`, `C21_empty_group_false`
   (the tool can generate such groups: `C20_empty_group_exists`); C19 excludes it.  In C the result of
   `fopen` is not checked: `C20_c_unwritable_false`.
2. Environment variable: ids far from the first id overflow (`C09_full_false`); malformed values
   enable mutants or end the program (`C11_full_false_c`, `C11_full_false_cpp`).
3. Threads: initialisations that interleave share the state of `strtok` (`C12_c_interleaved_false`); an
   exception leaves the C++ prelude half initialised (`C12_after_exception_false`).
4. C++17 evaluation order of shifts and assignments is lost, as arguments of calls are not ordered:
   `C13_shift_false`, `C13_assign_false`.
5. In C a dropped operand is still evaluated (`C14_lhs_c_false`), and for logical operators in C
   several enabled mutants of one group act together (`C15_c_logical_false`).
6. `++` on `bool` in C++ before C++17 is offered `--`, which does not compile: `C24_false`, C61.
7. Optimisations drop mutants that no kept mutant is equal to: `C28_unsigned_false`,
   `C29_unsigned_minus_false`, `C29_unsigned_not_false`, `C29_c_lnot_false`, `C29_minus_one_false`.
8. Statements that touch (`a();b();`): `C30_false`.
9. Constants that are rewritten are gone from the text (`C31_false`); negative and wide constants
   get another value (`C39_false_negative`, `C39_false_wide`).
10. `SourceRangeConsistencyCheck` accepts ranges that end on an earlier line: `C34_earlier_line_false`.
11. Query script: last tokens with line breaks (`C36_multiline_token_false`), prefixes that `pathlib`
    changes (`C38_unnormalised_false`).
12. Places that are evaluated at compile time or are outside of functions are mutated: `C40_false_removal`,
    `C40_false_sizeof`, `C40_false_alignof`, `C40_false_lambda`, `C40_false_vla`.
13. `__extension__`, `__real`, `__imag` reach code that does not support them: `C41_false`.
14. Alternative spellings of operators leave a rest (`C46_false`); operators from macros are not removed
    (`C46_false_macro`).
15. A keyword just before an operator is joined with the inserted name (`else++x;`): `C58_false`,
    `C58_source_false`.
16. The C++ prelude uses `std::getenv` without including `cstdlib` (`C65_false_getenv`); on Apple's systems
    and for Visual C++ it redefines `thread_local` for the rest of the file (`C65_false_thread_local`); the
    C prelude makes `bool`, `true`, `false` macros in programs that may use them otherwise
    (`C65_false_bool`).
17. A removed statement that contains a `case` or another label is still entered through the label, and
    the rest of it executed (`C66_false_case`).
18. In C, if the right operand of a logical operator does not return (`exit`, `longjmp`), a tracking run
    does not record the operator's mutants, although they change what the program does
    (`C67_false_c_logical`).
19. `main`: if a file has no compile command and nothing else goes wrong, `ClangTool::run` returns 2 and the
    assertion in main.cc 162 fails: the sources have been mutated, but no mutation information is written
    (`C70_false_skipped`).  If the info file cannot be opened, the exit status is 0 all the same
    (`C70_false_info`).  Files whose compile command fails before there is a main file are not listed
    (`C70_false_listed`).
20. In C++, operands in lambdas: temporary objects are destroyed at the end of the lambda instead of the end
    of the full-expression (`C72_false_temporaries`: `T(1).ok() && T(2).ok()` destroys the first object
    before it creates the second), and `return` in a statement expression leaves the lambda instead of the
    function (`C72_false_return`).
21. A source that cannot be written is still listed in the mutation information (`C73_false_info`); built
    with assertions, the program stops there and writes no mutation information at all (`C73_asserts`).
22. Optimisation leaves out parentheses, but an lvalue in parentheses is not mutated by itself, so that `++`
    and `--` are not inserted for it at all (`C76_false_lvalue`).  It leaves out operands of casts, also of
    casts that are not mutated (`C76_false_cast`), and expressions behind a label, also where they cannot
    be removed (`C76_false_case`).
23. The checks for null pointers and for references into temporary objects do not look through
    parentheses: `int *p = (0);` is mutated, which does not compile in C++ (`C77_false_null`); without optimisation
    the function for `(v()[0])` gets a reference to something that is gone (`C77_false_temporary`).
24. If mutated code comes in front of the placeholder function, it uses functions that are defined further
    down (`C78_false_before`).  (README.md says that the location is taken whether it is sensible or not.)
25. With optimisation, constants in an expression statement without side effects (a lambda that is not
    called) are left as they are, although what they are computed from may be mutated
    (`C79_false_optimised`: `const int n=3;[]{int a[n];};`); without optimisation they are rewritten.
26. Floating-point numbers: optimisation drops `x * 0.0` for `x + 0.0`, which is no number for infinite `x`,
    while the original and all kept mutants yield numbers or infinities (`C82_false_nan`); and it drops
    `x + 0.0` for `x * 0.0`, which differs from all that is kept if -0.0 counts (`C82_false_sign`; a comment in
    mutation_replace_expr.cc, 763-766, concedes the latter for inserted minus signs).
27. The query script shows too little of a statement that ends with a raw string literal over several lines
    (`C84_false`): `InfoForSourceRange` adds the length of the last token to the column where it begins.
28. Statement expressions `({ … })`: the statement that yields the value can be removed, so that the output does not
    compile (`C86_false_removed`); with optimisation a value without side effects is not mutated at all
    (`C86_false_unmutated`).
29. Variables declared `register` in C and elements of vectors are passed by pointer or reference, so that the output
    does not compile (`C87_false_register`, `C87_false_vector`).
30. Builtin functions other than `__builtin_frame_address` that require constants, such as
    `__builtin_return_address` and `__builtin_prefetch`, get mutated arguments, which do not compile (`C88_false`).
31. `query_mutant_info.py` shows the negation of `a bitand b` as `- a bitand b`, which means `(-a) bitand b`:
    operands with operators that are spelled with letters get no parentheses (`C89_false`).

In addition C27 is stated with the exceptions that `C27_bool_operands_false` and
`C27_operand_replacement_false` show to be needed.

Noted, without a theorem: `ApplyCTypeModifiers`
would write a malformed type for const operands (unreachable for well-typed programs, hypothesis
`NotConst`); `static_cast` for conversions in initialiser lists is written without asking for the
language; a local
`const int N = 5;` gets a mutated initialiser, so that `N` is no longer a constant, but labels (`case N:`),
bit-field widths, enumerators, `alignas`, array types in a `typedef`, and template arguments in the type of a
reference, pointer or array are not rewritten (C79 lists what is).

## Axioms

Computed with `#print axioms` for the theorems of `MANIFEST.json`.

**no axioms** (7): 
`C14_only`, `C14_others`, `C20_c_unwritable_false`, `C21_empty_group_false`,
`C34_earlier_line_false`, `C48_inside`, `C48_left`

**propext** (45): 
`C01_entry_unambiguous`, `C07_empty`, `C07_no_empty_subtree`, `C07_order_kept`, `C16_reported`,
`C23_prelude`, `C24_false`, `C24_operators`, `C26_c_logical`, `C27_bool_operands_false`,
`C27_operand_replacement_false`, `C28_comparison_without_mutants`, `C30_false`, `C34_accepts`,
`C36_multiline_token_false`, `C38_partial`, `C38_paths`, `C38_root_partial`,
`C38_unnormalised_false`, `C39_false_wide`, `C40_false_alignof`, `C40_false_lambda`,
`C40_false_removal`, `C40_false_sizeof`, `C40_false_vla`, `C41_false`, `C41_replacements`,
`C42_by_value`, `C43_comment_directive`, `C43_macro`, `C45_c_logical`, `C45_stmt`, `C48_removal`,
`C53_names`, `C53_text`, `C57_needs_free`, `C59_coherent`, `C61_types_unique`, `C70_false_listed`,
`C70_written`, `C73_writable`, `C76_false_lvalue`, `C79_false_optimised`, `C86_false_removed`,
`C88_false`

**propext, Quot.sound** (118): 
`C01_flat_ids_perm`, `C01_ids_are_range`, `C02_blocks_in_order`, `C03_same_info`,
`C03_same_points`, `C04_firstOcc_spec`, `C04_only_first_occurrence`, `C04_written_once`,
`C05_left_alone`, `C06_entries_are_written_files`, `C06_entries_nonempty`, `C06_processing_order`,
`C06_without_info`, `C07_ancestors_kept`, `C08_decodes`, `C11_full_false_cpp`,
`C12_after_exception_false`, `C12_c_interleaved_false`, `C15_c_logical_partial`, `C16_lhs`,
`C16_lhs_rhs`, `C16_none`, `C16_rhs`, `C16_swap`, `C17_disabled`, `C17_enabled`, `C17_tracking`,
`C20_empty_group_exists`, `C20_empty_group_false`, `C20_unset`, `C21_in_range_partial`,
`C22_bin_bin`, `C22_binary`, `C22_unary`, `C23_defined`, `C23_used`, `C24_expr`,
`C24_unary_partial`, `C25_binary_new`, `C25_distinct`, `C25_expr_changes`, `C25_unary_new`,
`C26_sublist`, `C27_c_operand_kept`, `C27_operand`, `C28_unsigned_false`, `C29_c_lnot_false`,
`C29_incdec`, `C29_minus_one_false`, `C29_unsigned_minus_false`, `C29_unsigned_not_false`,
`C31_false`, `C31_operators`, `C31_partial`, `C32_mutations`, `C33_bounded`, `C37_applies_binary`,
`C37_applies_expr`, `C37_applies_unary`, `C37_c_logical`, `C37_parentheses`,
`C37_unparenthesised`, `C38_normal_paths`, `C38_slashes`, `C39_false_negative`, `C39_once`,
`C39_only`, `C40_partial`, `C40_plain_partial`, `C41_partial`, `C42_at_most_once`, `C42_binary`,
`C42_expr`, `C42_unary`, `C44_all_or_nothing`, `C44_ids_consistent`, `C45_counter`,
`C45_function`, `C46_false`, `C46_false_macro`, `C47_reported`, `C47_reported_once`, `C48_linear`,
`C48_order`, `C52_lvalue`, `C58_false`, `C58_source_false`, `C58_text_false`, `C59_visited`,
`C60`, `C60_point`, `C60_visited`, `C61_visited_partial`, `C66_false_case`, `C67_false_c_logical`,
`C69_tracking_partial`, `C73_asserts`, `C73_asserts_writable`, `C74_dump`, `C74_info_file`,
`C74_same`, `C75_file`, `C75_points`, `C75_run`, `C76_false_case`, `C76_false_cast`,
`C78_false_before`, `C80_order`, `C80_prefix`, `C84_false`, `C86_false_unmutated`,
`C87_false_register`, `C87_false_vector`, `C88_partial`, `C89_false`, `C89_symbols`, `C91`,
`C91_run`

**propext, Classical.choice, Quot.sound** (199): 
`C02_block`, `C05_others_undisturbed`, `C07_idempotent`, `C07_no_useless_node`, `C08_well_formed`,
`C09_enabled_partial`, `C09_first_file`, `C09_full_false`, `C09_overflow`, `C10_enabled_partial`,
`C10_overflow`, `C11_c_any_text_partial`, `C11_c_later_files_partial`, `C11_cpp_any_text_partial`,
`C11_full_false_c`, `C11_throws_partial`, `C12_threads_partial`, `C13_assign_false`,
`C13_binary_exact`, `C13_binary_partial`, `C13_expr`, `C13_logical_cpp`, `C13_shift_false`,
`C13_unary`, `C14_binary_cpp`, `C14_binary_exact`, `C14_binary_partial`, `C14_expr_c`,
`C14_expr_cpp`, `C14_expr_partial`, `C14_lhs_c_false`, `C14_unary`, `C15_binary`,
`C15_c_logical_false`, `C15_expr`, `C15_unary`, `C18_original`, `C19_tracking_partial`,
`C20_calls`, `C20_during_partial`, `C20_recorded_partial`, `C22_call`, `C22_either`, `C22_expr`,
`C22_once`, `C22_same`, `C23_determined`, `C23_order_free`, `C23_output`, `C24_binary`,
`C24_c_logical`, `C24_partial`, `C27_logical`, `C27_operand_dropped`, `C27_relational`,
`C28_dropped_partial`, `C29_insertion`, `C29_operator_partial`, `C30_partial`, `C31_source`,
`C32_constants`, `C32_range`, `C33_long`, `C33_short`, `C34_offsets`, `C34_rejects_partial`,
`C35_found`, `C35_known`, `C35_largest`, `C35_unknown`, `C36_snippet`, `C36_text_partial`,
`C37_binary`, `C37_expr`, `C37_stmt`, `C37_unary`, `C39_partial`, `C42_logical_cpp`, `C43`,
`C43_nested`, `C43_source`, `C46_left_over`, `C46_macro`, `C46_partial`, `C46_source`,
`C47_exit_status`, `C49_ids`, `C50_mutant`, `C51_signed`, `C51_unsigned`, `C52_insertion`,
`C53_calls`, `C53_enabled`, `C53_recorded`, `C53_steps`, `C54`, `C55_binary`, `C55_expression`,
`C55_removal`, `C55_unary`, `C56`, `C57`, `C57_layout`, `C58_partial`, `C58_source_partial`,
`C58_text_partial`, `C58_tokens`, `C59`, `C59_binary`, `C59_expr`, `C59_function`, `C59_unary`,
`C61_partial`, `C62`, `C62_file`, `C63`, `C63_mutant`, `C63_original`, `C63_program`,
`C63_tracking`, `C64_enabled`, `C64_faithful`, `C64_mutant`, `C64_original`, `C64_recorded`,
`C64_records`, `C64_threads`, `C64_threads_recorded`, `C64_tracking`, `C65_c`, `C65_cpp_partial`,
`C65_false_bool`, `C65_false_getenv`, `C65_false_thread_local`, `C65_functions`, `C65_names`,
`C65_rest_partial`, `C66_deleted_partial`, `C67_unrecorded_partial`, `C68_blocks`, `C68_mutant`,
`C68_original`, `C69_unrecorded_partial`, `C70_false_info`, `C70_false_skipped`,
`C70_reports_partial`, `C71_mutant`, `C71_original_c`, `C71_original_cpp`, `C71_types`,
`C72_false_return`, `C72_false_temporaries`, `C72_mutant`, `C72_mutant_partial`,
`C72_no_temporaries`, `C72_original_partial`, `C73_false_info`, `C73_release`, `C74_comments`,
`C74_tokens`, `C76_block_partial`, `C76_cast_partial`, `C76_enclosed_partial`, `C76_why`,
`C77_false_null`, `C77_false_temporary`, `C77_partial`, `C78_before_partial`, `C78_marker`,
`C78_start`, `C79_assert`, `C79_constant`, `C79_optimised`, `C80`, `C80_file`, `C81_relational`,
`C82_dropped_partial`, `C82_false_nan`, `C82_false_sign`, `C82_insertion`, `C82_minus`, `C83`,
`C83_source`, `C84_listed`, `C84_partial`, `C85_error`, `C85_largest`, `C85_partial`,
`C86_partial`, `C87_partial`, `C89_binary_partial`, `C89_insert_partial`, `C89_unary_partial`,
`C90`, `C90_run`, `C92`, `C92_consecutive`, `C92_run`, `C92_tree`
