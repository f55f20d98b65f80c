/-
The functions of the preludes as programs of `MiniC`:
mutate_ast_consumer.cc 278-343, 355-371, 403-438, 450-464.
-/
import Verif.Model.MiniC

namespace Dredd.MiniC

/-- `static_cast<uint64_t>(1)` (mutate_ast_consumer.cc 319, 341) or
`(uint64_t) 1` (424, 436). -/
def oneU64 (cpp : Bool) : Expr := .call (if cpp then .castCpp else .castC) (.num 1)

/-- `(1 << (x % 64))` as in mutate_ast_consumer.cc 318-320 and elsewhere. -/
def bitOf (cpp : Bool) (x : Var) : Expr :=
  .par (.bin .shl (oneU64 cpp) (.par (.bin .mod (.var x) (.num 64))))

/-- The literal for true (mutate_ast_consumer.cc 278, 322) or 1 (403, 426). -/
def yes (cpp : Bool) : Expr := if cpp then .tt else .num 1

/-- The literal for false (mutate_ast_consumer.cc 280, 287) or 0 (405, 409). -/
def no (cpp : Bool) : Expr := if cpp then .ff else .num 0

/-- mutate_ast_consumer.cc 308-323, 420-427. -/
def enableStmts (cpp : Bool) (first n : Nat) : Stmt :=
  block [
    .decl t!"int" .localValue (.bin .sub (.var .value) (.num first)),
    .ite (.bin .land (.bin .ge (.var .localValue) (.num 0)) (.bin .lt (.var .localValue) (.num n)))
      (block [
        .orSet .bitset (.bin .div (.var .localValue) (.num 64)) (bitOf cpp .localValue),
        .set .some_ (yes cpp)])]

/-- The body of the C++ parsing loop (mutate_ast_consumer.cc 295-330). -/
def roundCpp (first n : Nat) : Stmt :=
  block [
    .decl t!"size_t" .pos (.find .contents ','),
    .decl t!"std::string" .token
      (.par (.cond (.bin .eq (.var .pos) .npos) (.var .contents) (.substr .contents 0 (.var .pos)))),
    .ite (.not (.empty .token))
      (.seq (.decl t!"int" .value (.call .stoi (.var .token))) (enableStmts true first n)),
    .ite (.bin .eq (.var .pos) .npos) (block [.brk]),
    .expr (.erase .contents 0 (.bin .add (.var .pos) (.num 1)))]

/-- The body of the C parsing loop (mutate_ast_consumer.cc 419-428). -/
def roundC (first n : Nat) : Stmt :=
  .seq (.decl t!"int" .value (.call .atoi (.var .token)))
    (.seq (enableStmts false first n) (block [.set .token (.strtok none ',')]))

/-- `DREDD_ENABLED_MUTATION` (mutate_ast_consumer.cc 289, 411). -/
def enabledName : Text := t!"DREDD_ENABLED_MUTATION"

/-- `DREDD_MUTANT_TRACKING_FILE` (mutate_ast_consumer.cc 362, 456). -/
def trackName : Text := t!"DREDD_MUTANT_TRACKING_FILE"

/-- `__dredd_enabled_mutation` of the C++ prelude (mutate_ast_consumer.cc
278-343). -/
def enabledCpp (first n : Nat) : Fun where
  outer := [.scalar 0 t!"static thread_local bool" .globalSome .tt]
  head := t!"static bool __dredd_enabled_mutation"
  params := [.localId]
  inner := [.scalar 1 t!"static thread_local bool" .initialized .ff,
    .array 1 t!"static thread_local uint64_t" .bitset ((n + 63) / 64) false]
  body := block [
    .ite (.not (.var .initialized)) (block [
      .decl t!"bool" .some_ .ff,
      .decl t!"const char*" .envVar (.call .getenvCpp (.lit enabledName)),
      .ite (.bin .ne (.var .envVar) .null) (block [
        .ctor t!"std::string" .contents (.var .envVar),
        .while_ true .tt (roundCpp first n)]),
      .set .initialized .tt,
      .set .globalSome (.var .some_)]),
    .ret (.bin .ne
      (.par (.bin .band (.idx .bitset (.bin .div (.var .localId) (.num 64))) (bitOf true .localId)))
      (.num 0))]

/-- `__dredd_enabled_mutation` of the C prelude (mutate_ast_consumer.cc
403-438). -/
def enabledC (first n : Nat) : Fun where
  outer := [.scalar 0 t!"static thread_local int" .globalSome (.num 1)]
  head := t!"static bool __dredd_enabled_mutation"
  params := [.localId]
  inner := [.scalar 1 t!"static thread_local int" .initialized (.num 0),
    .array 1 t!"static thread_local uint64_t" .bitset ((n + 63) / 64) false]
  body := block [
    .ite (.not (.var .initialized)) (block [
      .decl t!"int" .some_ (.num 0),
      .decl t!"const char*" .envVar (.call .getenvC (.lit enabledName)),
      .ite (.var .envVar) (block [
        .decl t!"char*" .temp (.call .malloc (.bin .add (.call .strlen (.var .envVar)) (.num 1))),
        .expr (.strcpy .temp (.var .envVar)),
        .declare t!"char*" .token,
        .set .token (.strtok (some .temp) ','),
        .while_ false (.var .token) (roundC first n),
        .expr (.call .free (.var .temp))]),
      .set .initialized (.num 1),
      .set .globalSome (.var .some_)]),
    .ret (.bin .band (.idx .bitset (.bin .div (.var .localId) (.num 64))) (bitOf false .localId))]

/-- `first + local_mutation_id + i` (mutate_ast_consumer.cc 368-369, 460-461). -/
def trackedId (first : Nat) : Expr :=
  .bin .add (.bin .add (.num first) (.var .localId)) (.var .i)

/-- `__dredd_record_covered_mutants` of the C++ prelude (mutate_ast_consumer.cc
355-371). -/
def recordCpp (first n : Nat) : Fun where
  outer := []
  head := t!"static void __dredd_record_covered_mutants"
  params := [.localId, .numMutations]
  inner := [.array 1 t!"static std::atomic<bool>" .recorded n true]
  body := block [
    .ifRet (.exchangeCpp .recorded (.var .localId)),
    .decl t!"const char*" .trackVar (.call .getenvCpp (.lit trackName)),
    .ifRet (.bin .eq (.var .trackVar) .null),
    .declare t!"std::ofstream" .outputFile,
    .expr (.openCpp .outputFile (.var .trackVar)),
    .for_ .i (.var .numMutations) (block [.expr (.putCpp .outputFile (trackedId first))])]

/-- `__dredd_record_covered_mutants` of the C prelude (mutate_ast_consumer.cc
450-464). -/
def recordC (first n : Nat) : Fun where
  outer := []
  head := t!"static void __dredd_record_covered_mutants"
  params := [.localId, .numMutations]
  inner := [.array 1 t!"static atomic_bool" .recorded n true]
  body := block [
    .ifRet (.exchangeC .recorded (.var .localId)),
    .decl t!"const char*" .trackVar (.call .getenvC (.lit trackName)),
    .ifRet (.not (.var .trackVar)),
    .decl t!"FILE*" .fp (.fopen (.var .trackVar)),
    .for_ .i (.var .numMutations) (block [.expr (.putC .fp (trackedId first))]),
    .expr (.call .fclose (.var .fp))]

end Dredd.MiniC
