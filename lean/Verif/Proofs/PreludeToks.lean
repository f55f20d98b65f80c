/-
The tokens of the programs in the preludes.
-/
import Verif.Proofs.PreludeRead

namespace Dredd.PreludeRead

open MiniC

/-- The tokens, line by line. -/
def enabledCppToks (first n : Nat) : List (List Tok) := [
  [.word t!"static", .word t!"thread_local", .word t!"bool",
  .word t!"__dredd_some_mutation_enabled", .sym t!"=", .word t!"true", .sym t!";"],
  [.word t!"static", .word t!"bool", .word t!"__dredd_enabled_mutation", .sym t!"(",
  .word t!"int", .word t!"local_mutation_id", .sym t!")", .sym t!"{"],
  [.word t!"static", .word t!"thread_local", .word t!"bool", .word t!"initialized", .sym t!"=",
  .word t!"false", .sym t!";"],
  [.word t!"static", .word t!"thread_local", .word t!"uint64_t", .word t!"enabled_bitset",
  .sym t!"[", .num ((n + 63) / 64), .sym t!"]", .sym t!";"],
  [.word t!"if", .sym t!"(", .sym t!"!", .word t!"initialized", .sym t!")", .sym t!"{"],
  [.word t!"bool", .word t!"some_mutation_enabled", .sym t!"=", .word t!"false", .sym t!";"],
  [.word t!"const", .word t!"char", .sym t!"*", .word t!"dredd_environment_variable", .sym t!"=",
  .word t!"std", .sym t!"::", .word t!"getenv", .sym t!"(", .str t!"DREDD_ENABLED_MUTATION",
  .sym t!")", .sym t!";"],
  [.word t!"if", .sym t!"(", .word t!"dredd_environment_variable", .sym t!"!=",
  .word t!"nullptr", .sym t!")", .sym t!"{"],
  [.word t!"std", .sym t!"::", .word t!"string", .word t!"contents", .sym t!"(",
  .word t!"dredd_environment_variable", .sym t!")", .sym t!";"],
  [.word t!"while", .sym t!"(", .word t!"true", .sym t!")", .sym t!"{"],
  [.word t!"size_t", .word t!"pos", .sym t!"=", .word t!"contents", .sym t!".", .word t!"find",
  .sym t!"(", .str t!",", .sym t!")", .sym t!";"],
  [.word t!"std", .sym t!"::", .word t!"string", .word t!"token", .sym t!"=", .sym t!"(",
  .word t!"pos", .sym t!"==", .word t!"std", .sym t!"::", .word t!"string", .sym t!"::",
  .word t!"npos", .sym t!"?", .word t!"contents", .sym t!":", .word t!"contents", .sym t!".",
  .word t!"substr", .sym t!"(", .num 0, .sym t!",", .word t!"pos", .sym t!")", .sym t!")",
  .sym t!";"],
  [.word t!"if", .sym t!"(", .sym t!"!", .word t!"token", .sym t!".", .word t!"empty",
  .sym t!"(", .sym t!")", .sym t!")", .sym t!"{"],
  [.word t!"int", .word t!"value", .sym t!"=", .word t!"std", .sym t!"::", .word t!"stoi",
  .sym t!"(", .word t!"token", .sym t!")", .sym t!";"],
  [.word t!"int", .word t!"local_value", .sym t!"=", .word t!"value", .sym t!"-", .num first,
  .sym t!";"],
  [.word t!"if", .sym t!"(", .word t!"local_value", .sym t!">=", .num 0, .sym t!"&&",
  .word t!"local_value", .sym t!"<", .num n, .sym t!")", .sym t!"{"],
  [.word t!"enabled_bitset", .sym t!"[", .word t!"local_value", .sym t!"/", .num 64, .sym t!"]",
  .sym t!"|=", .sym t!"(", .word t!"static_cast", .sym t!"<", .word t!"uint64_t", .sym t!">",
  .sym t!"(", .num 1, .sym t!")", .sym t!"<<", .sym t!"(", .word t!"local_value", .sym t!"%",
  .num 64, .sym t!")", .sym t!")", .sym t!";"],
  [.word t!"some_mutation_enabled", .sym t!"=", .word t!"true", .sym t!";"],
  [.sym t!"}"],
  [.sym t!"}"],
  [.word t!"if", .sym t!"(", .word t!"pos", .sym t!"==", .word t!"std", .sym t!"::",
  .word t!"string", .sym t!"::", .word t!"npos", .sym t!")", .sym t!"{"],
  [.word t!"break", .sym t!";"],
  [.sym t!"}"],
  [.word t!"contents", .sym t!".", .word t!"erase", .sym t!"(", .num 0, .sym t!",",
  .word t!"pos", .sym t!"+", .num 1, .sym t!")", .sym t!";"],
  [.sym t!"}"],
  [.sym t!"}"],
  [.word t!"initialized", .sym t!"=", .word t!"true", .sym t!";"],
  [.word t!"__dredd_some_mutation_enabled", .sym t!"=", .word t!"some_mutation_enabled",
  .sym t!";"],
  [.sym t!"}"],
  [.word t!"return", .sym t!"(", .word t!"enabled_bitset", .sym t!"[",
  .word t!"local_mutation_id", .sym t!"/", .num 64, .sym t!"]", .sym t!"&", .sym t!"(",
  .word t!"static_cast", .sym t!"<", .word t!"uint64_t", .sym t!">", .sym t!"(", .num 1,
  .sym t!")", .sym t!"<<", .sym t!"(", .word t!"local_mutation_id", .sym t!"%", .num 64,
  .sym t!")", .sym t!")", .sym t!")", .sym t!"!=", .num 0, .sym t!";"],
  [.sym t!"}"],
  []]

theorem enabledCpp_toks (first n : Nat) : ReadAll (enabledCpp first n).lines (enabledCppToks first n) := by
  rw [enabledCpp_lines]
  unfold enabledCppToks
  refine .cons (.lit (by decide +kernel)) ?_
  refine .cons (.lit (by decide +kernel)) ?_
  refine .cons (.lit (by decide +kernel)) ?_
  refine .cons (.num
    [.word t!"static", .word t!"thread_local", .word t!"uint64_t", .word t!"enabled_bitset",
    .sym t!"["]
    [.sym t!"]", .sym t!";"]
    (by decide +kernel) rfl) ?_
  refine .cons (.lit (by decide +kernel)) ?_
  refine .cons (.lit (by decide +kernel)) ?_
  refine .cons (.lit (by decide +kernel)) ?_
  refine .cons (.lit (by decide +kernel)) ?_
  refine .cons (.lit (by decide +kernel)) ?_
  refine .cons (.lit (by decide +kernel)) ?_
  refine .cons (.lit (by decide +kernel)) ?_
  refine .cons (.lit (by decide +kernel)) ?_
  refine .cons (.lit (by decide +kernel)) ?_
  refine .cons (.lit (by decide +kernel)) ?_
  refine .cons (.num
    [.word t!"int", .word t!"local_value", .sym t!"=", .word t!"value", .sym t!"-"]
    [.sym t!";"]
    (by decide +kernel) rfl) ?_
  refine .cons (.num
    [.word t!"if", .sym t!"(", .word t!"local_value", .sym t!">=", .num 0, .sym t!"&&",
    .word t!"local_value", .sym t!"<"]
    [.sym t!")", .sym t!"{"]
    (by decide +kernel) rfl) ?_
  refine .cons (.lit (by decide +kernel)) ?_
  refine .cons (.lit (by decide +kernel)) ?_
  refine .cons (.lit (by decide +kernel)) ?_
  refine .cons (.lit (by decide +kernel)) ?_
  refine .cons (.lit (by decide +kernel)) ?_
  refine .cons (.lit (by decide +kernel)) ?_
  refine .cons (.lit (by decide +kernel)) ?_
  refine .cons (.lit (by decide +kernel)) ?_
  refine .cons (.lit (by decide +kernel)) ?_
  refine .cons (.lit (by decide +kernel)) ?_
  refine .cons (.lit (by decide +kernel)) ?_
  refine .cons (.lit (by decide +kernel)) ?_
  refine .cons (.lit (by decide +kernel)) ?_
  refine .cons (.lit (by decide +kernel)) ?_
  refine .cons (.lit (by decide +kernel)) ?_
  refine .cons (.lit (by decide +kernel)) ?_
  exact .nil

/-- The tokens, line by line. -/
def enabledCToks (first n : Nat) : List (List Tok) := [
  [.word t!"static", .word t!"thread_local", .word t!"int",
  .word t!"__dredd_some_mutation_enabled", .sym t!"=", .num 1, .sym t!";"],
  [.word t!"static", .word t!"bool", .word t!"__dredd_enabled_mutation", .sym t!"(",
  .word t!"int", .word t!"local_mutation_id", .sym t!")", .sym t!"{"],
  [.word t!"static", .word t!"thread_local", .word t!"int", .word t!"initialized", .sym t!"=",
  .num 0, .sym t!";"],
  [.word t!"static", .word t!"thread_local", .word t!"uint64_t", .word t!"enabled_bitset",
  .sym t!"[", .num ((n + 63) / 64), .sym t!"]", .sym t!";"],
  [.word t!"if", .sym t!"(", .sym t!"!", .word t!"initialized", .sym t!")", .sym t!"{"],
  [.word t!"int", .word t!"some_mutation_enabled", .sym t!"=", .num 0, .sym t!";"],
  [.word t!"const", .word t!"char", .sym t!"*", .word t!"dredd_environment_variable", .sym t!"=",
  .word t!"getenv", .sym t!"(", .str t!"DREDD_ENABLED_MUTATION", .sym t!")", .sym t!";"],
  [.word t!"if", .sym t!"(", .word t!"dredd_environment_variable", .sym t!")", .sym t!"{"],
  [.word t!"char", .sym t!"*", .word t!"temp", .sym t!"=", .word t!"malloc", .sym t!"(",
  .word t!"strlen", .sym t!"(", .word t!"dredd_environment_variable", .sym t!")", .sym t!"+",
  .num 1, .sym t!")", .sym t!";"],
  [.word t!"strcpy", .sym t!"(", .word t!"temp", .sym t!",",
  .word t!"dredd_environment_variable", .sym t!")", .sym t!";"],
  [.word t!"char", .sym t!"*", .word t!"token", .sym t!";"],
  [.word t!"token", .sym t!"=", .word t!"strtok", .sym t!"(", .word t!"temp", .sym t!",",
  .str t!",", .sym t!")", .sym t!";"],
  [.word t!"while", .sym t!"(", .word t!"token", .sym t!")", .sym t!"{"],
  [.word t!"int", .word t!"value", .sym t!"=", .word t!"atoi", .sym t!"(", .word t!"token",
  .sym t!")", .sym t!";"],
  [.word t!"int", .word t!"local_value", .sym t!"=", .word t!"value", .sym t!"-", .num first,
  .sym t!";"],
  [.word t!"if", .sym t!"(", .word t!"local_value", .sym t!">=", .num 0, .sym t!"&&",
  .word t!"local_value", .sym t!"<", .num n, .sym t!")", .sym t!"{"],
  [.word t!"enabled_bitset", .sym t!"[", .word t!"local_value", .sym t!"/", .num 64, .sym t!"]",
  .sym t!"|=", .sym t!"(", .sym t!"(", .word t!"uint64_t", .sym t!")", .num 1, .sym t!"<<",
  .sym t!"(", .word t!"local_value", .sym t!"%", .num 64, .sym t!")", .sym t!")", .sym t!";"],
  [.word t!"some_mutation_enabled", .sym t!"=", .num 1, .sym t!";"],
  [.sym t!"}"],
  [.word t!"token", .sym t!"=", .word t!"strtok", .sym t!"(", .word t!"NULL", .sym t!",",
  .str t!",", .sym t!")", .sym t!";"],
  [.sym t!"}"],
  [.word t!"free", .sym t!"(", .word t!"temp", .sym t!")", .sym t!";"],
  [.sym t!"}"],
  [.word t!"initialized", .sym t!"=", .num 1, .sym t!";"],
  [.word t!"__dredd_some_mutation_enabled", .sym t!"=", .word t!"some_mutation_enabled",
  .sym t!";"],
  [.sym t!"}"],
  [.word t!"return", .word t!"enabled_bitset", .sym t!"[", .word t!"local_mutation_id",
  .sym t!"/", .num 64, .sym t!"]", .sym t!"&", .sym t!"(", .sym t!"(", .word t!"uint64_t",
  .sym t!")", .num 1, .sym t!"<<", .sym t!"(", .word t!"local_mutation_id", .sym t!"%", .num 64,
  .sym t!")", .sym t!")", .sym t!";"],
  [.sym t!"}"],
  []]

theorem enabledC_toks (first n : Nat) : ReadAll (enabledC first n).lines (enabledCToks first n) := by
  rw [enabledC_lines]
  unfold enabledCToks
  refine .cons (.lit (by decide +kernel)) ?_
  refine .cons (.lit (by decide +kernel)) ?_
  refine .cons (.lit (by decide +kernel)) ?_
  refine .cons (.num
    [.word t!"static", .word t!"thread_local", .word t!"uint64_t", .word t!"enabled_bitset",
    .sym t!"["]
    [.sym t!"]", .sym t!";"]
    (by decide +kernel) rfl) ?_
  refine .cons (.lit (by decide +kernel)) ?_
  refine .cons (.lit (by decide +kernel)) ?_
  refine .cons (.lit (by decide +kernel)) ?_
  refine .cons (.lit (by decide +kernel)) ?_
  refine .cons (.lit (by decide +kernel)) ?_
  refine .cons (.lit (by decide +kernel)) ?_
  refine .cons (.lit (by decide +kernel)) ?_
  refine .cons (.lit (by decide +kernel)) ?_
  refine .cons (.lit (by decide +kernel)) ?_
  refine .cons (.lit (by decide +kernel)) ?_
  refine .cons (.num
    [.word t!"int", .word t!"local_value", .sym t!"=", .word t!"value", .sym t!"-"]
    [.sym t!";"]
    (by decide +kernel) rfl) ?_
  refine .cons (.num
    [.word t!"if", .sym t!"(", .word t!"local_value", .sym t!">=", .num 0, .sym t!"&&",
    .word t!"local_value", .sym t!"<"]
    [.sym t!")", .sym t!"{"]
    (by decide +kernel) rfl) ?_
  refine .cons (.lit (by decide +kernel)) ?_
  refine .cons (.lit (by decide +kernel)) ?_
  refine .cons (.lit (by decide +kernel)) ?_
  refine .cons (.lit (by decide +kernel)) ?_
  refine .cons (.lit (by decide +kernel)) ?_
  refine .cons (.lit (by decide +kernel)) ?_
  refine .cons (.lit (by decide +kernel)) ?_
  refine .cons (.lit (by decide +kernel)) ?_
  refine .cons (.lit (by decide +kernel)) ?_
  refine .cons (.lit (by decide +kernel)) ?_
  refine .cons (.lit (by decide +kernel)) ?_
  refine .cons (.lit (by decide +kernel)) ?_
  refine .cons (.lit (by decide +kernel)) ?_
  exact .nil

/-- The tokens, line by line. -/
def recordCppToks (first n : Nat) : List (List Tok) := [
  [.word t!"static", .word t!"void", .word t!"__dredd_record_covered_mutants", .sym t!"(",
  .word t!"int", .word t!"local_mutation_id", .sym t!",", .word t!"int", .word t!"num_mutations",
  .sym t!")", .sym t!"{"],
  [.word t!"static", .word t!"std", .sym t!"::", .word t!"atomic", .sym t!"<", .word t!"bool",
  .sym t!">", .word t!"already_recorded", .sym t!"[", .num n, .sym t!"]", .sym t!";"],
  [.word t!"if", .sym t!"(", .word t!"already_recorded", .sym t!"[", .word t!"local_mutation_id",
  .sym t!"]", .sym t!".", .word t!"exchange", .sym t!"(", .word t!"true", .sym t!")", .sym t!")",
  .word t!"return", .sym t!";"],
  [.word t!"const", .word t!"char", .sym t!"*", .word t!"dredd_tracking_environment_variable",
  .sym t!"=", .word t!"std", .sym t!"::", .word t!"getenv", .sym t!"(",
  .str t!"DREDD_MUTANT_TRACKING_FILE", .sym t!")", .sym t!";"],
  [.word t!"if", .sym t!"(", .word t!"dredd_tracking_environment_variable", .sym t!"==",
  .word t!"nullptr", .sym t!")", .word t!"return", .sym t!";"],
  [.word t!"std", .sym t!"::", .word t!"ofstream", .word t!"output_file", .sym t!";"],
  [.word t!"output_file", .sym t!".", .word t!"open", .sym t!"(",
  .word t!"dredd_tracking_environment_variable", .sym t!",", .word t!"std", .sym t!"::",
  .word t!"ios_base", .sym t!"::", .word t!"app", .sym t!")", .sym t!";"],
  [.word t!"for", .sym t!"(", .word t!"int", .word t!"i", .sym t!"=", .num 0, .sym t!";",
  .word t!"i", .sym t!"<", .word t!"num_mutations", .sym t!";", .word t!"i", .sym t!"++",
  .sym t!")", .sym t!"{"],
  [.word t!"output_file", .sym t!"<<", .sym t!"(", .num first, .sym t!"+",
  .word t!"local_mutation_id", .sym t!"+", .word t!"i", .sym t!")", .sym t!"<<", .str t!"\n",
  .sym t!";"],
  [.sym t!"}"],
  [.sym t!"}"],
  []]

theorem recordCpp_toks (first n : Nat) : ReadAll (recordCpp first n).lines (recordCppToks first n) := by
  rw [recordCpp_lines]
  unfold recordCppToks
  refine .cons (.lit (by decide +kernel)) ?_
  refine .cons (.num
    [.word t!"static", .word t!"std", .sym t!"::", .word t!"atomic", .sym t!"<", .word t!"bool",
    .sym t!">", .word t!"already_recorded", .sym t!"["]
    [.sym t!"]", .sym t!";"]
    (by decide +kernel) rfl) ?_
  refine .cons (.lit (by decide +kernel)) ?_
  refine .cons (.lit (by decide +kernel)) ?_
  refine .cons (.lit (by decide +kernel)) ?_
  refine .cons (.lit (by decide +kernel)) ?_
  refine .cons (.lit (by decide +kernel)) ?_
  refine .cons (.lit (by decide +kernel)) ?_
  refine .cons (.num
    [.word t!"output_file", .sym t!"<<", .sym t!"("]
    [.sym t!"+", .word t!"local_mutation_id", .sym t!"+", .word t!"i", .sym t!")", .sym t!"<<",
    .str t!"\n", .sym t!";"]
    (by decide +kernel) rfl) ?_
  refine .cons (.lit (by decide +kernel)) ?_
  refine .cons (.lit (by decide +kernel)) ?_
  refine .cons (.lit (by decide +kernel)) ?_
  exact .nil

/-- The tokens, line by line. -/
def recordCToks (first n : Nat) : List (List Tok) := [
  [.word t!"static", .word t!"void", .word t!"__dredd_record_covered_mutants", .sym t!"(",
  .word t!"int", .word t!"local_mutation_id", .sym t!",", .word t!"int", .word t!"num_mutations",
  .sym t!")", .sym t!"{"],
  [.word t!"static", .word t!"atomic_bool", .word t!"already_recorded", .sym t!"[", .num n,
  .sym t!"]", .sym t!";"],
  [.word t!"if", .sym t!"(", .word t!"atomic_exchange", .sym t!"(", .sym t!"&",
  .word t!"already_recorded", .sym t!"[", .word t!"local_mutation_id", .sym t!"]", .sym t!",",
  .num 1, .sym t!")", .sym t!")", .word t!"return", .sym t!";"],
  [.word t!"const", .word t!"char", .sym t!"*", .word t!"dredd_tracking_environment_variable",
  .sym t!"=", .word t!"getenv", .sym t!"(", .str t!"DREDD_MUTANT_TRACKING_FILE", .sym t!")",
  .sym t!";"],
  [.word t!"if", .sym t!"(", .sym t!"!", .word t!"dredd_tracking_environment_variable",
  .sym t!")", .word t!"return", .sym t!";"],
  [.word t!"FILE", .sym t!"*", .word t!"fp", .sym t!"=", .word t!"fopen", .sym t!"(",
  .word t!"dredd_tracking_environment_variable", .sym t!",", .str t!"a", .sym t!")", .sym t!";"],
  [.word t!"for", .sym t!"(", .word t!"int", .word t!"i", .sym t!"=", .num 0, .sym t!";",
  .word t!"i", .sym t!"<", .word t!"num_mutations", .sym t!";", .word t!"i", .sym t!"++",
  .sym t!")", .sym t!"{"],
  [.word t!"fprintf", .sym t!"(", .word t!"fp", .sym t!",", .str t!"%d\n", .sym t!",",
  .num first, .sym t!"+", .word t!"local_mutation_id", .sym t!"+", .word t!"i", .sym t!")",
  .sym t!";"],
  [.sym t!"}"],
  [.word t!"fclose", .sym t!"(", .word t!"fp", .sym t!")", .sym t!";"],
  [.sym t!"}"],
  []]

theorem recordC_toks (first n : Nat) : ReadAll (recordC first n).lines (recordCToks first n) := by
  rw [recordC_lines]
  unfold recordCToks
  refine .cons (.lit (by decide +kernel)) ?_
  refine .cons (.num
    [.word t!"static", .word t!"atomic_bool", .word t!"already_recorded", .sym t!"["]
    [.sym t!"]", .sym t!";"]
    (by decide +kernel) rfl) ?_
  refine .cons (.lit (by decide +kernel)) ?_
  refine .cons (.lit (by decide +kernel)) ?_
  refine .cons (.lit (by decide +kernel)) ?_
  refine .cons (.lit (by decide +kernel)) ?_
  refine .cons (.lit (by decide +kernel)) ?_
  refine .cons (.num
    [.word t!"fprintf", .sym t!"(", .word t!"fp", .sym t!",", .str t!"%d\n", .sym t!","]
    [.sym t!"+", .word t!"local_mutation_id", .sym t!"+", .word t!"i", .sym t!")", .sym t!";"]
    (by decide +kernel) rfl) ?_
  refine .cons (.lit (by decide +kernel)) ?_
  refine .cons (.lit (by decide +kernel)) ?_
  refine .cons (.lit (by decide +kernel)) ?_
  refine .cons (.lit (by decide +kernel)) ?_
  exact .nil

end Dredd.PreludeRead
