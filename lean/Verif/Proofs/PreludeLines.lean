/-
The printed form of the programs in `Model/PreludeProg.lean` is the text of the
preludes.
-/
import Verif.Model.PreludeProg
import Verif.Model.PreludeText

namespace Dredd.MiniC

/-- The lines of the preprocessor block before the functions
(mutate_ast_consumer.cc 267-273). -/
def macrosCpp : Text :=
    t!"\n"
    ++ t!"#ifdef _MSC_VER\n"
    ++ t!"#define thread_local __declspec(thread)\n"
    ++ t!"#elif __APPLE__\n"
    ++ t!"#define thread_local __thread\n"
    ++ t!"#endif\n"
    ++ t!"\n"

theorem enabledCpp_lines (first n : Nat) : (enabledCpp first n).lines = [
  t!"static thread_local bool __dredd_some_mutation_enabled = true;\n",
  t!"static bool __dredd_enabled_mutation(int local_mutation_id) {\n",
  t!"  static thread_local bool initialized = false;\n",
  t!"  static thread_local uint64_t enabled_bitset[" ++ natDec ((n + 63) / 64) ++ t!"];\n",
  t!"  if (!initialized) {\n",
  t!"    bool some_mutation_enabled = false;\n",
  t!"    const char* dredd_environment_variable = std::getenv(\"DREDD_ENABLED_MUTATION\");\n",
  t!"    if (dredd_environment_variable != nullptr) {\n",
  t!"      std::string contents(dredd_environment_variable);\n",
  t!"      while (true) {\n",
  t!"        size_t pos = contents.find(\",\");\n",
  t!"        std::string token = (pos == std::string::npos ? contents : contents.substr(0, pos));\n",
  t!"        if (!token.empty()) {\n",
  t!"          int value = std::stoi(token);\n",
  t!"          int local_value = value - " ++ natDec first ++ t!";\n",
  t!"          if (local_value >= 0 && local_value < " ++ natDec n ++ t!") {\n",
  t!"            enabled_bitset[local_value / 64] |= (static_cast<uint64_t>(1) << (local_value % 64));\n",
  t!"            some_mutation_enabled = true;\n",
  t!"          }\n",
  t!"        }\n",
  t!"        if (pos == std::string::npos) {\n",
  t!"          break;\n",
  t!"        }\n",
  t!"        contents.erase(0, pos + 1);\n",
  t!"      }\n",
  t!"    }\n",
  t!"    initialized = true;\n",
  t!"    __dredd_some_mutation_enabled = some_mutation_enabled;\n",
  t!"  }\n",
  t!"  return (enabled_bitset[local_mutation_id / 64] & (static_cast<uint64_t>(1) << (local_mutation_id % 64))) != 0;\n",
  t!"}\n",
  t!"\n"] := by
  with_unfolding_all rfl

theorem enabledC_lines (first n : Nat) : (enabledC first n).lines = [
  t!"static thread_local int __dredd_some_mutation_enabled = 1;\n",
  t!"static bool __dredd_enabled_mutation(int local_mutation_id) {\n",
  t!"  static thread_local int initialized = 0;\n",
  t!"  static thread_local uint64_t enabled_bitset[" ++ natDec ((n + 63) / 64) ++ t!"];\n",
  t!"  if (!initialized) {\n",
  t!"    int some_mutation_enabled = 0;\n",
  t!"    const char* dredd_environment_variable = getenv(\"DREDD_ENABLED_MUTATION\");\n",
  t!"    if (dredd_environment_variable) {\n",
  t!"      char* temp = malloc(strlen(dredd_environment_variable) + 1);\n",
  t!"      strcpy(temp, dredd_environment_variable);\n",
  t!"      char* token;\n",
  t!"      token = strtok(temp, \",\");\n",
  t!"      while(token) {\n",
  t!"        int value = atoi(token);\n",
  t!"        int local_value = value - " ++ natDec first ++ t!";\n",
  t!"        if (local_value >= 0 && local_value < " ++ natDec n ++ t!") {\n",
  t!"          enabled_bitset[local_value / 64] |= ((uint64_t) 1 << (local_value % 64));\n",
  t!"          some_mutation_enabled = 1;\n",
  t!"        }\n",
  t!"        token = strtok(NULL, \",\");\n",
  t!"      }\n",
  t!"      free(temp);\n",
  t!"    }\n",
  t!"    initialized = 1;\n",
  t!"    __dredd_some_mutation_enabled = some_mutation_enabled;\n",
  t!"  }\n",
  t!"  return enabled_bitset[local_mutation_id / 64] & ((uint64_t) 1 << (local_mutation_id % 64));\n",
  t!"}\n",
  t!"\n"] := by
  with_unfolding_all rfl

theorem trackedId_text (first : Nat) :
    (trackedId first).text = natDec first ++ t!" + local_mutation_id + i" := by
  simp only [trackedId, Expr.text, List.append_assoc]
  rfl

theorem putCpp_line (first : Nat) :
    indent (1 + 1) ++ Expr.text (.putCpp .outputFile (trackedId first)) ++ t!";\n" =
      t!"    output_file << (" ++ natDec first ++ t!" + local_mutation_id + i) << \"\\n\";\n" := by
  simp only [Expr.text, trackedId_text, List.append_assoc]
  rfl

theorem putC_line (first : Nat) :
    indent (1 + 1) ++ Expr.text (.putC .fp (trackedId first)) ++ t!";\n" =
      t!"    fprintf(fp, \"%d\\n\", " ++ natDec first ++ t!" + local_mutation_id + i);\n" := by
  simp only [Expr.text, trackedId_text, List.append_assoc]
  rfl

theorem recordCpp_lines (first n : Nat) : (recordCpp first n).lines = [
  t!"static void __dredd_record_covered_mutants(int local_mutation_id, int num_mutations) {\n",
  t!"  static std::atomic<bool> already_recorded[" ++ natDec n ++ t!"];\n",
  t!"  if (already_recorded[local_mutation_id].exchange(true)) return;\n",
  t!"  const char* dredd_tracking_environment_variable = std::getenv(\"DREDD_MUTANT_TRACKING_FILE\");\n",
  t!"  if (dredd_tracking_environment_variable == nullptr) return;\n",
  t!"  std::ofstream output_file;\n",
  t!"  output_file.open(dredd_tracking_environment_variable, std::ios_base::app);\n",
  t!"  for (int i = 0; i < num_mutations; i++) {\n",
  t!"    output_file << (" ++ natDec first ++ t!" + local_mutation_id + i) << \"\\n\";\n",
  t!"  }\n",
  t!"}\n",
  t!"\n"] := by
  simp only [recordCpp, Fun.lines, block, Stmt.lines]
  rw [putCpp_line]
  with_unfolding_all rfl

theorem recordC_lines (first n : Nat) : (recordC first n).lines = [
  t!"static void __dredd_record_covered_mutants(int local_mutation_id, int num_mutations) {\n",
  t!"  static atomic_bool already_recorded[" ++ natDec n ++ t!"];\n",
  t!"  if (atomic_exchange(&already_recorded[local_mutation_id], 1)) return;\n",
  t!"  const char* dredd_tracking_environment_variable = getenv(\"DREDD_MUTANT_TRACKING_FILE\");\n",
  t!"  if (!dredd_tracking_environment_variable) return;\n",
  t!"  FILE* fp = fopen(dredd_tracking_environment_variable, \"a\");\n",
  t!"  for (int i = 0; i < num_mutations; i++) {\n",
  t!"    fprintf(fp, \"%d\\n\", " ++ natDec first ++ t!" + local_mutation_id + i);\n",
  t!"  }\n",
  t!"  fclose(fp);\n",
  t!"}\n",
  t!"\n"] := by
  simp only [recordC, Fun.lines, block, Stmt.lines]
  rw [putC_line]
  with_unfolding_all rfl

/-- The same for C (mutate_ast_consumer.cc 394-402). -/
def macrosC : Text :=
    t!"\n"
    ++ t!"#ifdef _MSC_VER\n"
    ++ t!"#define thread_local __declspec(thread)\n"
    ++ t!"#elif __APPLE__\n"
    ++ t!"#define thread_local __thread\n"
    ++ t!"#else\n"
    ++ t!"#include <threads.h>\n"
    ++ t!"#endif\n"
    ++ t!"\n"

theorem app_flat (y l : Text) (ls : List Text) :
    y ++ (l :: ls).flatten = y ++ l ++ ls.flatten := by
  rw [List.flatten_cons, List.append_assoc]

theorem app_flat_num (y a b c : Text) (ls : List Text) :
    y ++ ((a ++ b ++ c) :: ls).flatten = y ++ a ++ b ++ c ++ ls.flatten := by
  simp only [List.flatten_cons, List.append_assoc]

theorem app_flat_nil (y : Text) : y ++ List.flatten [] = y := List.append_nil y

theorem regularPreludeCpp_eq (first n : Nat) :
    regularPreludeCpp first n = headersCpp ++ macrosCpp ++ (enabledCpp first n).lines.flatten := by
  rw [enabledCpp_lines]
  unfold regularPreludeCpp macrosCpp
  simp only [← List.append_assoc]
  repeat (first | rw [app_flat_num] | rw [app_flat])
  rw [app_flat_nil]

theorem regularPreludeC_eq (first n : Nat) :
    regularPreludeC first n = headersC ++ macrosC ++ (enabledC first n).lines.flatten := by
  rw [enabledC_lines]
  unfold regularPreludeC macrosC
  simp only [← List.append_assoc]
  repeat (first | rw [app_flat_num] | rw [app_flat])
  rw [app_flat_nil]

theorem trackingPreludeCpp_eq (first n : Nat) :
    trackingPreludeCpp first n = headersCpp ++ t!"\n" ++ (recordCpp first n).lines.flatten := by
  rw [recordCpp_lines]
  unfold trackingPreludeCpp
  simp only [← List.append_assoc]
  repeat (first | rw [app_flat_num] | rw [app_flat])
  rw [app_flat_nil]

theorem trackingPreludeC_eq (first n : Nat) :
    trackingPreludeC first n = headersC ++ t!"\n" ++ (recordC first n).lines.flatten := by
  rw [recordC_lines]
  unfold trackingPreludeC
  simp only [← List.append_assoc]
  repeat (first | rw [app_flat_num] | rw [app_flat])
  rw [app_flat_nil]

end Dredd.MiniC
