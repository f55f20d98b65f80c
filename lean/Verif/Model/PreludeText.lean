/-
The text of the preludes: mutate_ast_consumer.cc 48-74, 253-473.  The behaviour
of the code that these texts contain is modelled in `Model/Prelude.lean`.
-/
import Verif.Model.Gen

namespace Dredd

/-- `kDreddPreludeStartComment` (mutate_ast_consumer.cc 49-56). -/
def preludeStart : Text :=
    t!"// DREDD PRELUDE START\n"
    ++ t!"// If this has been inserted at an inappropriate place in a source file,\n"
    ++ t!"// declare a placeholder function with the following signature to\n"
    ++ t!"// mandate where the prelude should be placed:\n"
    ++ t!"//\n"
    ++ t!"// void __dredd_prelude_start();\n"
    ++ t!"//\n"

/-- `kDreddPreludeHeadersCpp` (mutate_ast_consumer.cc 58-65). -/
def headersCpp : Text :=
    t!"#include <atomic>\n"
    ++ t!"#include <cinttypes>\n"
    ++ t!"#include <cstddef>\n"
    ++ t!"#include <fstream>\n"
    ++ t!"#include <functional>\n"
    ++ t!"#include <sstream>\n"
    ++ t!"#include <string>\n\n"

/-- `kDreddPreludeHeadersC` (mutate_ast_consumer.cc 67-73). -/
def headersC : Text :=
    t!"#include <inttypes.h>\n"
    ++ t!"#include <stdatomic.h>\n"
    ++ t!"#include <stdbool.h>\n"
    ++ t!"#include <stdio.h>\n"
    ++ t!"#include <stdlib.h>\n"
    ++ t!"#include <string.h>\n"

/-- `GetRegularDreddPreludeCpp` (mutate_ast_consumer.cc 253-345); `n` is
`num_mutations`. -/
def regularPreludeCpp (first n : Nat) : Text :=
    headersCpp
    ++ t!"\n"
    ++ t!"#ifdef _MSC_VER\n"
    ++ t!"#define thread_local __declspec(thread)\n"
    ++ t!"#elif __APPLE__\n"
    ++ t!"#define thread_local __thread\n"
    ++ t!"#endif\n"
    ++ t!"\n"
    ++ t!"static thread_local bool __dredd_some_mutation_enabled = true;\n"
    ++ t!"static bool __dredd_enabled_mutation(int local_mutation_id) {\n"
    ++ t!"  static thread_local bool initialized = false;\n"
    ++ t!"  static thread_local uint64_t enabled_bitset["
    ++ natDec ((n + 63) / 64)
    ++ t!"];\n"
    ++ t!"  if (!initialized) {\n"
    ++ t!"    bool some_mutation_enabled = false;\n"
    ++ t!"    const char* dredd_environment_variable = std::getenv(\"DREDD_ENABLED_MUTATION\");\n"
    ++ t!"    if (dredd_environment_variable != nullptr) {\n"
    ++ t!"      std::string contents(dredd_environment_variable);\n"
    ++ t!"      while (true) {\n"
    ++ t!"        size_t pos = contents.find(\",\");\n"
    ++ t!"        std::string token = (pos == std::string::npos ? contents : contents.substr(0, pos));\n"
    ++ t!"        if (!token.empty()) {\n"
    ++ t!"          int value = std::stoi(token);\n"
    ++ t!"          int local_value = value - "
    ++ natDec first
    ++ t!";\n"
    ++ t!"          if (local_value >= 0 && local_value < "
    ++ natDec n
    ++ t!") {\n"
    ++ t!"            enabled_bitset[local_value / 64] |= (static_cast<uint64_t>(1) << (local_value % 64));\n"
    ++ t!"            some_mutation_enabled = true;\n"
    ++ t!"          }\n"
    ++ t!"        }\n"
    ++ t!"        if (pos == std::string::npos) {\n"
    ++ t!"          break;\n"
    ++ t!"        }\n"
    ++ t!"        contents.erase(0, pos + 1);\n"
    ++ t!"      }\n"
    ++ t!"    }\n"
    ++ t!"    initialized = true;\n"
    ++ t!"    __dredd_some_mutation_enabled = some_mutation_enabled;\n"
    ++ t!"  }\n"
    ++ t!"  return (enabled_bitset[local_mutation_id / 64] & (static_cast<uint64_t>(1) << (local_mutation_id % 64))) != 0;\n"
    ++ t!"}\n"
    ++ t!"\n"

/-- `GetMutantTrackingDreddPreludeCpp` (mutate_ast_consumer.cc 347-373). -/
def trackingPreludeCpp (first n : Nat) : Text :=
    headersCpp
    ++ t!"\n"
    ++ t!"static void __dredd_record_covered_mutants(int local_mutation_id, int num_mutations) {\n"
    ++ t!"  static std::atomic<bool> already_recorded["
    ++ natDec n
    ++ t!"];\n"
    ++ t!"  if (already_recorded[local_mutation_id].exchange(true)) return;\n"
    ++ t!"  const char* dredd_tracking_environment_variable = std::getenv(\"DREDD_MUTANT_TRACKING_FILE\");\n"
    ++ t!"  if (dredd_tracking_environment_variable == nullptr) return;\n"
    ++ t!"  std::ofstream output_file;\n"
    ++ t!"  output_file.open(dredd_tracking_environment_variable, std::ios_base::app);\n"
    ++ t!"  for (int i = 0; i < num_mutations; i++) {\n"
    ++ t!"    output_file << ("
    ++ natDec first
    ++ t!" + local_mutation_id + i) << \"\\n\";\n"
    ++ t!"  }\n"
    ++ t!"}\n"
    ++ t!"\n"

/-- `GetRegularDreddPreludeC` (mutate_ast_consumer.cc 383-440). -/
def regularPreludeC (first n : Nat) : Text :=
    headersC
    ++ t!"\n"
    ++ t!"#ifdef _MSC_VER\n"
    ++ t!"#define thread_local __declspec(thread)\n"
    ++ t!"#elif __APPLE__\n"
    ++ t!"#define thread_local __thread\n"
    ++ t!"#else\n"
    ++ t!"#include <threads.h>\n"
    ++ t!"#endif\n"
    ++ t!"\n"
    ++ t!"static thread_local int __dredd_some_mutation_enabled = 1;\n"
    ++ t!"static bool __dredd_enabled_mutation(int local_mutation_id) {\n"
    ++ t!"  static thread_local int initialized = 0;\n"
    ++ t!"  static thread_local uint64_t enabled_bitset["
    ++ natDec ((n + 63) / 64)
    ++ t!"];\n"
    ++ t!"  if (!initialized) {\n"
    ++ t!"    int some_mutation_enabled = 0;\n"
    ++ t!"    const char* dredd_environment_variable = getenv(\"DREDD_ENABLED_MUTATION\");\n"
    ++ t!"    if (dredd_environment_variable) {\n"
    ++ t!"      char* temp = malloc(strlen(dredd_environment_variable) + 1);\n"
    ++ t!"      strcpy(temp, dredd_environment_variable);\n"
    ++ t!"      char* token;\n"
    ++ t!"      token = strtok(temp, \",\");\n"
    ++ t!"      while(token) {\n"
    ++ t!"        int value = atoi(token);\n"
    ++ t!"        int local_value = value - "
    ++ natDec first
    ++ t!";\n"
    ++ t!"        if (local_value >= 0 && local_value < "
    ++ natDec n
    ++ t!") {\n"
    ++ t!"          enabled_bitset[local_value / 64] |= ((uint64_t) 1 << (local_value % 64));\n"
    ++ t!"          some_mutation_enabled = 1;\n"
    ++ t!"        }\n"
    ++ t!"        token = strtok(NULL, \",\");\n"
    ++ t!"      }\n"
    ++ t!"      free(temp);\n"
    ++ t!"    }\n"
    ++ t!"    initialized = 1;\n"
    ++ t!"    __dredd_some_mutation_enabled = some_mutation_enabled;\n"
    ++ t!"  }\n"
    ++ t!"  return enabled_bitset[local_mutation_id / 64] & ((uint64_t) 1 << (local_mutation_id % 64));\n"
    ++ t!"}\n"
    ++ t!"\n"

/-- `GetMutantTrackingDreddPreludeC` (mutate_ast_consumer.cc 442-466). -/
def trackingPreludeC (first n : Nat) : Text :=
    headersC
    ++ t!"\n"
    ++ t!"static void __dredd_record_covered_mutants(int local_mutation_id, int num_mutations) {\n"
    ++ t!"  static atomic_bool already_recorded["
    ++ natDec n
    ++ t!"];\n"
    ++ t!"  if (atomic_exchange(&already_recorded[local_mutation_id], 1)) return;\n"
    ++ t!"  const char* dredd_tracking_environment_variable = getenv(\"DREDD_MUTANT_TRACKING_FILE\");\n"
    ++ t!"  if (!dredd_tracking_environment_variable) return;\n"
    ++ t!"  FILE* fp = fopen(dredd_tracking_environment_variable, \"a\");\n"
    ++ t!"  for (int i = 0; i < num_mutations; i++) {\n"
    ++ t!"    fprintf(fp, \"%d\\n\", "
    ++ natDec first
    ++ t!" + local_mutation_id + i);\n"
    ++ t!"  }\n"
    ++ t!"  fclose(fp);\n"
    ++ t!"}\n"
    ++ t!"\n"

/-- `GetDreddPreludeCpp` and `GetDreddPreludeC` (mutate_ast_consumer.cc
375-381, 468-473) and the choice between them (162-165). -/
def preludeText (l : Lang) (o : Options) (first n : Nat) : Text :=
  preludeStart ++
    (if l.cpp then if o.track then trackingPreludeCpp first n else regularPreludeCpp first n
     else if o.track then trackingPreludeC first n else regularPreludeC first n)

end Dredd
